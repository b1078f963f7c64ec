# Formal model of ethnum-rs: design

Subject: the Rust crate in `/repo` (`ethnum`, 256-bit integers `U256` and `I256`) with both of its
intrinsics back-ends (native, and the feature `llvm-intrinsics`), plus its optional `serde` module. Prover: Lean 4.33.0 with Mathlib lemmas.

## 1. Shape of the model

* `lean/Verif/Basic.lean`: results, build configurations, Rust primitive integers.
  * `Res α = Except Fault α`. `Fault` is `panic kind`, `ub kind` (undefined behaviour: an
    `unreachable_unchecked` that is reached, `NonZero::new_unchecked(0)`, an out-of-bounds
    pointer access) or `diverge` (loop fuel exhausted). A theorem `f c x = .ok v` therefore says
    *no panic, no undefined behaviour, terminates, returns v*.
  * `Cfg`: target byte order, `debug_assertions`, `overflow-checks` (separate flags, as in
    Cargo), pointer width (16/32/64), and the feature `llvm-intrinsics`. Every function that depends on one of them takes the
    configuration `c`, and every theorem is universally quantified over `c` (or says which
    builds it is about). So each claim covers both back-ends.
  * `Model/Intrinsics.lean` holds the native routines in the namespace `Native`; `Model/Llvm.lean`
    the generated ones in `Llvm`. `Intr.f` is the routine `f` that `src/intrinsics.rs` exports: one or
    the other, by `c.llvm`. The signed wrappers and the division routines are the same source text in
    both back-ends.
  * A Rust `u128`/`i128`/`u32`/... is a `BitVec`; signedness is in the operation. `+ - * << >>`
    on primitives are the checked operations `addC subC mulC shlC shrC`: they panic on overflow
    if `c.overflowChecks`, else wrap, exactly as rustc compiles them.
* `lean/Verif/Model/*.lean`: the code, function by function, under the Rust names. Every
  definition cites file and lines. `U256`/`I256` hold the two raw array words in memory order;
  which is the high one depends on `c`. Out-parameters (`&mut MaybeUninit`) become results;
  in-place routines (`add2`, ...) are separate functions from the old to the new value.
* `lean/Verif/Model/Mem.lean`: the intrinsics, operators and assigning operators once more, as the
  code writes them: functions of references that read and write objects in memory word by word, in
  order, some of them uninitialised. `Proofs/Mem.lean` shows function by function that they do what
  the result-valued model says (a refinement), and C54/C55 state it on numbers (`SpecMem.lean`). The
  memory survives a panic, so a statement about it is a statement about what `catch_unwind` sees.
* `lean/Verif/Model/Alias.lean`: `Model/Mem` with the pointers made and used recorded beside (C69). Function calls retag their
  reference arguments and protect them; a local variable is a new allocation that ends with a write.
* `lean/Verif/Model/Steps.lean`: `Model/Mem` with every access to memory as a step, for threads (C72).
* `lean/Verif/Spec*.lean`: the specification, which does not use the model's functions.
  `Spec.lean` says what the words mean (`U256.toNat c x`, `I256.toInt c x`) and counts bits on
  `BitVec 256`; `SpecText.lean` what a numeral or a literal denotes; `SpecFmt.lean` how a printed
  number is laid out (sign, prefix, digits, padding); `SpecOps.lean` what a shift amount denotes;
  `SpecFloat.lean` IEEE values; `SpecSerde.lean` the wire formats; `SpecProg.lean` expressions;
  `SpecDoc.lean` records and data formats;
  `SpecMem.lean` numbers in memory and histories of assignments; `SpecLang.lean` whole programs and their meaning over
  the integers; `SpecLimbs.lean` numbers of many digits and client programs on them; `SpecMaps.lean` maps with 256-bit keys;
  `SpecBorrow.lean` the two aliasing models; `SpecWork.lean` the number of turns of a loop; `SpecSort.lean` dictionary order;
  `SpecWriter.lean` writing to writers that may fail; `SpecThreads.lean` threads, schedules and data races;
  `SpecBits.lean` the vector of 256 bits of a value; `SpecExp.lean` scientific notation and the promise of std's printer of doubles; `SpecLedger.lean` a token ledger on integers, and a client that keeps one; `SpecNumber.lean` Euclid, inverses, powers and roots as clients write them; `SpecSet.lean` bit maps as finite sets; `SpecUnits.lean` decimals with a point, and a client for amounts; `SpecTricks.lean` a client with bit idioms; `SpecAbi.lean` a client for call data, and what call data says; `SpecScript.lean` what the build script is to do;
  `SpecEvm.lean` the Ethereum virtual machine of the Yellow Paper (without gas, accounts and logs) on numbers, `SpecEvmClient.lean` its
  instructions written with `U256` as a client of the crate.
* `lean/Verif/Proofs/*.lean`: lemmas. `Proofs/Endian/*` moves every function from one build to
  another (C43), `Proofs/Backend/*` from one back-end to the other (C46); `Proofs/Defined/*` shows
  that every function is free of undefined behaviour and of endless loops (C41); `Proofs/Knuth*`, `Proofs/Div*` hold the division algorithm.
* `lean/Verif/Props/*.lean`: the property theorems `C01_...` with non-vacuity examples.
* `lean/Verif/Tests/*.lean`: the assertions of the crate's own documentation examples and unit
  tests, checked of the model (`DocTests.lean` is generated by `tools/doctests.py`). They are
  evidence that the model is faithful, and count as tests only.
* `lean/Verif/Axioms.lean`: an audit run by the build; it fails if a claim theorem depends on an
  axiom other than the three below.

Loops are structural recursions over explicit fuel returning `diverge` when it runs out; the
theorems show that never happens, which is the termination claim.

## 2. Trusted base

* Lean's kernel, and the axioms `propext`, `Classical.choice`, `Quot.sound` only
  (`Verif/Axioms.lean` checks this for every claim theorem). No axiom is added; no `sorry`,
  `native_decide`, `bv_decide`. `decide +kernel` is used for concrete examples and for complete
  finite case splits only.
* That the model transcribes the Rust text. There is no compiler in the loop: each definition
  cites the lines so it can be compared by eye, and the crate's own doc examples and unit tests
  are checked of the model in `Verif/Tests`.
* The semantics given in `Basic.lean` to rustc primitives: fixed-width integers, casts, checked
  arithmetic, `leading_zeros` and friends, slices, `Option`/`Result`.
* Formatting: `core::fmt::Formatter` is its flags, width, fill and alignment, and
  `Formatter::pad_integral` is written from std's source. Text is a list of characters.
* Scientific notation: what `{:e}` of an `f64` promises (`StdExp`: the shortest decimal that is read back, or rounding to a precision
  with ties to even) is written from std's documentation and source as known. It is a hypothesis of C73; `C73_promise` shows that it can be kept.
* Parsing: a `&str` is its list of bytes; the parser looks at bytes only.
* Floating point: a float is its bit pattern; `u128 as f64`, `+`, `*`, unary minus, `f64 as f32`
  are IEEE-754 round-to-nearest, ties-to-even of the exact result, defined once in `Model/Float`
  and `Spec` and proved to have that meaning.
* Serde: a serializer is the datum it is handed (`Datum`: a string or bytes); a deserializer is
  the one visitor call it makes (`Input`), including sequences of elements with or without a size
  hint and with element errors. The default methods of `serde::de::Visitor` (forwarding of
  `visit_i8` and others, `invalid_type` errors, UTF-8 validation in `visit_bytes`) are written
  from serde's documentation. `write!` may cut its text in any chunks (`Chunking`).
* LLVM back-end: the instructions in the IR template of `src/intrinsics/llvm` have the meaning of
  the LLVM language reference at width 256 (`Template.*` on `BitVec 256`), and its loads and stores
  transfer the 32 bytes of the array in the byte order of the target.
* `num::BigInt`, used only by the fuzzer, is an integer (`Model/Fuzz`); what `#[derive(Arbitrary)]` of the `arbitrary` crate
  generates for its types is written from that crate's documentation and source as known (`Model/FuzzInput`); the default methods `max`,
  `min` and `clamp` of `core::cmp::Ord` are written from std's source (`Model/Ord`), and so is `{:#?}` of derived types (`Model/Bins`).

## 3. Not modelled

* Weak memory. Threads (C72) interleave on one memory; that a program without data races behaves so on real machines is what the
  language promises, and C72 shows that there are none.

* Memory layout, borrow checking, inlining. In `Model/Mem.lean` an object is two
  128-bit words; a reference is its address; that a `&mut` object is not also an operand (the borrow
  rules) is a hypothesis of the theorems of C54/C55. Elsewhere out-parameters are results. C41 covers
  bounds, initialisation, `unreachable_unchecked`, `NonZero::new_unchecked`, unchecked UTF-8 and
  loops; aliasing rules are the subject of C67, for the buffers of the formatting code, and of C69, for arithmetic, in both candidate
  models (`SpecBorrow.lean`, without two-phase borrows, interior mutability and integer-to-pointer casts, which the code does not use there).
* For the LLVM back-end: rustc, clang and machine code. The build script's replacements are modelled on arbitrary text,
  and the template functions as IR written by hand in a fragment of LLVM IR (`Model/Ir`, C60); the text that a given
  rustc prints is not. The script itself is modelled on arbitrary files and tools (C81), with Unix paths, and without the kind of an
  error and what the crate `cc` does with what it is told.
* `docs`, `bench`, the messages of panics, the
  serializer/deserializer internals of third-party formats (their calls into the visitor are the
  inputs of the model).
* References outside `Model/Mem.lean`: a reference is the value it refers to. The operator forms on references and
  primitives are modelled as functions of their own (C50).
* How std computes the digits of `{:e}`/`{:E}`: the code forwards to `f64`'s implementation, which is an
  argument of the model, arbitrary in C48 and keeping the promise `StdExp` in C73.

## 4. Per property: model and proof

| id | modelled | proof |
|----|----------|-------|
| C01 | raw words, `from_words`, ... for both byte orders | case split on byte order, linear arithmetic |
| C02 | add2/add3/uaddc/sub*/usubc and all `U256` add/sub methods | carries as Nat inequalities |
| C03 | umulddi3, mul2/3, umulc and methods | 64-bit limb algebra, bounds show no checked op overflows |
| C04 | udivmod4, div_mod_knuth, operators, all methods | Knuth theorem B for base 2^64 and base 2^128; uniqueness of quotient and remainder |
| C05 | udiv256_by_128_to_128 with correction loops | loop invariant; fuel 3 suffices; distance between estimate and digit counts the corrections |
| C06 | iaddc, isubc and `I256` methods | two's complement algebra |
| C07 | imulc and methods | comparison with MAX/abs(b), MIN/-abs(b) |
| C08 | idivmod4, operators, methods | reduction to C04 on magnitudes |
| C09 | Euclidean methods of `I256` | from C08; full statement is false in debug builds at b = MIN: counterexample theorem and `_partial` |
| C10, C11 | shl/shr/sar intrinsics and methods | powers of two |
| C12 | shift operators for all amount types | reduction to C10/C11; the release claim for amounts >= 256 is false of the native back-end: counterexample and `_partial` |
| C13 | rol3, ror3, rotate_* | full claim false of the native back-end for n > 256 with overflow checks: counterexample and `_partial` |
| C14, C15 | count/lead/trail, swap_bytes, reverse_bits | on the 256-bit pattern `hi ++ lo` |
| C16, C17 | pow loops | invariant acc * base^exp = a^e, with overflow monotonicity |
| C18 | power-of-two functions | log2 characterisation |
| C19 | abs_diff | from C02/C06 |
| C20 | cmp, eq, hash input | lexicographic order on words |
| C21 | not/and/or/xor | bit by bit |
| C22 | bytes | base-256 digits |
| C23, C24 | conversions, generic over primitive width and signedness; the list of which conversions are infallible and which fallible | ranges |
| C25, C26 | operators, mixed operands, assigning forms | from C02..C08 |
| C27 | folds over lists | induction on the list |
| C28-C30 | from_str_radix on byte lists, prefixed, hex | induction on the digit list |
| C31 | const parser, the macros that call it (`Model/Literals`: a panic in the compiler is a compile error) | claim false for some decimals: counterexample and `_partial`; agreement with the run-time parser by comparing the accepted texts |
| C32, C33 | fmt loops, buffer as explicit offsets, pad_integral | induction; buffer bound as invariant; the layout of the text is stated relationally and shown to be unique |
| C34 | composition of C28-C33 | digits/numeral inverse |
| C35, C36 | float conversions on bit patterns | integer rounding lemmas; counterexamples for the known deviations; where the result is not the nearest float, the sequence of roundings that determines it, and a margin that makes it the nearest float (`Props/FloatClear.lean`, triangle inequality) |
| C37-C40 | serde serializers as produced data, visitors as functions of the delivered data | from C28-C34 and byte lemmas; counterexamples for I256 compressed bytes |
| C41 | union of the UB-freedom parts | theorems say `.ok` or `panic`, never `ub` |
| C42 | operators under two configurations | from C25/C26 |
| C43 | all functions under both byte orders | values depend on `toNat`/`toInt` only |
| C44 | sign functions | case split on the high word |
| C45 | wrapping ops | transport from ZMod-style laws of Int modulo 2^256 |
| C46 | meaning of the LLVM template on `BitVec 256`; all functions in builds with and without it | equality of the routines, then `f {c with llvm := true} = f {c with llvm := false}` function by function; exact conditions for the shift operators and rotations |
| C47 | memory layouts of the std error structs as parameters: size, offset of the only field, padding; `transmute` compiles only for equal sizes | equal sizes force the field to offset 0, so the bytes are those std itself makes |
| C48 | `LowerExp`/`UpperExp` hand `as_f64()` to a printer of doubles, which is an arbitrary function of the double and the formatter (`F64Fmt`); `From` impls into floats | the double handed over is faithful, exact when representable; quantified over the printer |
| C49 | every public function of the model as a `Res` | `PanicsIff r p`: panics when `p`, returns a value otherwise, collected from the functional theorems |
| C50 | each generated operator form as a function forwarding to another form (`Model/Forms`) | unfolding to the form on two references; combined with C25 and C21 |
| C51 | expressions as client code of the operators, checked and wrapping methods (`SpecProg.lean`) | induction over expressions from C02-C08, C16, C17, C25 |
| C52 | every form of the arithmetic and shift methods | relation between forms, from C02-C11, C16, C17, C25 |
| C53 | `From` of primitives composed with operators | numbers determine values; sign extension for the bit operations |
| C54 | the routines of `intrinsics` on memory: operands and outputs are objects, outputs may be uninitialised (`Model/Mem`) | symbolic execution of each routine against the result-valued model (`Proofs/Mem`), then C02-C13 |
| C55 | assigning operators on memory, by reference and by value; sequences of them as client code (`SpecMem`) | C54-style refinement, C25, C26, C12; induction over the sequence |
| C56 | the fuzz crate: conversions to and from `BigInt` (an `Int`), reference functions, `is_interesting`, `fuzz` (`Model/Fuzz`) | digit and byte lemmas; C02-C04, C06-C08 |
| C57 | the method each scheme calls on the deserializer (`Model/SerdeWith`); records and data formats (`SpecDoc`) | what each scheme writes and reads per field; C37-C40 per field; induction over the fields; two concrete formats proved faithful |
| C58 | `core`'s default methods of `Ord` over the crate's `cmp`, derived `Default` (`Model/Ord`) | C20; uniqueness of the sorted permutation |
| C59 | client programs (`SpecLang`): expressions of both types, conditions, branches, loops, input and output, run step by step with the crate's functions | each construct against its meaning over the integers (C02-C11, C13-C21, C23-C26, C28-C30, C32, C33, C44, C58); induction over expressions and over the number of steps |
| C60 | `str::replace` and the three replacements of intrinsics/build/main.rs on arbitrary text; text and meaning (poison as `none`) of an LLVM IR fragment; the 21 template functions in it; the declarations in intrinsics/src/lib.rs (`SpecIr`) | cutting the text at white space, which no pattern has inside, the replacements act word by word; induction over words, instructions, parameters and items; symbolic execution of the functions |
| C61 | `Sum` and `Product` by value and by reference as `Iterator::fold` over an arbitrary transition function (`Model/Iter`), with the operand forms of C50; `SpecIter` says what an accumulation over an iterator has to do | induction over the items yielded, with the exact total of the items so far as invariant |
| C62 | client programs in `SpecLimbs`: carry and borrow chains, shifts across digits, schoolbook product, division by a digit, modular addition, multiplication and exponentiation; the value of a list of digits is stated without the model | induction over the digits, or over the bits of the multiplier and of the exponent, on the theorems of C02, C04, C12, C20, C21, C23 and C25 |
| C63 | `SpecBits` says which word holds which half of a `BitVec 256`; the operations on the other side are those of Lean's core library (`BitVec.sdiv`, `BitVec.smulOverflow`, `BitVec.clz`, ...) | both sides have the same number or the same bits: C02 - C15, C20, C21, C24 on one side, the library's theorems on `toNat`, `toInt` and `getLsbD` on the other |
| C64 | `SpecEvm` gives the meaning of the instructions on numbers and one machine for any type of words; `SpecEvmClient` is an interpreter's instructions written with the crate's API; the contract of the example is bytecode | one theorem per arity of instruction from C02 - C15, C20 - C24, C62; then a simulation, by induction on the number of steps, between the machine on `U256` and the machine on numbers; the factorial by induction on its argument |
| C65 | `SpecLimbs` has the client code (`fullMul`, `inverse`, `mulDiv`, `mulDivUp`) | the words of the product by arithmetic modulo 2^256 - 1; the inverse by induction on the rounds, each of which doubles the number of right bits; the quotient from C62, C12, C14 and the inverse |
| C66 | `SpecMaps` has a map from numbers without any data structure, and the data structures of clients (search tree, hash table, binary search), which see their keys only through `Ord`, `PartialEq` and `Hash` | the data structures are proved for any keys whose order, equality and hash are those of numbers, by induction over histories, trees and the size of the interval; C20 says that both types are such keys |
| C67 | `SpecBorrow` states Stacked Borrows and Tree Borrows for one byte and a trace of pointer events; `Model/Borrows` is `src/fmt.rs` and `FormatBuffer` again, with the trace beside the result | erasing the trace gives back the functions of `Model/Fmt` and `Model/Serde`; then an invariant of the stack or tree over the digits and over the writes. Tree Borrows accepts every trace (`_partial`), Stacked Borrows rejects exactly those proved in `C67_*_rejected` |
| C68 | the loops of `Model/UintApi`, `Model/IntApi`, `Model/Fmt` and `Model/DivMod` take the number of turns they may make as an argument; `SpecWork` says that a loop ends within a budget, or takes exactly that many turns | more budget does not change the result of a loop that ends (one lemma per loop); then a measure: the exponent halves, the value loses four decimal digits, the partial remainder grows by at least half of the digit size |
| C69 | `Model/Alias` is `Model/Mem` again (operators, intrinsics, methods that write an output), with every reference, reborrow at a call, cast, raw pointer and access recorded per allocation; `SpecBorrow.Obeys` asks both aliasing models of every allocation | erasing the record gives back the function of `Model/Mem` (a simulation, function by function); then each program is run symbolically on every path: the operands decide only which path is taken, so the record of each path is a closed list, on which the models are computed (`accepts_of_check`: bytes outside of the object are not touched). The case distinctions are written by `tools/alias_proofs.py` |
| C70 | nothing new: `to_be_bytes`, the serde byte formats and the formatting of earlier properties; `SpecSort` defines dictionary order and shorter-first order of lists of numbers | lists of digits of one length compare in dictionary order as their values (induction); every numeral denotes its number in digits whose characters ascend; the length of a numeral bounds its value |
| C71 | `Model/Writer` is `src/fmt.rs`, `src/macros/fmt.rs` and the text formats of `src/serde.rs` again, over a writer that is any state machine with fallible calls; `Formatter::pad_integral` of the standard library is written out call by call | the calls of `pad_integral` are computed as a list that the writer does not enter, whose texts concatenate to the text of C32/C33; everything else is induction over that list |
| C72 | `Model/Steps` is `Model/Mem` again, as trees of single reads and writes of words; `SpecThreads` interleaves such trees by a schedule, each with its own stack, defines data races, and lists the calls with the references in their signatures | the code without other threads is that of `Model/Mem` (one lemma per function); every access is to an object that was passed (likewise); then an invariant of the schedule: each thread is where it would be alone, in a memory that agrees on what it was given |
| C73 | the printer of doubles of C48, now one that keeps `StdExp` | the value and its double are close (C35), the double and its shortest decimal are close, and two decimals of at most 15 digits are not that close; false from 2^128 on, where `as_f64` rounds twice (`C73_misprinted`), so `C73_digits_partial` asks for a value below 2^128 |
| C74 | the conversions of C35 and C36, composed | as functions on magnitudes: two roundings that fix what is representable and are monotone; the integral part of a float is representable. The infinite `f32` does not saturate (`C74_f32_large`), so the claims on `f32` are `_partial` |
| C75 | a client (`SpecLedger.lean`: books, transactions, the program that writes one place after the other) on the models of `checked_*`, `wrapping_*`, `+=`, `-=` | induction on the history with the invariant that the balances add up to the supply, which bounds the recipient's new balance; modulo 2^256 for wrapping arithmetic. `C75_release_inflation` shows the books of a release build out of balance |
| C76 | clients (`SpecNumber.lean`: five textbook programs) on the models of the operators, comparisons, shifts and `rem_euclid` | Lamé's bound by induction on Fibonacci numbers; for the extended algorithm the invariant that the coefficients alternate in sign and `r0·\|s1\| + r1·\|s0\| = b`, which bounds every product; bisection with an interval of exactly 2^j numbers |
| C77 | client (`SpecSet.lean`: `elems` into Mathlib's `Finset`, one-number programs, histories, the walk) on the models of the bitwise operators, shifts, `-`, comparisons and digit counts | membership is a digit (`Nat.testBit`); induction on the history; induction on the budget of the walk with the lemma that `n & (n - 1)` clears the lowest digit 1 |
| C78 | client (`SpecUnits.lean`: what a decimal with a point denotes, in ℚ; writing and reading) on the models of `pow`, `/`, `%`, `Display`, `FromStr`, `checked_mul`, `checked_add` | composition of C16, C04, C32, C28, C03 and C02; the text is split at its only point because digits are none |
| C79 | client (`SpecTricks.lean`: means, lowest digit, powers of two, alignment, Gray codes, absolute value, exchange) on the models of the operators | composition of C21, C12, C25, C02, C06, C14; `a + b = 2 (a & b) + (a ^ b)` by induction; the steps of the Gray code commute and applying one twice is the next |
| C80 | client (`SpecAbi.lean`: writing and reading heads and tails, and what bytes say) on the models of `to_be_bytes`, `from_be_bytes`, `TryFrom` | composition of C22, C23 and C24; by induction on the arguments, with the heads and the tails as two segments of the data |
| C81 | `main` of intrinsics/build/main.rs as a program on files (`Model/Script`); rustc, the file system and clang are arbitrary functions, with failures; `SpecScript.lean` has the plan | case distinction over all exits of `main`; with C60 for the text; "from this build" is false because the exit status of rustc is ignored: counterexample and `_partial` |
| C82 | `main` of fuzz/src/bin/dump.rs and init.rs, and the derived `{:#?}` of the fuzzer's types (`Model/Bins`) | the text with its indentation computed; it is injective because the numerals stand between commas; C56 for the rest |

## 5. Where the code does not do what it says

Each is a theorem with a concrete witness; the property keeps its full statement and the theorem
that does hold carries the suffix `_partial`.

| finding | theorem |
|---------|---------|
| native back-end: `rotate_left/right(n)` panic for n > 256 in builds with overflow checks | `C13_rotate_panics` |
| the compile-time parser rejects some decimal literals in range, and accepts `0x` and the empty text as 0 | `C31_rejects_in_range`, `C31_accepts_without_digits` |
| `I256::div_rem_euclid` and friends panic in debug builds although the result is in range | `C09_div_rem_euclid_panics` |
| native back-end: release-mode shifts by 256 or more do not shift by the amount modulo 256 | `C12_release_wrong` |
| `f32::INFINITY as U256/I256` gives 2^128, not MAX | `C36_f32_infinity`, `C74_f32_large` |
| `compressed_bytes` does not give an `I256` back for all values, and is not shortest big-endian | `C40_i256_not_recovered`, `C40_i256_be_not_shortest` |
| `I256` `/`, `div_euclid` return MIN for MIN / -1 although documented to panic | `C08_min_by_minus_one`, `C09_min_by_minus_one` |
| `as_f64` and `I256::as_f32` are not the nearest float | `C35_as_f64_not_nearest`, `C35_i256_as_f32_not_nearest` |
| `from_str_prefixed` reports too large prefixed numbers as invalid digits | `C30_prefixed_overflow_kind` |
| permissive deserialization of a negative integer into `U256` wraps | `C38_u256_negative_wraps` |
| the two back-ends differ on oversized shifts in release builds, and on rotations by more than 256 with overflow checks | `C46_shift_disagree`, `C46_api_shift_by`, `C46_api_rotate` |
| `{:e}` and `{:E}` go through `f64` and lose digits, unlike the primitive integers (a TODO in the code says so) | `C48_not_injective` |
| a field annotated `permissive` is written in every format but never read from one that is not self-describing | `C57_permissive_needs_self_describing` |
| the build script of the LLVM back-end keeps the bound of a `range(i128 0, 129)` attribute, so that with a compiler that emits it `leading_zeros` and `trailing_zeros` have undefined behaviour | `C60_range_attribute` |
| the buffers of `src/fmt.rs` and of `FormatBuffer` are accessed as a whole through a pointer cast from a reference to one element (`&mut buf[0]`, `&buf[0]`, `self.buffer[0].as_mut_ptr()`): undefined behaviour under Stacked Borrows for every decimal text, every other text of two digits or more, and every serialized text of two characters or more; allowed under Tree Borrows; `buf.as_mut_ptr()` would be right under both | `C67_decimal_rejected`, `C67_radix_rejected`, `C67_serialize_rejected`, `C67_serialize_number_rejected`; `C67_decimal_whole_pointer` |
| `{:e}` prints 10^39 as `1.0000000000000001e39`, because `as_f64` is not the nearest double | `C73_misprinted` |
| the build script ignores the exit status of rustc: with an old `template.ll` in place a failing rustc goes unnoticed and the old one is compiled | `C81_stale`, `C81_stale_witness` |

## 6. Wrong programs

`seeded/LOG.jsonl` has one record per wrong program: a definition of the model (or of client code), the edit, the claim that it
breaks, an instance of the statement that the edit makes false where there is a short one, and the theorems that no longer check.
`seeded/mutants*.py` are written by hand, `seeded/auto.py` makes mechanical edits of definitions that those leave alone, and
`seeded/run.py` applies them to a scratch copy and rebuilds until everything that depends on the edit has been tried.
A record that says so in its note comes from `seeded/fast`, which evaluates sampled instances of the theorems on edited terms and
does not rebuild the proofs; see `seeded/fast/README.md`.

Written but not run, for lack of time, and so without a record: `e009`, `e012`-`e017` (`mutants11.py`), `g007`-`g011` (`mutants12.py`),
all of `mutants13.py`, `fz26`-`fz31` (`mutants16.py`), `ab02`-`ab10` (`mutants19.py`), all of `mutants20.py`. Two records, `x006` and
`fz05`, are of edits after which everything still builds because no claim is broken; two more (`r_Serde.FormatBuffer.write_str`,
`r_Serde.usizeSub`) are of edits that change nothing.
