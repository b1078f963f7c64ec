{"id": "C01", "title": "Word representation is a bijection, on both byte orders", "statement": "from_words(hi, lo) denotes the number hi*2^128 + lo (for I256 hi is the signed high word and lo's bits are taken unsigned); into_words, low and high recover exactly hi and lo; writing through low_mut/high_mut changes only that word; every 256-bit number has exactly one representation; new(v) denotes v; ZERO, ONE, MIN, MAX and BITS denote 0, 1, the least and greatest values and 256. All of this holds on little- and big-endian targets.", "quantifier": "all pairs of 128-bit words, both target byte orders", "why_tests_cant": "2^256 values and two cfg(target_endian) code paths, only one of which can be compiled into a given test binary.", "anchors": ["src/uint.rs: U256::from_words/into_words/low/high/low_mut/high_mut/new/ZERO/ONE", "src/int.rs: I256::from_words/into_words/low/high/new", "src/uint/api.rs: MIN/MAX/BITS", "src/int/api.rs: MIN/MAX/BITS"]}
{"id": "C02", "title": "U256 addition and subtraction families", "statement": "wrapping_add/sub return (a+b) mod 2^256 and (a-b) mod 2^256; overflowing_* return the same value plus true exactly when the exact result is outside [0, 2^256); checked_* return None exactly then and otherwise the exact result; saturating_* return the exact result clamped to [0, 2^256-1]; add of a signed value (checked/overflowing/wrapping/saturating_add_signed where present) obeys the same law. None of them panics in any build.", "quantifier": "all pairs of U256 values, every build configuration", "why_tests_cant": "The input space is 2^512 pairs of operands; sampled tests cannot rule out a single bad carry, borrow or boundary.", "anchors": ["src/uint/api.rs: *_add, *_sub, *_neg, *_add_signed", "src/intrinsics/native/add.rs: add2/add3/uaddc", "src/intrinsics/native/sub.rs: sub2/sub3/usubc"]}
{"id": "C03", "title": "U256 multiplication family", "statement": "wrapping_mul returns a*b mod 2^256; overflowing_mul additionally returns true exactly when a*b >= 2^256; checked_mul returns None exactly then, otherwise the exact product; saturating_mul returns min(a*b, 2^256-1). No intermediate 128-bit operation overflows, so they never panic in any build.", "quantifier": "all pairs of U256 values, every build configuration", "why_tests_cant": "The input space is 2^512 pairs of operands; sampled tests cannot rule out a single bad carry, borrow or boundary.", "anchors": ["src/uint/api.rs: *_mul", "src/intrinsics/native/mul.rs: umulddi3/mul2/mul3/umulc"]}
{"id": "C04", "title": "U256 division and remainder are exact", "statement": "For b != 0, div_rem(a,b) = (floor(a/b), a mod b); /, %, div_euclid, rem_euclid, checked_*, wrapping_*, overflowing_*, saturating_div and every *_div_rem(_euclid) agree with it and report no overflow; for b = 0 checked_* return None and all the others panic. No build panics or executes undefined behaviour for b != 0.", "quantifier": "all pairs of U256 values, every build configuration", "why_tests_cant": "Knuth's algorithm D has correction branches taken with probability about 2^-127 per random input; randomised tests never reach them, and a wrong branch there is silent or is undefined behaviour through unreachable_unchecked.", "anchors": ["src/uint.rs: div_rem and the *_div_rem* methods", "src/uint/api.rs: *_div, *_rem, div_euclid, rem_euclid", "src/intrinsics/native/divmod.rs: udivmod4/div_mod_knuth/udiv256_by_128_to_128"]}
{"id": "C05", "title": "256-by-128-bit division primitive: exact, terminating, overflow-free", "statement": "The two-digit division step used by every wide division returns the exact 128-bit quotient and remainder of (u1*2^128+u0)/v whenever u1 < v, each quotient-digit correction loop stops after at most two corrections, no intermediate addition, subtraction or multiplication overflows and no non-zero-number promise is broken.", "quantifier": "all u1, u0, v with u1 < v (the only calls the library makes), every build configuration", "why_tests_cant": "The second correction iteration is needed for a vanishing fraction of inputs; no test can show that a third never is.", "anchors": ["src/intrinsics/native/divmod.rs: udiv256_by_128_to_128", "src/intrinsics/native/divmod.rs: udivmod4"]}
{"id": "C06", "title": "I256 addition, subtraction, negation and absolute value families", "statement": "wrapping_add/sub/neg/abs return the exact result reduced into [-2^255, 2^255) modulo 2^256; overflowing_* add a flag that is true exactly when the exact result does not fit; checked_* return None exactly then; saturating_* clamp to MIN or MAX; unsigned_abs is |a| always; the mixed-sign *_add_unsigned / *_sub_unsigned follow the same law. None panics in any build.", "quantifier": "all pairs of I256 (or I256 and U256) values, every build configuration", "why_tests_cant": "The input space is 2^512 pairs of operands; sampled tests cannot rule out a single bad carry, borrow or boundary.", "anchors": ["src/int/api.rs: *_add, *_sub, *_neg, *_abs, unsigned_abs, *_add_unsigned, *_sub_unsigned", "src/intrinsics/native/add.rs: iaddc", "src/intrinsics/native/sub.rs: isubc"]}
{"id": "C07", "title": "I256 multiplication family", "statement": "wrapping_mul returns the exact product reduced modulo 2^256 into the signed range; overflowing_mul's flag is true exactly when the exact product is outside [-2^255, 2^255); checked_mul returns None exactly then; saturating_mul clamps to the bound of the product's sign. None panics in any build.", "quantifier": "all pairs of I256 values, every build configuration", "why_tests_cant": "The overflow test compares |a| with MAX/|b| or MIN/-|b|; its off-by-one cases lie on a 2^255-sized curve of pairs, which sampling misses.", "anchors": ["src/int/api.rs: *_mul", "src/intrinsics/native/mul.rs: imulc"]}
{"id": "C08", "title": "I256 truncated division family", "statement": "For b != 0 and (a,b) != (MIN,-1), /, %, checked_div/rem, wrapping_div/rem, overflowing_div/rem, saturating_div and div_rem families return the quotient truncated toward zero and the remainder with the sign of a; for b = 0 checked_* return None and the others panic; for (MIN,-1): checked None, wrapping (MIN, 0), overflowing flag true with (MIN, 0), saturating MAX.", "quantifier": "all pairs of I256 values, every build configuration", "why_tests_cant": "The input space is 2^512 pairs of operands; sampled tests cannot rule out a single bad carry, borrow or boundary.", "anchors": ["src/int.rs: div_rem/*_div_rem", "src/int/api.rs: *_div/*_rem", "src/intrinsics/native/divmod.rs: idivmod4", "src/macros/ops.rs: Div/Rem"]}
{"id": "C09", "title": "I256 Euclidean division family", "statement": "For b != 0 and (a,b) != (MIN,-1), div_euclid/rem_euclid, div_rem_euclid and their checked/wrapping/overflowing/saturating forms return the unique q, r with a = q*b + r and 0 <= r < |b|, without panicking in any build; b = 0 gives None (checked) or a panic; (MIN,-1) follows the documented overflow convention of each form.", "quantifier": "all pairs of I256 values, every build configuration", "why_tests_cant": "The input space is 2^512 pairs of operands; sampled tests cannot rule out a single bad carry, borrow or boundary. Build-mode dependent panics appear only at b = MIN.", "anchors": ["src/int.rs: div_rem_euclid/wrapping_div_rem_euclid/checked_div_rem_euclid/saturating_div_rem_euclid/overflowing_div_rem_euclid", "src/int/api.rs: div_euclid/rem_euclid and variants"]}
{"id": "C10", "title": "U256 shift methods", "statement": "wrapping_shl(n)/wrapping_shr(n) shift by n mod 256: a*2^(n mod 256) mod 2^256 and floor(a/2^(n mod 256)); overflowing_* add a flag true exactly when n > 255; checked_* return None exactly then. None panics in any build.", "quantifier": "all U256 values, all 2^32 shift amounts, every build configuration", "why_tests_cant": "The input space has at least 2^256 elements per operand; a unit test visits a handful of points, and the interesting ones (carries between the two 128-bit words, sign boundaries) are exactly the ones a sample misses.", "anchors": ["src/uint/api.rs: *_shl/*_shr", "src/intrinsics/native/shl.rs", "src/intrinsics/native/shr.rs: shr2/shr3"]}
{"id": "C11", "title": "I256 shift methods", "statement": "wrapping_shl(n) multiplies by 2^(n mod 256) modulo 2^256 (signed representative); wrapping_shr(n) is floor division by 2^(n mod 256) (arithmetic shift); overflowing_* add a flag true exactly when n > 255; checked_* return None exactly then. None panics in any build.", "quantifier": "all I256 values, all 2^32 shift amounts, every build configuration", "why_tests_cant": "The input space has at least 2^256 elements per operand; a unit test visits a handful of points, and the interesting ones (carries between the two 128-bit words, sign boundaries) are exactly the ones a sample misses.", "anchors": ["src/int/api.rs: *_shl/*_shr", "src/intrinsics/native/shr.rs: sar2/sar3"]}
{"id": "C12", "title": "Shift operators << and >> (and <<=, >>=)", "statement": "For shift amounts 0..=255 of any supported amount type (all primitive integers and U256/I256), << and >> give the exact shift in every build. For amounts outside 0..=255 debug builds panic, and release builds behave like the standard integers: they shift by the amount modulo 256.", "quantifier": "all values, all shift amounts of every supported type, every build configuration including both intrinsics back-ends", "why_tests_cant": "Twelve primitive amount types and two wide ones times 2^256 values times two build modes.", "anchors": ["src/macros/ops.rs: Shl/Shr impls", "src/intrinsics/native/shl.rs", "src/intrinsics/native/shr.rs"]}
{"id": "C13", "title": "Rotations", "statement": "rotate_left(n) and rotate_right(n) rotate the 256-bit pattern by n mod 256 positions, for every u32 n, in every build; rotate_right(n) undoes rotate_left(n).", "quantifier": "all values of both types, all u32 rotation amounts, every build configuration including both intrinsics back-ends", "why_tests_cant": "The input space has at least 2^256 elements per operand; a unit test visits a handful of points, and the interesting ones (carries between the two 128-bit words, sign boundaries) are exactly the ones a sample misses. Amounts above 256 take a different arithmetic path.", "anchors": ["src/uint/api.rs: rotate_left/rotate_right", "src/int/api.rs: rotate_left/rotate_right", "src/intrinsics/native/rot.rs"]}
{"id": "C14", "title": "Bit counting", "statement": "count_ones, count_zeros, leading_zeros, trailing_zeros, leading_ones and trailing_ones equal the number of set, clear, leading clear, trailing clear, leading set and trailing set bits of the 256-bit two's complement pattern (256 for the all-equal patterns), without panicking.", "quantifier": "all values of both types, every build configuration", "why_tests_cant": "The input space has at least 2^256 elements per operand; a unit test visits a handful of points, and the interesting ones (carries between the two 128-bit words, sign boundaries) are exactly the ones a sample misses.", "anchors": ["src/uint/api.rs: count_*/leading_*/trailing_*", "src/int/api.rs: same", "src/intrinsics/native/ctz.rs"]}
{"id": "C15", "title": "Byte and bit reversal and endianness conversion", "statement": "swap_bytes reverses the 32 bytes, reverse_bits the 256 bits; both are involutions; from_be/to_be/from_le/to_le are the identity or swap_bytes according to the target byte order, and from_x(to_x(v)) = v.", "quantifier": "all values of both types, both target byte orders", "why_tests_cant": "The input space has at least 2^256 elements per operand; a unit test visits a handful of points, and the interesting ones (carries between the two 128-bit words, sign boundaries) are exactly the ones a sample misses.", "anchors": ["src/uint/api.rs: swap_bytes/reverse_bits/from_be/from_le/to_be/to_le", "src/int/api.rs: same"]}
{"id": "C16", "title": "U256 exponentiation family", "statement": "wrapping_pow(a,e) = a^e mod 2^256; overflowing_pow adds a flag true exactly when a^e >= 2^256; checked_pow returns None exactly then; saturating_pow = min(a^e, 2^256-1); pow returns a^e when it fits and otherwise panics in debug builds and wraps in release builds.", "quantifier": "all U256 bases, all u32 exponents, every build configuration", "why_tests_cant": "2^256 * 2^32 inputs; the overflow flag accumulates over a loop whose squarings may overflow although the result does not.", "anchors": ["src/uint/api.rs: *_pow, pow"]}
{"id": "C17", "title": "I256 exponentiation family", "statement": "wrapping_pow(a,e) = a^e modulo 2^256 in the signed range; overflowing_pow adds a flag true exactly when a^e does not fit; checked_pow returns None exactly then; saturating_pow clamps to the bound of a^e's sign; pow panics in debug builds exactly on overflow and wraps in release builds.", "quantifier": "all I256 bases, all u32 exponents, every build configuration", "why_tests_cant": "As for U256, with the additional boundary (-2)^255 = MIN.", "anchors": ["src/int/api.rs: *_pow, pow"]}
{"id": "C18", "title": "Powers of two", "statement": "is_power_of_two(a) holds exactly when a = 2^k for some k; next_power_of_two(a) is the least power of two >= a when it fits; checked_next_power_of_two returns None exactly when it does not; the unchecked form then panics in debug builds and returns 0 in release builds.", "quantifier": "all U256 values, every build configuration", "why_tests_cant": "The input space has at least 2^256 elements per operand; a unit test visits a handful of points, and the interesting ones (carries between the two 128-bit words, sign boundaries) are exactly the ones a sample misses.", "anchors": ["src/uint/api.rs: is_power_of_two/one_less_than_next_power_of_two/next_power_of_two/checked_next_power_of_two"]}
{"id": "C19", "title": "Absolute difference", "statement": "abs_diff(a,b) = |a-b| exactly, as a U256, for both types, without panicking in any build.", "quantifier": "all pairs of values, every build configuration", "why_tests_cant": "The input space is 2^512 pairs of operands; sampled tests cannot rule out a single bad carry, borrow or boundary.", "anchors": ["src/uint/api.rs: abs_diff", "src/int/api.rs: abs_diff"]}
{"id": "C20", "title": "Comparison, equality and hashing", "statement": "==, <, <=, >, >=, cmp and partial_cmp coincide with the comparison of the denoted integers, also against u128/i128 on either side; equality is equality of numbers, and equal values feed identical bytes to a hasher while different values feed different bytes.", "quantifier": "all pairs of values of both types and of u128/i128, both target byte orders", "why_tests_cant": "The input space is 2^512 pairs of operands; sampled tests cannot rule out a single bad carry, borrow or boundary.", "anchors": ["src/macros/cmp.rs", "src/uint/cmp.rs", "src/int/cmp.rs"]}
{"id": "C21", "title": "Bitwise operators", "statement": "!, &, | and ^ (and their assigning forms) act bit by bit on the 256-bit two's complement pattern; in particular !a = 2^256-1-a for U256 and -a-1 for I256.", "quantifier": "all pairs of values of both types, both target byte orders", "why_tests_cant": "The input space is 2^512 pairs of operands; sampled tests cannot rule out a single bad carry, borrow or boundary.", "anchors": ["src/macros/ops.rs: Not/BitAnd/BitOr/BitXor"]}
{"id": "C22", "title": "Byte array conversion", "statement": "to_le_bytes/to_be_bytes give the 32 base-256 digits of the (two's complement) value, least/most significant first; to_ne_bytes is the one matching the target; from_x_bytes inverts to_x_bytes and to_x_bytes inverts from_x_bytes.", "quantifier": "all values of both types and all 32-byte arrays, both target byte orders", "why_tests_cant": "The input space has at least 2^256 elements per operand; a unit test visits a handful of points, and the interesting ones (carries between the two 128-bit words, sign boundaries) are exactly the ones a sample misses.", "anchors": ["src/uint/api.rs: to_*_bytes/from_*_bytes", "src/int/api.rs: same"]}
{"id": "C23", "title": "Conversions from and to primitive integers", "statement": "From/TryFrom from each primitive integer (and bool) succeed exactly when the number is representable and then preserve it; TryFrom<U256>/<I256> for each primitive, and between U256 and I256, succeed exactly when the number is representable in the target and then preserve it.", "quantifier": "all values of both wide types and of all twelve primitive integer types on 16-, 32- and 64-bit targets", "why_tests_cant": "The input space has at least 2^256 elements per operand; a unit test visits a handful of points, and the interesting ones (carries between the two 128-bit words, sign boundaries) are exactly the ones a sample misses.", "anchors": ["src/uint/convert.rs", "src/int/convert.rs", "src/error.rs: tfie"]}
{"id": "C24", "title": "`as`-style integer casts", "statement": "as_i8 ... as_u128, as_isize, as_usize, as_i256, as_u256 and the AsU256/AsI256 traits return the unique value of the target type congruent to the source modulo 2^(target width), like Rust's `as` (sign-extending signed sources).", "quantifier": "all values of the wide types and of all primitive integer types on all pointer widths", "why_tests_cant": "The input space has at least 2^256 elements per operand; a unit test visits a handful of points, and the interesting ones (carries between the two 128-bit words, sign boundaries) are exactly the ones a sample misses.", "anchors": ["src/uint.rs: as_*", "src/int.rs: as_*", "src/uint/convert.rs: AsU256", "src/int/convert.rs: AsI256"]}
{"id": "C25", "title": "Arithmetic operators +, -, *, unary -", "statement": "In builds with debug assertions a+b, a-b, a*b (both types) and -a (I256) panic exactly when the exact result is out of range and otherwise return it; in builds without they return it modulo 2^256; the operators with a u128/i128 operand behave as if the operand were widened exactly.", "quantifier": "all pairs of values of both types and of u128/i128 right operands, every build configuration", "why_tests_cant": "The input space is 2^512 pairs of operands; sampled tests cannot rule out a single bad carry, borrow or boundary.", "anchors": ["src/macros/ops.rs: Add/Sub/Mul/Neg impls"]}
{"id": "C26", "title": "Assigning operators agree with the binary ones", "statement": "x op= y leaves in x exactly the value of x op y and panics exactly when x op y does, for + - * / % & | ^ << >>; this holds although the assigning forms use separate in-place routines.", "quantifier": "all pairs of values of both types, every build configuration", "why_tests_cant": "The input space is 2^512 pairs of operands; sampled tests cannot rule out a single bad carry, borrow or boundary.", "anchors": ["src/macros/ops.rs: *Assign impls", "src/intrinsics/native: add2/sub2/mul2/udiv2/urem2/idiv2/irem2/shl2/shr2/sar2"]}
{"id": "C27", "title": "Iterator sum and product", "statement": "sum() / product() over any finite sequence return the exact sum / product modulo 2^256; in debug builds they panic exactly when some prefix sum / product is out of range.", "quantifier": "all finite sequences, of any length, of values of both types, every build configuration", "why_tests_cant": "Sequences are unbounded in length.", "anchors": ["src/macros/iter.rs"]}
{"id": "C28", "title": "Parsing with a radix: U256", "statement": "from_str_radix(s, r) for 2 <= r <= 36 accepts exactly the strings of an optional '+' followed by at least one base-r digit (either case) whose value is below 2^256, and returns that value; otherwise it reports Empty for the empty string, PosOverflow if the digits read so far are too large before any bad character is met, and InvalidDigit for any other string (bad character or lone sign); it never panics for such r and panics for other r.", "quantifier": "all byte strings of any length, all radices, every build configuration", "why_tests_cant": "Strings are unbounded and the length-based fast path (no overflow checks) must be right for every string it admits.", "anchors": ["src/parse.rs: from_str_radix", "src/uint/parse.rs", "src/uint/api.rs: from_str_radix"]}
{"id": "C29", "title": "Parsing with a radix: I256", "statement": "As for U256, with an optional '+' or '-' sign; the value must be in [-2^255, 2^255), and too small values report NegOverflow.", "quantifier": "all byte strings of any length, all radices, every build configuration", "why_tests_cant": "Strings are unbounded; the asymmetry of the signed range and the fast path must be right for all of them.", "anchors": ["src/parse.rs: from_str_radix", "src/int/parse.rs", "src/int/api.rs: from_str_radix"]}
{"id": "C30", "title": "Prefixed and hexadecimal parsing", "statement": "from_str_hex accepts exactly an optional sign (U256: '+', I256: '+' or '-'), then \"0x\", then at least one hex digit, in range; from_str_prefixed accepts exactly what the prefix 0b / 0o / 0x selects in base 2 / 8 / 16 and otherwise a decimal, with the denoted value.", "quantifier": "all byte strings of any length", "why_tests_cant": "Strings are unbounded.", "anchors": ["src/uint.rs: from_str_hex/from_str_prefixed", "src/int.rs: same", "src/parse.rs: from_str_prefixed"]}
{"id": "C31", "title": "Compile-time literals", "statement": "The const parser behind the literal macros returns the denoted number for every well-formed literal that is in range (optional sign for int!, optional 0b/0o/0x prefix, at least one digit, underscores and whitespace ignored as documented) and refuses every other text. Where the run-time parser for prefixed text also accepts, the macros never give a different value.", "quantifier": "all literal strings of any length", "why_tests_cant": "Strings are unbounded; the overflow check inside the digit loop must be exact for every prefix value.", "anchors": ["src/parse.rs: const_from_str_prefixed", "src/uint/parse.rs: const_from_str_prefixed", "src/int/parse.rs: const_from_str_prefixed", "src/lib.rs: int!, uint!"]}
{"id": "C32", "title": "Decimal formatting", "statement": "Display prints exactly the canonical decimal numeral (no leading zeros, '-' for negatives) of the value, honouring width, fill, alignment, sign and zero flags like the standard integers; it never writes outside its buffer nor reads uninitialised or non-UTF-8 bytes.", "quantifier": "all values of both types, all formatter settings, all pointer widths", "why_tests_cant": "The input space has at least 2^256 elements per operand; a unit test visits a handful of points, and the interesting ones (carries between the two 128-bit words, sign boundaries) are exactly the ones a sample misses.", "anchors": ["src/fmt.rs: fmt_u256, DEC_DIGITS_LUT", "src/macros/fmt.rs: Display"]}
{"id": "C33", "title": "Binary, octal and hexadecimal formatting", "statement": "{:b} {:o} {:x} {:X} print exactly the canonical base-2/8/16 numeral of the (two's complement) pattern, with 0b/0o/0x under #; with the '-' flag a negative I256 prints '-' and the numeral of its magnitude; never panics, never overruns the buffer. Debug selects the form given by its hex flags and otherwise equals Display.", "quantifier": "all values of both types, all formatter settings", "why_tests_cant": "The input space has at least 2^256 elements per operand; a unit test visits a handful of points, and the interesting ones (carries between the two 128-bit words, sign boundaries) are exactly the ones a sample misses.", "anchors": ["src/fmt.rs: GenericRadix::fmt_u256, radix!", "src/macros/fmt.rs: __impl_fmt_base, Debug"]}
{"id": "C34", "title": "Format/parse round trips", "statement": "Parsing the Display output in base 10 returns the same value; so does parsing {:b}/{:o}/{:x}/{:X} output of a U256 in the matching radix, {:#x} output with from_str_hex, any {:#..} or plain output with from_str_prefixed, and {:-#x} output of an I256.", "quantifier": "all values of both types", "why_tests_cant": "The input space has at least 2^256 elements per operand; a unit test visits a handful of points, and the interesting ones (carries between the two 128-bit words, sign boundaries) are exactly the ones a sample misses.", "anchors": ["src/fmt.rs", "src/parse.rs", "src/macros/fmt.rs", "src/macros/parse.rs"]}
{"id": "C35", "title": "Conversion to floating point", "statement": "as_f32/as_f64 convert like the primitive `as`: the result is the float nearest to the value (ties to even); in particular it is exact for values with at most 24/53 significant bits, sign-preserving, monotone, never NaN; the f64 conversion is never infinite and the f32 conversion is infinite exactly when the value is too large for f32.", "quantifier": "all values of both types", "why_tests_cant": "The input space has at least 2^256 elements per operand; a unit test visits a handful of points, and the interesting ones (carries between the two 128-bit words, sign boundaries) are exactly the ones a sample misses.", "anchors": ["src/uint.rs: as_f32/as_f64", "src/int.rs: as_f32/as_f64"]}
{"id": "C36", "title": "Conversion from floating point", "statement": "AsU256/AsI256 on f32/f64 truncate toward zero and saturate at the bounds, with NaN giving 0, like Rust's `as`.", "quantifier": "all 2^32 f32 and 2^64 f64 bit patterns, every build configuration", "why_tests_cant": "2^64 f64 patterns; exponent boundaries and infinities are single points.", "anchors": ["src/uint/convert.rs: impl_as_u256_float", "src/int/convert.rs: impl_as_i256_float"]}
{"id": "C37", "title": "serde string formats round trip", "statement": "Serializing with the default (hex), `decimal` and `prefixed` modules yields the documented text and deserializing any serialized value with the same module returns it; deserialization accepts exactly what the corresponding parser accepts; the fixed-size text buffer never overflows.", "quantifier": "all values of both types; all strings of any length for deserialization", "why_tests_cant": "The input space has at least 2^256 elements per operand; a unit test visits a handful of points, and the interesting ones (carries between the two 128-bit words, sign boundaries) are exactly the ones a sample misses.", "anchors": ["src/serde.rs: Serialize/Deserialize, decimal, prefixed, FormatBuffer"]}
{"id": "C38", "title": "serde permissive deserialization", "statement": "The `permissive` format accepts every string the prefixed parser accepts with its value, every integer the target type can represent with its value, and every float that is integral and within the exact range of its type with its value; everything else is rejected rather than silently changed.", "quantifier": "all strings, all i8..i128/u8..u128 inputs, all f32/f64 bit patterns", "why_tests_cant": "2^128 integers and 2^64 floats.", "anchors": ["src/serde.rs: permissive"]}
{"id": "C39", "title": "serde byte formats round trip", "statement": "bytes::le / bytes::be serialize to the 32 little-/big-endian bytes and deserialize any serialized value (delivered as a byte slice or as an element sequence) to itself; wrong lengths are rejected.", "quantifier": "all values of both types; all byte sequences of any length", "why_tests_cant": "The input space has at least 2^256 elements per operand; a unit test visits a handful of points, and the interesting ones (carries between the two 128-bit words, sign boundaries) are exactly the ones a sample misses.", "anchors": ["src/serde.rs: bytes"]}
{"id": "C40", "title": "serde compressed byte formats round trip", "statement": "compressed_bytes::le / be serialize to the shortest byte string from which the same module's deserializer recovers the value; inputs longer than 32 bytes are rejected.", "quantifier": "all values of both types; all byte strings of any length", "why_tests_cant": "The input space has at least 2^256 elements per operand; a unit test visits a handful of points, and the interesting ones (carries between the two 128-bit words, sign boundaries) are exactly the ones a sample misses.", "anchors": ["src/serde.rs: compressed_bytes"]}
{"id": "C41", "title": "No undefined behaviour", "statement": "No public arithmetic, formatting or conversion call reaches an unreachable_unchecked hint, a NonZero::new_unchecked(0), an out-of-bounds pointer write or a non-UTF-8 string, for any input in any build.", "quantifier": "all inputs of the modelled functions, every build configuration", "why_tests_cant": "Undefined behaviour may not show in a test run at all.", "anchors": ["src/uint.rs: div_rem", "src/intrinsics/native/divmod.rs", "src/fmt.rs", "src/serde.rs: FormatBuffer"]}
{"id": "C42", "title": "Debug and release builds agree", "statement": "Whenever an operator call does not panic in a debug build, a release build returns the same value for the same operands.", "quantifier": "all operands, all pairs of build configurations", "why_tests_cant": "A test binary is compiled in one mode; agreement is a relation between two programs over all inputs.", "anchors": ["src/macros/ops.rs"]}
{"id": "C43", "title": "Byte order is unobservable", "statement": "Every arithmetic, comparison, parsing and formatting function returns the same number or text on little- and big-endian targets, although the in-memory word order differs.", "quantifier": "all inputs, both target byte orders", "why_tests_cant": "A test binary is compiled for one byte order.", "anchors": ["src/uint.rs", "src/int.rs", "src/uint/cmp.rs", "src/intrinsics/native"]}
{"id": "C44", "title": "Sign functions", "statement": "signum, signum128, is_positive and is_negative return the sign (-1, 0, 1) and strict positivity/negativity of the value; abs returns |a|, panicking in debug and returning MIN in release exactly for MIN.", "quantifier": "all I256 values, every build configuration", "why_tests_cant": "The input space has at least 2^256 elements per operand; a unit test visits a handful of points, and the interesting ones (carries between the two 128-bit words, sign boundaries) are exactly the ones a sample misses.", "anchors": ["src/int/api.rs: signum/signum128/is_positive/is_negative/abs"]}
{"id": "C45", "title": "Wrapping arithmetic is the ring of integers modulo 2^256", "statement": "wrapping_add, wrapping_mul, wrapping_neg and wrapping_sub satisfy the commutative ring laws on both types; the cast as_i256/as_u256 is a ring isomorphism preserving bits.", "quantifier": "all triples of values of both types", "why_tests_cant": "2^768 triples.", "anchors": ["src/uint/api.rs: wrapping_*", "src/int/api.rs: wrapping_*"]}
{"id": "C46", "title": "The two intrinsics back-ends agree", "statement": "For the operands the public API passes to them, each native routine (add, sub, mul, div, rem, shl, shr, sar, rotate, ctlz, cttz and the carry-reporting ones) returns the value of the single 256-bit instruction the generated LLVM back-end executes. So every public function and operator of the crate returns the same with the feature llvm-intrinsics as without it, whatever the rest of the build configuration.", "quantifier": "all operands, all public functions and operators, all build configurations", "why_tests_cant": "Two back-ends are selected by a feature; agreement is over all operands.", "anchors": ["src/intrinsics.rs", "src/intrinsics/llvm.rs", "intrinsics/build", "src/intrinsics/native", "src/intrinsics/signed.rs", "src/uint", "src/int"]}
{"id": "C47", "title": "Error values", "statement": "The integer-parsing and conversion error kinds reported by the library are exactly the standard library's: the parse error of kind k carries kind k, and a failed integer conversion is indistinguishable from the standard one.", "quantifier": "all error kinds", "why_tests_cant": "The errors are produced by transmuting a local enum to a private std layout.", "anchors": ["src/error.rs: pie/tfie"]}
{"id": "C48", "title": "Scientific notation and conversion into floats", "statement": "`{:e}` and `{:E}` print a double next to the value (the value itself when a double can hold it), with its sign and under the same format specification, alike for both types when they hold the same number; `f64::from` and `f32::from` return the same float as `as_f64` and `as_f32`, the nearest one for magnitudes below 2^128. The printed digits need not identify the value.", "quantifier": "all values of both types, all format specifications, every printer of doubles", "why_tests_cant": "The rounding of a 256-bit value happens in two steps; only a few values can be tried.", "anchors": ["src/macros/fmt.rs: LowerExp/UpperExp", "src/uint/convert.rs: From<U256> for f32/f64", "src/int/convert.rs: From<I256> for f32/f64"]}
{"id": "C49", "title": "Exactly which calls panic", "statement": "The checked, overflowing, wrapping and saturating methods, bit counting, formatting, serialization, deserialization, parsing (but for a radix outside 2..=36) and conversion from floats return for every input. The others panic exactly on the documented inputs: division on a zero divisor (div_rem and div_rem_euclid also on MIN / -1), operators, neg, abs, pow, next_power_of_two, sum and product exactly on overflow with debug assertions, shift operators exactly on an amount outside 0..=255 with debug assertions. Two undocumented panics are characterised exactly: rotation by more than 256 with overflow checks in the native back-end, and the combined Euclidean divisions by MIN with debug assertions.", "quantifier": "all operands, all lists, all strings, all serde inputs, all build configurations", "why_tests_cant": "A test shows that one input panics or does not; exactness ranges over all of them.", "anchors": ["src/uint/api.rs", "src/int/api.rs", "src/macros/ops.rs", "src/macros/iter.rs", "src/macros/parse.rs", "src/serde.rs"]}
{"id": "C50", "title": "Operand forms", "statement": "An operator gives the same result, or the same panic, whether its operands are given by value, by reference or, on either side, as the primitive 128-bit type by value or by reference: it depends only on the numbers they stand for and their order. The same holds for the assigning operators and, as to references, for shifts.", "quantifier": "all twelve combinations of operand forms, all operands, all operators", "why_tests_cant": "Each form is a separate generated function; tests exercise a few forms on a few values.", "anchors": ["src/macros/ops.rs: __impl_ops_binop_extra_variants, __impl_ops_binop_assign_extra_variants, __impl_ops_shift_extra_variants"]}
{"id": "C51", "title": "Computations of any size", "statement": "An arithmetic expression of any size over variables, built from +, -, *, /, % and pow: if over the integers no operation leaves the range of the type and no divisor is zero, the operators return the exact value in every build and the checked methods return it too. Otherwise the checked computation returns None, and with debug assertions the operators panic (for I256 unless MIN is divided by -1, where / and % do not panic). Without division, the wrapping methods in every build, and the operators without debug assertions, give the exact value modulo 2^256, whatever the intermediate results.", "quantifier": "all expressions of any size, all values of the variables, all build configurations", "why_tests_cant": "There are infinitely many expressions; a test runs one of them.", "anchors": ["src/macros/ops.rs", "src/uint/api.rs", "src/int/api.rs", "src/intrinsics/native"]}
{"id": "C52", "title": "The forms of an operation agree", "statement": "For addition, subtraction, multiplication, mixed-sign addition and subtraction, negation, absolute value, powers and shifts: the wrapping method returns the value of the overflowing one; the checked method returns it exactly if the overflow flag is off; the saturating method returns the checked value, or the bound on the side of the exact result; the operator panics exactly if the flag is on and debug assertions are enabled, and returns the wrapped value otherwise (the shift operators of native release builds only for the amounts that C12 gives: for any other amount n, 1 << n is wrong).", "quantifier": "all operands, all exponents and shift amounts, all build configurations", "why_tests_cant": "Each form is implemented separately; they must agree on every operand.", "anchors": ["src/uint/api.rs: checked_*, overflowing_*, wrapping_*, saturating_*", "src/int/api.rs: checked_*, overflowing_*, wrapping_*, saturating_*", "src/macros/ops.rs"]}
{"id": "C53", "title": "The primitive integers are embedded", "statement": "Converting u128 numbers to U256, or i128 numbers to I256, and then computing (arithmetic, division, powers, bit operations, shifts, counts of bits, comparison) gives the conversion of what the primitive type computes, whenever the primitive does not overflow. The conversions of the narrower primitives factor through the 128-bit ones.", "quantifier": "all pairs of 128-bit numbers, all exponents, all primitive types, all build configurations", "why_tests_cant": "Replacing u128 by U256 in a program is safe only if this holds for all values.", "anchors": ["src/uint/convert.rs", "src/int/convert.rs", "src/macros/ops.rs", "src/macros/cmp.rs"]}
{"id": "C54", "title": "Writing through references", "statement": "Each routine of the public module intrinsics that writes its result through a reference initialises its output object, whatever the object held before and even if it was not initialised, with the exact result (wrapped to 256 bits where documented), returns the right carry, and changes no other object. Division by zero panics before anything is written. The operators and methods built on these routines return the same result as the mathematical description of C02-C13 and leave their operands as they were.", "quantifier": "all memories, all operand and output objects that the borrow rules allow, all operand values, all shift amounts below 256, all rotation amounts (up to 256 where C13 says that more panics), all build configurations and both back-ends", "why_tests_cant": "An output that is left uninitialised on one path (one pair of operands, one missing remainder) or an operand read after the output was written shows only for that path.", "anchors": ["src/intrinsics.rs", "src/intrinsics/native/add.rs", "src/intrinsics/native/sub.rs", "src/intrinsics/native/mul.rs", "src/intrinsics/native/divmod.rs", "src/intrinsics/native/shl.rs", "src/intrinsics/native/shr.rs", "src/intrinsics/native/rot.rs", "src/intrinsics/signed.rs", "src/intrinsics/llvm.rs", "src/macros/ops.rs"]}
{"id": "C55", "title": "Assigning operators are all or nothing", "statement": "An assigning operator (+= -= *= /= %= &= |= ^= <<= >>=) either stores the right result in its target and changes nothing else, or panics and leaves every object, including the target, exactly as it was. So after any sequence of assignments that is stopped by a panic (and resumed with catch_unwind), the variables hold what the completed statements computed. It also holds if both operands are the same variable, passed by value.", "quantifier": "all memories, all sequences of assignments of any length, every crash point, all values, all build configurations and both back-ends", "why_tests_cant": "It speaks about every point at which a sequence of any length can fail.", "anchors": ["src/macros/ops.rs", "src/intrinsics/native/divmod.rs", "src/intrinsics/native/mul.rs", "src/intrinsics/native/shl.rs", "src/intrinsics/native/shr.rs"]}
{"id": "C56", "title": "The differential fuzzer has nothing to report", "statement": "The reference functions of the repository's fuzzer (big-integer arithmetic followed by a conversion back) are exact arithmetic followed by wrapping, with a flag telling whether the result lies outside the type. For every input the fuzzer calls interesting, its assertion that overflowing_add, overflowing_sub, overflowing_mul, overflowing_div and overflowing_rem agree with the reference holds; and it holds for no other input, so the fuzzer leaves out exactly what it must. This holds from the bytes of the input file on: every file, of whatever length, is decoded and reports nothing, every operation on every pair of operands is decoded from some file of 72 bytes, and the seed file stands for 0 + 0.", "quantifier": "all pairs of 256-bit operands, both types, all five operations, all build configurations and both back-ends; all input files", "why_tests_cant": "A fuzzer samples 2^512 pairs per operation; that none of them fails is a statement about all.", "anchors": ["fuzz/src/lib.rs:fuzz", "fuzz/src/lib.rs:Target::is_interesting", "fuzz/src/conv.rs", "fuzz/src/reference.rs", "fuzz/src/lib.rs: Target::load", "fuzz/src/bin/init.rs"]}
{"id": "C57", "title": "Records of integers survive any faithful data format", "statement": "A record of any number of U256 and I256 fields, each annotated with any of the serialization schemes, can be written in any data format, and a format that gives back the text and the bytes it was given, when asked for them by their kind, gives back the same record exactly when each field survives its own scheme (all do, but for the signed numbers that compressed_bytes loses, C40). A field annotated permissive needs a self-describing format: in any other one every record with such a field is written but never read. Reading never faults, and a record that is returned has the shape asked for, whatever the document contains.", "quantifier": "all records of any length, all mixtures of schemes and values, all data formats, all documents", "why_tests_cant": "Tests try single fields with one format; the claim is about every record and every format.", "anchors": ["src/serde.rs:decimal", "src/serde.rs:prefixed", "src/serde.rs:permissive", "src/serde.rs:bytes", "src/serde.rs:compressed_bytes"]}
{"id": "C58", "title": "What is built on the ordering", "statement": "max, min and clamp select by numeric value (clamp panics exactly when its bounds are the wrong way round), a sequence put in order with cmp is the sequence of the numbers in ascending order, whatever algorithm did it, and the default value of both types is zero.", "quantifier": "all values, all sequences of any length, all build configurations", "why_tests_cant": "Sequences of any length over 2^256 values.", "anchors": ["src/uint/cmp.rs", "src/int/cmp.rs", "src/macros/cmp.rs", "src/uint.rs:U256", "src/int.rs:I256"]}
{"id": "C59", "title": "Whole programs compute what they say", "statement": "A program with any number of U256 and I256 variables, the arithmetic and bitwise operators and their assigning forms, wrapping_, saturating_, overflowing_ and checked_ operations, Euclidean division, shifts, powers, rotations by less than 256 bits, byte and bit reversal, next powers of two, bit counts, clamping, distances, wrapping and fallible conversions between the two types, comparisons, branches, loops, lines of input read with parse, from_str_radix, from_str_hex or from_str_prefixed, and lines of output written with format! in any base does what the same program does over the integers: it ends exactly when that ends, with the same number in every variable and the same output; it panics exactly when that panics; it runs for ever exactly when that does. So no program can tell the byte order, the pointer width or the intrinsics back-end, and a program that does not panic in a debug build does the same in a release build. In particular Euclid's algorithm written with the crate prints the greatest common divisor of every two numbers that it reads, Newton's iteration prints the integer square root of every number that it reads, and exponentiation by squaring prints the modular power for every modulus of at most 2^128.", "quantifier": "all programs of any size, all inputs, all initial states, any number of steps, all build configurations", "why_tests_cant": "Programs are unbounded, and so are their runs.", "anchors": ["src/macros/ops.rs", "src/uint/ops.rs", "src/int/ops.rs", "src/uint/api.rs", "src/int/api.rs", "src/macros/parse.rs", "src/macros/fmt.rs", "src/uint/cmp.rs", "src/int/cmp.rs"]}
{"id": "C60", "title": "The build script turns the 128-bit template into the 256-bit back-end", "statement": "With the feature llvm-intrinsics the crate calls functions that a build script makes by textual replacement from the LLVM IR of the corresponding u128 functions. For every module in the fragment of LLVM IR that those functions need, with any number of functions of any length, the replaced text is the text of the same module with 256-bit in place of 128-bit integers, objects of 32 in place of 16 bytes and shift amounts masked with 255 in place of 127; nothing else changes. The functions made from the template are exactly the declared ones, and each computes the 256-bit operation of its name on every target byte order, without undefined behaviour and without reading the object it only writes. This fails for a compiler that states the range of a 128-bit bit count as an attribute: the bound 129 is not replaced.", "quantifier": "all modules of the IR fragment; all operands, amounts and contents of the output object; both byte orders", "why_tests_cant": "The script works on text it has never seen, one per compiler version and target; the operations range over all 256-bit operands.", "anchors": ["intrinsics/build/main.rs: main", "intrinsics/build/intrinsics.rs", "intrinsics/src/lib.rs", "src/intrinsics/llvm.rs"]}
{"id": "C61", "title": "Sums and products over any iterator", "statement": "sum() and product(), over an iterator of values or of references, ask for the items one after the other. If the iterator ends, they return the exact sum or product modulo 2^256. In debug builds, at the first item with which the sum or product of the items so far leaves the range of the type, they panic and ask for no further item, so that this happens for an iterator that never ends as well. If the iterator itself panics, that panic comes out. If the iterator never ends and nothing leaves the range, or nothing is checked, they do not return.", "quantifier": "all iterators: all state spaces, all behaviours of next including endless and panicking ones; both types; every build configuration", "why_tests_cant": "Iterators are arbitrary programs and need not end.", "anchors": ["src/macros/iter.rs", "src/uint/iter.rs", "src/int/iter.rs", "src/macros/ops.rs"]}
{"id": "C62", "title": "Numbers longer than 256 bits", "statement": "U256 can be the digit, or the double word of u128, of arithmetic on numbers of any length. Chaining overflowing_add with the carry adds two numbers of any length exactly and the last carry says whether the sum fits; chaining overflowing_sub subtracts, and the last borrow says which number is smaller; shifting digit by digit with <<, >> and | shifts the whole number. For any u128 a, b, p, q the expression U256::from(a) * U256::from(b) + U256::from(p) + U256::from(q) overflows in no build, so the schoolbook product of numbers of any length is exact; dividing digit by digit with from_words(r, x).div_rem(d) divides a number of any length by a u128. Modular addition from overflowing_add and wrapping_sub, and the modular multiplication and exponentiation built on it, are exact for every modulus up to 2^256 - 1, and panic only if the modulus is zero.", "quantifier": "all numbers of digits, all digits, carries and moduli; every build configuration, byte order and back-end", "why_tests_cant": "Carries that run through any number of digits, and products and moduli near 2^256, are a vanishing part of an unbounded space.", "anchors": ["src/uint/api.rs: overflowing_add, overflowing_sub, wrapping_sub, div_rem, from_words, into_words", "src/uint/convert.rs: From<u128>, From<bool>", "src/macros/ops.rs: Add, Mul, Shl, Shr, BitOr"]}
{"id": "C63", "title": "The types are the 256-bit bit vectors of the solvers", "statement": "U256 and I256 correspond one to one to the vectors of 256 bits, and each operation is the operation of the theory of bit vectors with the same name: wrapping add, sub, mul and neg are bvadd, bvsub, bvmul and bvneg for both types; the flags of the overflowing operations are the unsigned and signed overflow predicates; / and % with a non-zero divisor are bvudiv and bvurem, wrapping_div and wrapping_rem of I256 are bvsdiv and bvsrem (also for MIN by -1); &, |, ^ and ! are bvand, bvor, bvxor and bvnot; wrapping shifts are bvshl, bvlshr and bvashr by the amount modulo 256; reverse_bits and (for the amounts that do not panic, see C13) the rotations reverse and rotate the vector; the counts of zeros and ones are clz, ctz and the population count; the comparisons are bvult, bvule, bvslt and bvsle; casts extend by zeros or by the sign, or truncate. So a formula about bit vectors decided by a solver is a fact about programs that use these types.", "quantifier": "all pairs of 256-bit vectors, all shift and rotation amounts, all primitive types and values; every build configuration, byte order and back-end", "why_tests_cant": "It is an isomorphism between two algebras with 2^256 elements.", "anchors": ["src/uint.rs: U256", "src/int.rs: I256", "src/uint/api.rs, src/int/api.rs: wrapping_*, overflowing_*, leading_zeros, trailing_zeros, count_ones, rotate_left, rotate_right, reverse_bits", "src/uint/cmp.rs, src/int/cmp.rs", "src/uint/convert.rs, src/int/convert.rs: AsU256, AsI256"]}
{"id": "C64", "title": "An Ethereum virtual machine on U256", "statement": "An interpreter of the Ethereum virtual machine whose words are U256 gives every arithmetic, comparison, bitwise and modular instruction the result of the Yellow Paper: ADD, MUL, SUB, DIV and MOD (zero for a zero divisor), SDIV and SMOD through as_i256 (also for MIN by -1), ADDMOD and MULMOD without intermediate overflow, EXP, SIGNEXTEND, LT, GT, SLT, SGT, EQ, ISZERO, AND, OR, XOR, NOT, BYTE, SHL, SHR, SAR with amounts of 256 and more, and CLZ. Words are read and written as 32 big-endian bytes by from_be_bytes and to_be_bytes, and are positions exactly when TryFrom<usize> accepts them. So every program, with any call data, storage and memory limit, ends on the crate's words as on mathematical numbers: the same returned data, storage, failure or revert after the same number of steps; no build configuration panics. For instance the bytecode of the factorial returns n! modulo 2^256 for every word n.", "quantifier": "all instructions and operands; all programs, call data, storages, memory limits and numbers of steps; every build configuration, byte order, pointer width and back-end", "why_tests_cant": "The programs, inputs and numbers of steps are unbounded, and each instruction has at least 2^256 inputs.", "anchors": ["src/uint/api.rs: wrapping_add, wrapping_mul, wrapping_sub, checked_div, checked_rem, overflowing_add, as_i256, leading_zeros, from_be_bytes, to_be_bytes", "src/int/api.rs: wrapping_div, wrapping_rem, as_u256", "src/macros/ops.rs: Shl, Shr, BitAnd, BitOr, BitXor, Not", "src/macros/cmp.rs", "src/uint/convert.rs: TryFrom<U256> for usize, From<bool>"]}
{"id": "C65", "title": "Multiplication and division with full precision", "statement": "The code that contracts use to compute a * b / d without overflow (FullMath.mulDiv) is exact when written with U256: the two words of the 512-bit product come out of the products modulo 2^256 - 1 and 2^256; six rounds of Newton's iteration with wrapping operations from (3 * d) ^ 2 give the inverse of every odd d modulo 2^256; and subtracting the remainder, cancelling trailing_zeros factors of two with >>, << and | and multiplying by that inverse gives a * b / d rounded down whenever it is below 2^256, and the same rounded up. If the quotient does not fit or d is zero the answer is None, and no build panics.", "quantifier": "all triples of 256-bit operands; every build configuration, byte order and back-end", "why_tests_cant": "The operands have 768 bits; the high word of the product and the last rounds of the iteration matter for a vanishing part of them.", "anchors": ["src/uint/api.rs: wrapping_mul, wrapping_sub, overflowing_add, checked_add, trailing_zeros", "src/uint.rs: new", "src/macros/ops.rs: Shl, Shr, BitOr, BitXor, Rem", "src/uint/cmp.rs"]}
{"id": "C66", "title": "Keys of maps and sorted slices", "statement": "U256 and I256 are good keys. A search tree that compares its keys with Ord (as BTreeMap does), and a hash table that finds a bucket from what Hash writes and the key in the bucket with == (as HashMap does), with any hasher and any number of buckets, answer every history of insert, remove and get exactly as a map from mathematical numbers: two keys are the same entry if and only if they denote the same number. After any history the tree iterates over exactly the entries of that map, in strictly increasing numeric order (signed order for I256). Binary search in a slice sorted by <= returns Ok with the position of an item that denotes the number, or Err with the position before which all items are smaller and from which on all are greater.", "quantifier": "all histories of calls of any length on an initially empty map, all hashers and bucket counts, all sorted slices of any length; both types; every build configuration and byte order", "why_tests_cant": "A map is a history of unbounded length over 2^256 keys; one pair of keys whose order, equality and hash disagree loses an entry long after it was inserted.", "anchors": ["src/uint/cmp.rs: Ord", "src/int/cmp.rs: Ord", "src/macros/cmp.rs: Hash, PartialEq, PartialOrd"]}
{"id": "C67", "title": "Aliasing rules in the text buffers", "statement": "Formatting a value (Display, Debug, Binary, Octal, LowerHex, UpperHex) and serializing it as text keep to the aliasing rules of Rust in the buffers they write through raw pointers: no reference or raw pointer made into the buffer is used on a byte for which it has no permission, and no use of one invalidates another that is used later.", "quantifier": "all values, all formatter flags, all texts that fit the buffer and all ways the formatting machinery cuts them into writes, every byte in and around the buffer; under Stacked Borrows and under Tree Borrows", "why_tests_cant": "A violation of the aliasing rules has no effect on the result of a test; it allows the optimizer to miscompile some other build. Even an interpreter that checks the rules sees one value at a time.", "anchors": ["src/fmt.rs: GenericRadix::fmt_u256", "src/fmt.rs: fmt_u256", "src/serde.rs: FormatBuffer::as_str", "src/serde.rs: FormatBuffer::write_str"]}
{"id": "C68", "title": "Bounded work", "statement": "No call hangs or takes time that depends on the size of a number beyond a small constant. Raising to a power (checked_pow, wrapping_pow, overflowing_pow, saturating_pow, pow of both types) evaluates its loop condition once per binary digit of the exponent (once for the exponent zero), so at most 32 times, whatever the base: exactly so in the wrapping and overflowing forms, at most so in the others, which may leave early. Formatting in decimal evaluates it exactly once per group of four decimal digits, so at most 20 times. Each quotient digit of a division is corrected at most twice, whatever the estimate it starts from. A budget larger than this never changes the result.", "quantifier": "all bases, exponents, accumulators and values; all normalised divisors, estimates and partial remainders below the digit size; all iteration budgets; every build configuration and byte order", "why_tests_cant": "A loop that fails to end, or runs once too often, may do so for one input out of 2^512; a test that passes says nothing about the number of turns.", "anchors": ["src/uint/api.rs: checked_pow, wrapping_pow, overflowing_pow, pow", "src/int/api.rs: checked_pow, wrapping_pow, overflowing_pow, pow", "src/fmt.rs: fmt_u256", "src/intrinsics/native/divmod.rs: udiv256_by_128_to_128, div_mod_knuth"]}
{"id": "C69", "title": "Aliasing rules in arithmetic", "statement": "The operators, assigning operators, shifts, rotations, and the wrapping, overflowing and dividing methods of both types keep to the aliasing rules of Rust. A variable that is assigned to, the variables that are only read, and every temporary the code makes (uninitialised outputs, copies of operands, absolute values) are reached only through references and raw pointers that may be used at that moment: none is used after it has been invalidated, none that is shared is written through, and none invalidates a reference that a function still in progress received as an argument. The variables can be used as before afterwards, also after a panic.", "quantifier": "all pairs of values, all shift amounts, every build configuration, byte order and back-end, every byte of every variable and temporary; under Stacked Borrows and under Tree Borrows", "why_tests_cant": "A violation has no effect on the result of a test: it allows the optimizer to miscompile some other build. Which pointers are used depends on the operands (every division algorithm writes on other paths) and on the build.", "anchors": ["src/intrinsics/cast.rs: cast!", "src/intrinsics/signed.rs", "src/intrinsics/native/*.rs", "src/intrinsics/llvm.rs: def!", "src/intrinsics/native/divmod.rs: udivmod4, idivmod4, udiv2, urem2, idiv2, irem2", "src/macros/ops.rs", "src/uint.rs: low, high, low_mut, high_mut, div_rem", "src/uint/api.rs: wrapping_add .. overflowing_mul, rotate_left", "src/int/api.rs: wrapping_add .. overflowing_mul, rotate_left", "src/int.rs: wrapping_div_rem"]}
{"id": "C70", "title": "Encodings that sort like the numbers", "statement": "Comparing encodings byte by byte, as databases, sorted files and ordered key-value stores do, gives the numeric order. The big-endian bytes of U256 (to_be_bytes and the big-endian byte format of serde) sort in dictionary order as cmp orders the values, and so do those of I256 once the top bit of the first byte is inverted; a list of values is ascending exactly if the list of its encodings is, and the keys that share a prefix are an interval of values. The compressed big-endian bytes of U256, and its decimal, binary, octal and hexadecimal texts without padding, sort like the values if shorter strings come first. Padded with zeros to a width that holds the largest value ({:078}, {:064x}, {:#066x}), all texts have that width and sort in dictionary order.", "quantifier": "all pairs and lists of values, all prefix lengths, all format settings without fill padding, every radix, every build configuration and byte order", "why_tests_cant": "An order is a statement about all pairs of 2^256 values; a byte or digit out of place shows only for pairs that first differ there.", "anchors": ["src/uint/api.rs: to_be_bytes", "src/int/api.rs: to_be_bytes", "src/uint/cmp.rs: Ord", "src/int/cmp.rs: Ord", "src/serde.rs: bytes::be, compressed_bytes::be", "src/fmt.rs: fmt_u256", "src/uint/fmt.rs"]}
{"id": "C71", "title": "Formatting into a writer that fails", "statement": "Whatever writer is behind the formatter, Display, Debug, Binary, Octal, LowerHex and UpperHex of both types cut their text into pieces in a way that does not depend on the writer, pass them on in order, and stop at the first call that fails, returning that error (or at the first that panics). With a writer that keeps a beginning of what it is given, what has been written is the whole text if success is reported and a beginning of it if an error is: nothing out of order, nothing twice, no success with a part missing, and no panic. Written to a slice the text is cut off at its end, and success is reported exactly if it fits; written to a string it is appended and never fails. The text formats of serde, which format into a buffer of fixed size inside the crate, never overflow it.", "quantifier": "all values of both types, all format settings, every radix, every writer (any state machine whose calls may succeed, fail or panic), every point of failure, every state of the writer", "why_tests_cant": "There are as many points of failure as calls, for each of 2^256 values and all settings; a writer is an arbitrary program.", "anchors": ["src/fmt.rs: GenericRadix::fmt_u256, fmt_u256", "src/macros/fmt.rs: impl_fmt, __impl_fmt_base", "src/serde.rs: FormatBuffer, Serialize for I256, Serialize for U256, decimal"]}
{"id": "C72", "title": "Threads that share operands do not disturb each other", "statement": "A call of an operator, an assigning operator, an arithmetic method or an intrinsic reads only the objects it was passed and writes only those it was passed by &mut, at every one of its steps and whatever other threads do to memory meanwhile. So threads of which none may write an object that another was given (what the borrow checker demands) never come to a data race. A thread that has finished has the result or the panic it has when it runs alone, and its variables hold the numbers that it computes alone; variables that nobody may write never change. Every thread finishes after a number of its own steps that does not depend on the others, and when all have, the memory is the same for every schedule. Threads that run assignments leave the numbers that the integers give.", "quantifier": "any number of threads running arbitrary client code over the calls (their next call may depend on earlier results), all memory contents, every schedule of single reads and writes of words, both back-ends, all builds, both byte orders", "why_tests_cant": "The number of schedules is exponential in the number of steps, and a test runs a few of them; a routine that used one of its operands or a hidden variable as scratch space would give right results in every sequential test.", "anchors": ["src/intrinsics/native/add.rs", "src/intrinsics/native/sub.rs", "src/intrinsics/native/mul.rs", "src/intrinsics/native/shl.rs", "src/intrinsics/native/shr.rs", "src/intrinsics/native/rot.rs", "src/intrinsics/native/divmod.rs: udivmod4, idivmod4, udiv2, urem2, idiv2, irem2", "src/intrinsics/signed.rs", "src/intrinsics/llvm.rs", "src/macros/ops.rs: impl_ops", "src/uint/api.rs: overflowing_add, wrapping_add, rotate_left", "src/int/api.rs: checked_div, checked_rem", "src/uint.rs: div_rem", "src/int.rs: checked_div_rem, wrapping_div_rem"]}
{"id": "C73", "title": "The text of scientific notation", "statement": "The text that {:e} and {:E} print for a U256 or I256 is the text of some decimal D x 10^k in scientific notation (first digit, point, other digits, exponent) with the sign, width and fill asked for. Zero is 0e0. Without a precision the digits are at most 17, do not end in 0, are read back as the double of as_f64, and are off by at most one part in 2^51. A value with at most 15 significant digits is printed with exactly its digits, and so is every value below 2^53. With a precision p there are p digits after the point: the double, or the value itself where it is a double, rounded to nearest, ties to even.", "quantifier": "all values, all formatter settings (sign, width, fill, alignment), all precisions, all builds, and every printer of doubles that keeps the promise std documents for f64", "why_tests_cant": "A test prints some values. Which values lose a digit depends on two roundings and on the distance of the decimals near a double, in all 2^256 values.", "anchors": ["src/macros/fmt.rs: impl_fmt, LowerExp, UpperExp", "src/uint.rs: as_f64", "src/int.rs: as_f64"]}
{"id": "C74", "title": "Through a float and back", "statement": "A value converted to f64 and back changes by at most one part in 2^52, and to f32 and back by at most one part in 2^24 (I256: 2^23); the largest values come back as the largest value. The value that comes back has the same float as the one that left, so a second trip changes nothing more, and trips keep the order of values. A finite float in range converted to an integer and back is rounded towards zero and nothing else. No conversion panics.", "quantifier": "all values of both types, all bit patterns of finite f32 and f64, every build configuration", "why_tests_cant": "The error depends on where a value lies between two floats, after two roundings for large values and three for a signed f32; tests try a few of the 2^256 values and 2^64 bit patterns, mostly exact ones.", "anchors": ["src/uint.rs: as_f32, as_f64", "src/int.rs: as_f32, as_f64", "src/uint/convert.rs: AsU256 for f32, f64", "src/int/convert.rs: AsI256 for f32, f64"]}
{"id": "C75", "title": "A ledger keeps its books", "statement": "A client that keeps balances and a total supply in U256, and mints, burns and transfers with checked_add and checked_sub, returning at the first failure, accepts exactly the transactions an integer ledger accepts, has the same books after every history, and leaves nothing behind when it rejects one; the balances always add up to the supply. With += and -= the same holds in builds with debug assertions, where rejecting is panicking. With wrapping arithmetic, and with += and -= in other builds, no transaction fails and the balances add up to the supply modulo 2^256 only.", "quantifier": "all numbers of accounts, all histories of mints, burns and transfers (to oneself too) of all amounts, every build configuration", "why_tests_cant": "The code writes one balance before it computes the other; that the second step cannot fail after the first one has been written follows from an invariant over all earlier transactions, not from any single call.", "anchors": ["src/uint/api.rs: checked_add, checked_sub, wrapping_add, wrapping_sub", "src/macros/ops.rs: impl_ops, AddAssign, SubAssign"]}
{"id": "C76", "title": "Number theory programs are exact", "statement": "Programs written with the operators as for mathematical integers give the mathematical answers and never panic, in every build: Euclid's algorithm on U256 returns the greatest common divisor after at most 369 divisions; the extended algorithm on non-negative I256 returns the greatest common divisor g and s, t with a*s + b*t = g in the integers, |s| at most max(1, b) and |t| at most max(1, a); the inverse of a modulo m computed from it with rem_euclid is the one between 0 and m-1, and is None exactly when there is none; powers modulo m by squaring are exact for every m from 1 to 2^128; and bisection with mid = (lo + hi + 1) >> 1 from u128::MAX returns the integer square root of every U256 after exactly 128 turns.", "quantifier": "all pairs of U256, all pairs of non-negative I256, all moduli in the range stated and all exponents, every build configuration", "why_tests_cant": "Termination and absence of overflow depend on the whole run of the loop: the worst case for Euclid's algorithm is one pair in 2^512, and the coefficients of the extended algorithm stay in range by an invariant that no single operation shows.", "anchors": ["src/macros/ops.rs: impl_ops, Add, Sub, Mul, Div, Rem, Shr, BitAnd", "src/macros/cmp.rs: PartialEq, PartialOrd", "src/int/api.rs: rem_euclid", "src/uint/api.rs: new"]}
{"id": "C77", "title": "A U256 is a set of numbers below 256", "statement": "Read as the set of the positions of its digits 1, a U256 behaves as a finite set in every build: different values are different sets and every set of numbers below 256 occurs; |, &, ^, ! and a & !b are union, intersection, symmetric difference, complement and difference; ==, a & b == a and a & b == 0 decide equality, inclusion and disjointness; for i below 256 inserting, removing, toggling and testing i by shifts of ONE do exactly that without a panic, and so after every history of such commands; count_ones is the number of elements, trailing_zeros the least and 255 - leading_zeros the greatest; and the loop that takes trailing_zeros and clears it with s &= s - 1 visits the elements in increasing order, each once, evaluating its condition once more than there are elements.", "quantifier": "all U256, all indices below 256, all histories of commands, every build configuration", "why_tests_cant": "There are 2^256 sets and unboundedly many histories; the walk takes a number of steps that depends on the set, and the borrow of s - 1 crosses the two halves only for some sets.", "anchors": ["src/macros/ops.rs: BitAnd, BitOr, BitXor, Not, Shl, Shr, Sub", "src/macros/cmp.rs: PartialEq", "src/uint/api.rs: count_ones, trailing_zeros, leading_zeros, ONE"]}
{"id": "C78", "title": "Amounts with decimals", "statement": "Programs that show amounts with decimals are exact. With 1 to 77 decimals, format!(\"{}.{:0w$}\", x / unit, x % unit, w = d) for unit = U256::new(10).pow(d) writes every U256 as a decimal with exactly d places that denotes x / 10^d, without superfluous zeros before the point. Splitting a text at the point, parsing both parts and combining them with checked_mul and checked_add accepts exactly the decimals with d places, with or without +, that denote an amount below 2^256, gives the amount denoted, and never panics. What is written is read back. With 78 decimals or more writing panics in debug builds.", "quantifier": "all U256, all byte strings, all numbers of decimals, every build configuration", "why_tests_cant": "The claim about reading is over all texts, and a mistake shows only for particular ones: a fraction with leading zeros, a sign after the point, an amount whose integer part alone fits.", "anchors": ["src/uint/api.rs: pow, checked_mul, checked_add, new", "src/macros/ops.rs: Div, Rem", "src/uint/fmt.rs: Display", "src/fmt.rs: FormatBuffer", "src/uint/parse.rs: from_str_radix, FromStr"]}
{"id": "C79", "title": "Bit manipulations at 256 bits", "statement": "The well known bit idioms compute at 256 bits what they compute on primitive words, in every build and without panics: (a & b) + ((a ^ b) >> 1) and (a | b) - ((a ^ b) >> 1) are the mean rounded down and up, also where a + b does not fit; x & x.wrapping_neg() is the greatest power of two dividing x; x != 0 && x & (x - 1) == 0 holds exactly of the powers of two; (x + (m - 1)) & !(m - 1) is the least multiple of a power of two m that is at least x, where the sum fits, and x & (m - 1) is x % m; x ^ (x >> 1) is a bijection, undone by the eight steps g ^= g >> 1, 2, 4, up to 128, under which neighbours, and MAX and 0, differ in exactly one digit; (s ^ m).wrapping_sub(m).as_u256() with m = s >> 255 is the absolute value of s, also for MIN; three exclusive ors exchange two variables.", "quantifier": "all U256 and I256, all powers of two, every build configuration", "why_tests_cant": "Each idiom relies on carries, borrows and shifts that cross from one word into the other, which happens for particular digits only; the claims are about all 2^256 or 2^512 operands.", "anchors": ["src/uint/api.rs: wrapping_neg, count_ones, as_i256", "src/int/api.rs: wrapping_sub, as_u256", "src/macros/ops.rs: BitAnd, BitOr, BitXor, Not, Shr, Add, Sub", "src/macros/cmp.rs: PartialEq<u128>"]}
{"id": "C80", "title": "Call data in the format of the Solidity ABI", "statement": "A program that writes uint256, int256 and bytes arguments with to_be_bytes and reads them with from_be_bytes and usize::try_from is correct. Reading gives, for any bytes, exactly the arguments the bytes say they have when offsets and lengths are taken as the full 256-bit numbers, and nothing otherwise: no offset or length beyond the data is reduced to a smaller one, on targets with any width of usize. What is written is read back for every list of arguments, and takes 32 bytes for a number, and 64 bytes and the bytes rounded up to a multiple of 32 for bytes.", "quantifier": "all byte strings, all lists of arguments of any length, all types of arguments, every build configuration", "why_tests_cant": "The data comes from strangers: the claim is over all byte strings, including offsets and lengths chosen to be congruent to valid ones modulo 2^32, 2^64 or 2^128.", "anchors": ["src/uint/api.rs: to_be_bytes, from_be_bytes", "src/int/api.rs: to_be_bytes, from_be_bytes", "src/uint/convert.rs: TryFrom<U256> for usize, AsU256 for usize"]}
{"id": "C81", "title": "The build script of the LLVM back-end builds from this build's template or fails", "statement": "The build script asks cargo to rerun it when CLANG changes, has rustc print the template's LLVM IR into OUT_DIR, reads it, writes its 256-bit version and has clang compile that, in this order and each at most once: with the variables that cargo sets, with the compiler that CLANG names or clang, and with thin link-time optimisation exactly if the flags ask for linker-plugin LTO. Whatever fails and wherever it is broken off, it has done a beginning of this and nothing else, and unless it was clang that failed clang has not been called. It succeeds exactly if nothing fails; then the library is made from the 256-bit version of the module that rustc printed in this build. What earlier builds have left behind makes no difference.", "quantifier": "all environments, all files left by earlier builds, all behaviours of rustc, of the file system and of clang including failures at every step, all texts and all modules that rustc can print", "why_tests_cant": "A test runs the script in one environment in which everything works; the claims are about every failure at every step and every state of the output directory.", "anchors": ["intrinsics/build/main.rs: main"]}
{"id": "C82", "title": "The programs beside the fuzzer", "statement": "The fuzzer's program dump prints the computation of an input file: for every file that can be read it prints the operation, the type and both operands and ends with success, since every file is decoded and none is reported. No two computations have the same text, so what is printed identifies the computation. It panics, without output, exactly if the file cannot be read. The program init makes the directories in and out and a seed, succeeds exactly if no call of the file system fails, and panics otherwise; the seed is decoded as 0 + 0 and accepted, and no other file is changed, whatever fails.", "quantifier": "all argument lists, all input files, all computations (both types, five operations, all pairs of operands), all states of the file system and failures of its calls, every build configuration", "why_tests_cant": "There are 10 * 2^512 computations, and files of any length; failures of the file system at each call cannot be provoked in a test.", "anchors": ["fuzz/src/bin/dump.rs: main", "fuzz/src/bin/init.rs: main", "fuzz/src/lib.rs: Target, Op, Num (derive(Debug))"]}
