/-
Results, build configurations and Rust primitive integers.

Nothing in this file models code of the crate; it fixes the meaning of the Rust
language features and of the standard-library primitives the crate is written in
(see DESIGN.md, trusted base).
-/

namespace Ethnum

/-- Why a Rust panic happened. The kinds follow the panic messages of rustc / of the crate. -/
inductive Panic where
  | addOverflow | subOverflow | mulOverflow | negOverflow | shlOverflow | shrOverflow
  | divByZero | remByZero | divOverflow | remOverflow
  /-- a failed `debug_assert!` -/
  | debugAssert
  /-- a failed `assert!` or an explicit `panic!`, `unwrap`, `expect` with another message -/
  | explicit
  /-- slice/array index out of bounds, checked by the language -/
  | indexOutOfBounds
  deriving DecidableEq, Repr

/-- Sources of undefined behaviour that the crate's `unsafe` code could trigger. -/
inductive UB where
  /-- `core::hint::unreachable_unchecked()` was reached -/
  | unreachable
  /-- `NonZero::new_unchecked(0)` -/
  | nonZeroZero
  /-- raw pointer read or write outside its buffer -/
  | outOfBounds
  /-- bytes read that were never written -/
  | uninit
  /-- a `str` that is not UTF-8 -/
  | notUtf8
  deriving DecidableEq, Repr

/-- The ways a call can fail to return. -/
inductive Fault where
  | panic (p : Panic)
  | ub (u : UB)
  /-- a loop did not finish within the fuel of the model -/
  | diverge
  deriving DecidableEq, Repr

/-- Outcome of a Rust call: a value, or a fault. -/
abbrev Res := Except Fault

instance {α : Type} [DecidableEq α] : DecidableEq (Res α) := fun a b =>
  match a, b with
  | .ok x, .ok y => if h : x = y then isTrue (by rw [h]) else isFalse (by simp [h])
  | .error x, .error y => if h : x = y then isTrue (by rw [h]) else isFalse (by simp [h])
  | .ok _, .error _ => isFalse (by simp)
  | .error _, .ok _ => isFalse (by simp)

/-- The call panicked (as opposed to returning, being undefined or diverging). -/
def Panics {α : Type} (r : Res α) : Prop := ∃ p, r = .error (.panic p)

/-- Width of `usize`/`isize`. -/
inductive PtrWidth where
  | w16 | w32 | w64
  deriving DecidableEq, Repr

def PtrWidth.bits : PtrWidth → Nat
  | .w16 => 16 | .w32 => 32 | .w64 => 64

/-- A build configuration of the crate. `debugAssertions` is `cfg(debug_assertions)`,
`overflowChecks` is `-C overflow-checks`; Cargo lets them be set independently. `llvm` is the
feature `llvm-intrinsics`, which replaces the native back-end by one compiled from LLVM IR. -/
structure Cfg where
  bigEndian : Bool
  debugAssertions : Bool
  overflowChecks : Bool
  ptr : PtrWidth
  llvm : Bool
  deriving DecidableEq, Repr

abbrev U8 := BitVec 8
abbrev U32 := BitVec 32
abbrev U64 := BitVec 64
abbrev U128 := BitVec 128

/-- A Rust panic. -/
def throwPanic {α : Type} (p : Panic) : Res α := .error (.panic p)

/-- Undefined behaviour. -/
def throwUB {α : Type} (u : UB) : Res α := .error (.ub u)

/-- `debug_assert!(b)`. -/
def debugAssert (c : Cfg) (b : Bool) : Res Unit :=
  if c.debugAssertions && !b then throwPanic .debugAssert else .ok ()

/-- `if b { unreachable_unchecked() }`. -/
def unreachableIf (b : Bool) : Res Unit :=
  if b then throwUB .unreachable else .ok ()

/-- Rust `a + b` on an unsigned primitive. -/
def addC (c : Cfg) {w : Nat} (a b : BitVec w) : Res (BitVec w) :=
  if c.overflowChecks && decide (2 ^ w ≤ a.toNat + b.toNat) then throwPanic .addOverflow
  else .ok (a + b)

/-- Rust `a - b` on an unsigned primitive. -/
def subC (c : Cfg) {w : Nat} (a b : BitVec w) : Res (BitVec w) :=
  if c.overflowChecks && decide (a.toNat < b.toNat) then throwPanic .subOverflow
  else .ok (a - b)

/-- Rust `a * b` on an unsigned primitive. -/
def mulC (c : Cfg) {w : Nat} (a b : BitVec w) : Res (BitVec w) :=
  if c.overflowChecks && decide (2 ^ w ≤ a.toNat * b.toNat) then throwPanic .mulOverflow
  else .ok (a * b)

/-- Rust `a << n` (`n : u32`) on a primitive: panics or masks when `n ≥ w`. -/
def shlC (c : Cfg) {w : Nat} (a : BitVec w) (n : U32) : Res (BitVec w) :=
  if c.overflowChecks && decide (w ≤ n.toNat) then throwPanic .shlOverflow
  else .ok (a <<< (n.toNat % w))

/-- Rust `a >> n` (`n : u32`) on an unsigned primitive. -/
def shrC (c : Cfg) {w : Nat} (a : BitVec w) (n : U32) : Res (BitVec w) :=
  if c.overflowChecks && decide (w ≤ n.toNat) then throwPanic .shrOverflow
  else .ok (a >>> (n.toNat % w))

/-- Rust `a >> n` (`n : u32`) on a signed primitive (arithmetic shift). -/
def sarC (c : Cfg) {w : Nat} (a : BitVec w) (n : U32) : Res (BitVec w) :=
  if c.overflowChecks && decide (w ≤ n.toNat) then throwPanic .shrOverflow
  else .ok (a.sshiftRight (n.toNat % w))

/-- Rust `a / b` on an unsigned primitive. -/
def divC {w : Nat} (a b : BitVec w) : Res (BitVec w) :=
  if b = 0 then throwPanic .divByZero else .ok (a / b)

/-- Rust `a % b` on an unsigned primitive. -/
def remC {w : Nat} (a b : BitVec w) : Res (BitVec w) :=
  if b = 0 then throwPanic .remByZero else .ok (a % b)

/-- Rust `-a` on a signed primitive. -/
def negC (c : Cfg) {w : Nat} (a : BitVec w) : Res (BitVec w) :=
  if c.overflowChecks && decide (a = BitVec.intMin w) then throwPanic .negOverflow
  else .ok (-a)

/-- `uN::overflowing_add`. -/
def overflowingAdd {w : Nat} (a b : BitVec w) : BitVec w × Bool :=
  (a + b, decide (2 ^ w ≤ a.toNat + b.toNat))

/-- `uN::overflowing_sub`. -/
def overflowingSub {w : Nat} (a b : BitVec w) : BitVec w × Bool :=
  (a - b, decide (a.toNat < b.toNat))

/-- `uN::overflowing_mul`. -/
def overflowingMul {w : Nat} (a b : BitVec w) : BitVec w × Bool :=
  (a * b, decide (2 ^ w ≤ a.toNat * b.toNat))

/-- `b as uN` for a `bool`. -/
def ofBool (w : Nat) (b : Bool) : BitVec w := if b then 1#w else 0#w

/-- `count_ones`. -/
def countOnes {w : Nat} (x : BitVec w) : Nat := (List.range w).countP (fun i => x.getLsbD i)

/-- `count_zeros`. -/
def countZeros {w : Nat} (x : BitVec w) : Nat := (List.range w).countP (fun i => !x.getLsbD i)

/-- `leading_zeros`: the length of the run of clear bits at the top. -/
def leadingZeros {w : Nat} (x : BitVec w) : Nat :=
  ((List.range w).takeWhile (fun i => !x.getMsbD i)).length

/-- `trailing_zeros`: the length of the run of clear bits at the bottom. -/
def trailingZeros {w : Nat} (x : BitVec w) : Nat :=
  ((List.range w).takeWhile (fun i => !x.getLsbD i)).length

/-- The `k` base-256 digits of `n`, least significant first. -/
def leBytes : Nat → Nat → List U8
  | 0, _ => []
  | k + 1, n => BitVec.ofNat 8 n :: leBytes k (n / 256)

/-- The number whose base-256 digits, least significant first, are `l`. -/
def leValue : List U8 → Nat
  | [] => 0
  | b :: l => b.toNat + 256 * leValue l

/-- `u128::swap_bytes`. -/
def swapBytes128 (x : U128) : U128 := BitVec.ofNat 128 (leValue (leBytes 16 x.toNat).reverse)

/-- Bytes of a `u128` in memory. -/
def neBytes128 (c : Cfg) (x : U128) : List U8 :=
  if c.bigEndian then (leBytes 16 x.toNat).reverse else leBytes 16 x.toNat

/-- A `u128` from its 16 bytes in memory. -/
def ofNeBytes128 (c : Cfg) (l : List U8) : U128 :=
  if c.bigEndian then BitVec.ofNat 128 (leValue l.reverse) else BitVec.ofNat 128 (leValue l)

/-- A `u32` whose value is the (small) number `n`; used for results of the counting functions. -/
def u32 (n : Nat) : U32 := BitVec.ofNat 32 n

end Ethnum
