import Verif.Model.Ops
import Verif.Model.Bytes

/-
The differential fuzzer of the repository: fuzz/src/lib.rs, fuzz/src/conv.rs, fuzz/src/reference.rs.

`num::BigInt` is represented by `Int`; the four methods the fuzzer calls on it are defined below. How the fuzzer's
input bytes become a `Target` is in Model/FuzzInput.lean.
-/

namespace Ethnum
namespace Fuzz

/-! ### `num::BigInt` (trusted base) -/

/-- The base `2 ^ 64` digits of a magnitude, the least significant first, without leading zeros. -/
def digitsAux : Nat → Nat → List U64
  | 0, _ => []
  | fuel + 1, n => if n = 0 then [] else BitVec.ofNat 64 n :: digitsAux fuel (n / 2 ^ 64)

/-- `BigInt::iter_u64_digits`: the digits of the absolute value; none at all for zero. -/
def iter_u64_digits (n : Int) : List U64 := digitsAux (n.natAbs.log2 + 1) n.natAbs

/-- `BigInt::from_signed_bytes_le`: two's complement, the least significant byte first. -/
def from_signed_bytes_le (b : List U8) : Int :=
  if 2 * leValue b < 2 ^ (8 * b.length) then leValue b else leValue b - 2 ^ (8 * b.length)

/-- `/` on `BigInt`: towards zero, panicking on zero. -/
def bigDiv (a b : Int) : Res Int := if b = 0 then throwPanic .divByZero else .ok (Int.tdiv a b)

/-- `%` on `BigInt`: of the sign of the dividend, panicking on zero. -/
def bigRem (a b : Int) : Res Int := if b = 0 then throwPanic .divByZero else .ok (Int.tmod a b)

/-! ### fuzz/src/conv.rs -/

/-- fuzz/src/conv.rs 8-12: the trait `Int`. -/
structure FInt (T : Type) where
  from_nibbles : U64 → U64 → U64 → U64 → Res (T × Bool)
  neg : T → Res (T × Bool)
  le : T → List U8 × Bool

/-- fuzz/src/conv.rs 18-19: `((a as u128) << 64) + (b as u128)` -/
def nibblePair (c : Cfg) (a b : U64) : Res U128 := do
  addC c (← shlC c (a.setWidth 128) 64) (b.setWidth 128)

/-- fuzz/src/conv.rs 14-33, 35: the implementation for `U256` -/
def uInt (c : Cfg) : FInt U256 where
  from_nibbles n0 n1 n2 n3 := do
    let hi ← nibblePair c n0 n1
    let lo ← nibblePair c n2 n3
    let int := U256.from_words c hi lo
    return (int, int.lt_prim c 0)
  neg x := .ok (x.overflowing_neg c)
  le x := (x.to_le_bytes c, x.lt_prim c 0)

/-- fuzz/src/conv.rs 14-33, 35: the implementation for `I256` -/
def iInt (c : Cfg) : FInt I256 where
  from_nibbles n0 n1 n2 n3 := do
    let hi ← nibblePair c n0 n1
    let lo ← nibblePair c n2 n3
    let int := I256.from_words c hi lo
    return (int, int.lt_prim c 0)
  neg x := x.overflowing_neg c
  le x := (x.to_le_bytes c, x.lt_prim c 0)

/-- fuzz/src/conv.rs 38-57. The loop 44-46 takes the digits off the iterator from the last nibble to the first. -/
def from_bigint {T : Type} (t : FInt T) (n : Int) : Res (T × Bool) := do
  let digits := iter_u64_digits n
  let (result, negative) ← t.from_nibbles (digits.getD 3 0) (digits.getD 2 0) (digits.getD 1 0) (digits.getD 0 0)
  let overflowed := (digits.drop 4).head?.isSome
  if n < 0 then
    let (neg, overflow) ← t.neg result
    return (neg, overflowed || (negative ^^ overflow))
  else return (result, overflowed || negative)

/-- fuzz/src/conv.rs 60-72 -/
def to_bigint {T : Type} (t : FInt T) (n : T) : Int :=
  let (bytes, negative) := t.le n
  let sign : U8 := if negative then 0xff else 0
  from_signed_bytes_le (bytes ++ [sign])

/-! ### fuzz/src/lib.rs, fuzz/src/reference.rs -/

/-- fuzz/src/lib.rs 49-50: `Num(u128, u128)` -/
structure Num where
  hi : U128
  lo : U128
  deriving DecidableEq, Repr

/-- fuzz/src/lib.rs 53 -/
def Num.ZERO : Num := ⟨0, 0⟩
/-- fuzz/src/lib.rs 54 -/
def Num.IMIN : Num := ⟨BitVec.intMin 128, 0⟩
/-- fuzz/src/lib.rs 55 -/
def Num.UMAX : Num := ⟨-1, -1⟩

/-- fuzz/src/lib.rs 58-62 -/
def Num.as_u256 (c : Cfg) (n : Num) : U256 := U256.from_words c n.hi n.lo
/-- fuzz/src/lib.rs 64-68 -/
def Num.as_i256 (c : Cfg) (n : Num) : I256 := I256.from_words c n.hi n.lo

/-- fuzz/src/lib.rs 40-47: the operation of an `Op`; its two operands are kept apart. -/
inductive OpKind where
  | add | sub | mul | div | rem
  deriving DecidableEq, Repr

/-- fuzz/src/lib.rs 40-47 -/
structure Op where
  kind : OpKind
  a : Num
  b : Num
  deriving DecidableEq, Repr

/-- fuzz/src/lib.rs 8-12 -/
inductive Target where
  | signed (op : Op)
  | unsigned (op : Op)
  deriving DecidableEq, Repr

/-- fuzz/src/lib.rs 21-38 -/
def Target.is_interesting : Target → Bool
  | .signed op =>
    if (op.kind == .div || op.kind == .rem) && op.b == Num.ZERO then false
    else if op.kind == .rem && op.a == Num.IMIN && op.b == Num.UMAX then false
    else true
  | .unsigned op => if (op.kind == .div || op.kind == .rem) && op.b == Num.ZERO then false else true

/-- The body of one function of fuzz/src/reference.rs 23-42. -/
def bigOp (k : OpKind) (a b : Int) : Res Int :=
  match k with
  | .add => .ok (a + b)
  | .sub => .ok (a - b)
  | .mul => .ok (a * b)
  | .div => bigDiv a b
  | .rem => bigRem a b

/-- fuzz/src/reference.rs 5-20: a function of the reference implementation. -/
def reference {T : Type} (t : FInt T) (k : OpKind) (a b : T) : Res (T × Bool) := do
  from_bigint t (← bigOp k (to_bigint t a) (to_bigint t b))

/-- fuzz/src/lib.rs 71-81: the method of `U256` under test -/
def uOp (c : Cfg) (k : OpKind) (a b : U256) : Res (U256 × Bool) :=
  match k with
  | .add => .ok (a.overflowing_add c b)
  | .sub => .ok (a.overflowing_sub c b)
  | .mul => a.overflowing_mul c b
  | .div => a.overflowing_div c b
  | .rem => a.overflowing_rem c b

/-- fuzz/src/lib.rs 71-81: the method of `I256` under test -/
def iOp (c : Cfg) (k : OpKind) (a b : I256) : Res (I256 × Bool) :=
  match k with
  | .add => .ok (a.overflowing_add c b)
  | .sub => .ok (a.overflowing_sub c b)
  | .mul => a.overflowing_mul c b
  | .div => a.overflowing_div c b
  | .rem => a.overflowing_rem c b

/-- fuzz/src/lib.rs 83-89: `assert_op!`, an `assert_eq!` on pairs, with `==` of the integer type. -/
def assert_op {T : Type} (eq : T → T → Bool) (actual expected : Res (T × Bool)) : Res Unit := do
  let x ← actual
  let y ← expected
  if eq x.1 y.1 && x.2 == y.2 then return () else throwPanic .explicit

/-- fuzz/src/lib.rs 71-89, 95-98: the assertion made for a target, whether or not it is interesting. -/
def check (c : Cfg) : Target → Res Unit
  | .signed op =>
    let a := op.a.as_i256 c
    let b := op.b.as_i256 c
    assert_op (I256.eq c) (iOp c op.kind a b) (reference (iInt c) op.kind a b)
  | .unsigned op =>
    let a := op.a.as_u256 c
    let b := op.b.as_u256 c
    assert_op (U256.eq c) (uOp c op.kind a b) (reference (uInt c) op.kind a b)

/-- fuzz/src/lib.rs 92-102, from the decoded target on. -/
def fuzz (c : Cfg) (t : Target) : Res Unit := if t.is_interesting then check c t else return ()

end Fuzz
end Ethnum
