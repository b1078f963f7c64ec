import Verif.Model.Prim

/-
`f32` and `f64`: IEEE 754 binary32 and binary64. Nothing here models code of the crate; the file fixes the meaning of
the floating point operations the crate uses (see DESIGN.md, trusted base). Props/Float.lean proves that the rounding
defined here is rounding to nearest, ties to even.
-/

namespace Ethnum

/-- The two floating point types. -/
inductive FloatTy where
  | f32 | f64
  deriving DecidableEq, Repr

namespace FloatTy

/-- Size in bits. -/
def bits : FloatTy → Nat
  | f32 => 32 | f64 => 64
/-- `MANTISSA_DIGITS` -/
def p : FloatTy → Nat
  | f32 => 24 | f64 => 53
/-- A value: its bit pattern, from the top a sign bit, the exponent field and `p - 1` bits of fraction. -/
abbrev Val (t : FloatTy) := BitVec t.bits
/-- All finite values are integer multiples of `2^-K`. -/
def K : FloatTy → Nat
  | f32 => 149 | f64 => 1074
/-- The bit pattern of `+∞`; as a number it exceeds the pattern of every finite magnitude. -/
def infBits : FloatTy → Nat
  | f32 => 0x7f800000 | f64 => 0x7ff0000000000000

variable (t : FloatTy)

/-- The pattern without the sign bit, as a number. -/
def mag (x : t.Val) : Nat := x.toNat % 2 ^ (t.bits - 1)
/-- The sign bit. -/
def neg (x : t.Val) : Bool := decide (2 ^ (t.bits - 1) ≤ x.toNat)
def isNaN (x : t.Val) : Bool := decide (t.infBits < t.mag x)
def isInf (x : t.Val) : Bool := decide (t.mag x = t.infBits)
def isFinite (x : t.Val) : Bool := decide (t.mag x < t.infBits)

/-- The number that the magnitude pattern `b` denotes, in units of `2^-K`: a subnormal, or the fraction with its
hidden bit scaled by the exponent. -/
def magUnits (p b : Nat) : Nat :=
  if b / 2 ^ (p - 1) = 0 then b else (b % 2 ^ (p - 1) + 2 ^ (p - 1)) * 2 ^ (b / 2 ^ (p - 1) - 1)

/-- The number a finite value denotes, in units of `2^-K`. -/
def units (x : t.Val) : Int := if t.neg x then -(magUnits t.p (t.mag x) : Int) else magUnits t.p (t.mag x)

/-- The value with the given sign and magnitude pattern. -/
def make (negative : Bool) (m : Nat) : t.Val := BitVec.ofNat _ (if negative then 2 ^ (t.bits - 1) + m else m)

/-- `INFINITY` -/
def inf : t.Val := t.make false t.infBits
/-- A quiet NaN. Which one an operation returns is not specified by Rust; no result of the crate depends on it. -/
def nan : t.Val := t.make false (t.infBits + 2 ^ (t.p - 2))
/-- `1.0` -/
def one : t.Val := t.make false ((t.K - t.p + 2) * 2 ^ (t.p - 1))

/-- Number of binary digits. -/
def size (n : Nat) : Nat := if n = 0 then 0 else n.log2 + 1

/-- `n / d` rounded to the nearest integer, ties to even. -/
def rneDiv (n d : Nat) : Nat :=
  if 2 * (n % d) < d ∨ (2 * (n % d) = d ∧ n / d % 2 = 0) then n / d else n / d + 1

/-- The exponent (in units) at which a magnitude of `n / d` units has `p` significant digits. -/
def expo (p n d : Nat) : Nat := size (n / d) - p

/-- The magnitude pattern of `n / d` units rounded to `p` significant digits, if exponents were unbounded. -/
def roundUnits (p n d : Nat) : Nat := expo p n d * 2 ^ (p - 1) + rneDiv n (d * 2 ^ expo p n d)

/-- The magnitude pattern of the rational `n / d`, rounded to nearest even; overflow gives infinity. -/
def roundMag (n d : Nat) : Nat := min (roundUnits t.p (n * 2 ^ t.K) d) t.infBits

/-- `z as f32`/`z as f64` for an integer. -/
def ofInt (z : Int) : t.Val := t.make (decide (z < 0)) (t.roundMag z.natAbs 1)

/-- `a + b` -/
def add (a b : t.Val) : t.Val :=
  if t.isNaN a || t.isNaN b then t.nan
  else if t.isInf a then (if t.isInf b && (t.neg a != t.neg b) then t.nan else a)
  else if t.isInf b then b
  else
    let s := t.units a + t.units b
    if s = 0 then t.make (t.neg a && t.neg b) 0 else t.make (decide (s < 0)) (t.roundMag s.natAbs (2 ^ t.K))

/-- `a * b` -/
def mul (a b : t.Val) : t.Val :=
  if t.isNaN a || t.isNaN b then t.nan
  else if t.isInf a || t.isInf b then
    if t.mag a = 0 ∨ t.mag b = 0 then t.nan else t.make (t.neg a != t.neg b) t.infBits
  else t.make (t.neg a != t.neg b) (t.roundMag ((t.units a).natAbs * (t.units b).natAbs) (2 ^ (2 * t.K)))

/-- `x as f32`/`x as f64` between the floating point types. -/
def convert (t t' : FloatTy) (x : t.Val) : t'.Val :=
  if t.isNaN x then t'.nan
  else if t.isInf x then t'.make (t.neg x) t'.infBits
  else t'.make (t.neg x) (t'.roundMag (t.units x).natAbs (2 ^ t.K))

/-- The position of a value other than NaN in the order of the type. -/
def key (x : t.Val) : Int := if t.neg x then -(t.mag x : Int) else t.mag x
/-- `a >= b` -/
def ge (a b : t.Val) : Bool := !t.isNaN a && !t.isNaN b && decide (t.key b ≤ t.key a)
/-- `a < b` -/
def lt (a b : t.Val) : Bool := !t.isNaN a && !t.isNaN b && decide (t.key a < t.key b)
/-- `a == b` -/
def eq (a b : t.Val) : Bool := !t.isNaN a && !t.isNaN b && decide (t.key a = t.key b)

/-- `x as iN`: truncates towards zero and saturates; NaN gives zero. -/
def toSigned (n : Nat) (x : t.Val) : Int :=
  if t.isNaN x then 0
  else if t.isInf x then (if t.neg x then -2 ^ (n - 1) else 2 ^ (n - 1) - 1)
  else max (-2 ^ (n - 1)) (min ((t.units x).tdiv (2 ^ t.K)) (2 ^ (n - 1) - 1))

end FloatTy
end Ethnum
