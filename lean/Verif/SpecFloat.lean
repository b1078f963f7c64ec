import Verif.Float
import Mathlib.Data.Rat.Floor

/-
Specification of floating point conversions: the number a float denotes, and what it means to be a correct
approximation of a number. Uses only the fields of the bit pattern (Verif/Float.lean), none of the rounding defined
there and no function of the model.
-/

namespace Ethnum.FloatTy
variable (t : FloatTy)

/-- The number a finite float denotes. -/
def val (x : t.Val) : ℚ := (t.units x : ℚ) / 2 ^ t.K

/-- `r` is a finite float nearest to `q`, and if another float is as near, the last bit of `r` is zero: the result
of the IEEE 754 rounding mode "to nearest, ties to even" when it does not overflow. -/
def NearestEven (q : ℚ) (r : t.Val) : Prop :=
  t.isFinite r = true ∧ ∀ y : t.Val, t.isFinite y = true →
    |t.val r - q| ≤ |t.val y - q| ∧ (|t.val r - q| = |t.val y - q| → t.val y ≠ t.val r → t.mag r % 2 = 0)

/-- `r` is a finite float and no float lies strictly between it and `q`, nor between `q` and it: a correct
approximation that may be the second nearest. If `q` is a float, `r` is it. -/
def Faithful (q : ℚ) (r : t.Val) : Prop :=
  t.isFinite r = true ∧ ∀ y : t.Val, t.isFinite y = true →
    (t.val y ≤ q → t.val y ≤ t.val r) ∧ (q ≤ t.val y → t.val r ≤ t.val y)

end Ethnum.FloatTy

namespace Ethnum

/-- Rounding towards zero. -/
def truncate (q : ℚ) : ℤ := if 0 ≤ q then ⌊q⌋ else ⌈q⌉

/-- The nearest number to `z` between `lo` and `hi`. -/
def saturate (lo hi z : ℤ) : ℤ := max lo (min z hi)

end Ethnum
