import Verif.SpecFloat
import Verif.SpecFmt
import Verif.Model.Float

/-
Specification of scientific notation: which text a number in the form d.ddd × 10^x has, and what the standard library
promises about the digits it prints for an `f64`. Of the model this uses the settings of a `Formatter` and the type
`F64Fmt` of printers of doubles only.
-/

namespace Ethnum
open FloatTy

/-- The text of d.ddd × 10^x: the first digit, a point and the other digits if there are any, `e`, the exponent. -/
def sciText (e : Char) (ds : List Char) (x : ℤ) : List Char :=
  ds.take 1 ++ (if 1 < ds.length then '.' :: ds.drop 1 else []) ++ e :: (toString x).toList

/-- How many decimal digits a number has -/
def digitCount (D : ℕ) : ℕ := (Nat.toDigits 10 D).length

/-- The text `t` shows the number `D × 10^k` in scientific notation, with the digits of `D`, the given sign and the padding of
the settings. -/
def ShowsSci (f : Formatter) (neg : Prop) [Decidable neg] (e : Char) (D : ℕ) (k : ℤ) (t : List Char) : Prop :=
  Layout f (signText f neg) (sciText e (Nat.toDigits 10 D) (k + digitCount D - 1)) t

/-- `D × 10^k` has as few digits as possible among the decimals that are read back as the double `v`, and is nearest to it among those
that have so few. -/
structure Shortest (v : f64.Val) (D : ℕ) (k : ℤ) : Prop where
  back : f64.NearestEven (D * 10 ^ k) v
  short : ∀ (D' : ℕ) (k' : ℤ), f64.NearestEven (D' * 10 ^ k') v → digitCount D ≤ digitCount D'
  near : ∀ (D' : ℕ) (k' : ℤ), f64.NearestEven (D' * 10 ^ k') v → digitCount D' = digitCount D →
    |(D * 10 ^ k : ℚ) - f64.val v| ≤ |(D' * 10 ^ k' : ℚ) - f64.val v|

/-- `D × 10^k` is the number `q > 0` rounded to `p` digits after the first, ties to even: `q` lies between two multiples of the
last digit's weight `10^j`, `R × 10^j` is the nearer one, and `D` is `R` with `p + 1` digits (`R` is `10^(p+1)` if all digits
were nines that are rounded up). -/
def RoundedTo (p : ℕ) (q : ℚ) (D : ℕ) (k : ℤ) : Prop :=
  digitCount D = p + 1 ∧ ∃ (R : ℕ) (j : ℤ), 10 ^ (p + j) ≤ q ∧ q < 10 ^ (p + 1 + j)
    ∧ |(R * 10 ^ j : ℚ) - q| ≤ 10 ^ j / 2 ∧ (|(R * 10 ^ j : ℚ) - q| = 10 ^ j / 2 → R % 2 = 0)
    ∧ (D * 10 ^ k : ℚ) = R * 10 ^ j

/-- What the standard library promises of `{:e}` and `{:E}` on an `f64` `v`, without a precision (`{:e}`) or with one
(`{:.3e}`). Asked of zero and of magnitudes from 1 to 2^256 only. -/
def StdExp (prec : Option ℕ) (F : F64Fmt) : Prop :=
  ∀ (v : f64.Val) (f : Formatter), f64.isFinite v = true →
    (f64.val v = 0 →
      Layout f (signText f (f64.neg v = true)) (sciText 'e' (List.replicate (prec.getD 0 + 1) '0') 0) (F.lower v f)
      ∧ Layout f (signText f (f64.neg v = true)) (sciText 'E' (List.replicate (prec.getD 0 + 1) '0') 0) (F.upper v f))
    ∧ (1 ≤ |f64.val v| → |f64.val v| ≤ 2 ^ 256 →
      ∃ (D : ℕ) (k : ℤ), ShowsSci f (f64.neg v = true) 'e' D k (F.lower v f) ∧ ShowsSci f (f64.neg v = true) 'E' D k (F.upper v f)
        ∧ match prec with
          | none => Shortest (f64.make false (f64.mag v)) D k
          | some p => RoundedTo p |f64.val v| D k)

end Ethnum
