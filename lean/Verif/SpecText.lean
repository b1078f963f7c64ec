import Verif.Basic

/-
Specification: what a string of digits means. A string is the list of its bytes.
-/

namespace Ethnum

/-- The byte `b` is the base `r` digit `d`: `0`–`9`, then letters of either case. -/
def IsDigit (r : Nat) (b : BitVec 8) (d : Nat) : Prop :=
  d < r ∧ (d < 10 ∧ b.toNat = 48 + d ∨ 10 ≤ d ∧ d < 36 ∧ (b.toNat = 97 + (d - 10) ∨ b.toNat = 65 + (d - 10)))

/-- `l` is a non-empty string of base `r` digits, and denotes `v`. -/
inductive Numeral (r : Nat) : List (BitVec 8) → Nat → Prop
  | one {b d} : IsDigit r b d → Numeral r [b] d
  | snoc {l v b d} : Numeral r l v → IsDigit r b d → Numeral r (l ++ [b]) (v * r + d)

/-- The string without a leading `+`. -/
def dropPlus : List (BitVec 8) → List (BitVec 8)
  | [] => []
  | b :: l => if b = 43 then l else b :: l

/-- `s` is an optional sign, then `pfx`, then digits that denote the magnitude of `z`. -/
def SignedNumeral (pfx : List (BitVec 8)) (r : Nat) (s : List (BitVec 8)) (z : Int) : Prop :=
  (∃ t n, dropPlus s = pfx ++ t ∧ Numeral r t n ∧ z = n) ∨ (∃ t n, s = 45 :: (pfx ++ t) ∧ Numeral r t n ∧ z = -n)

/-- `l` is a numeral with a radix prefix (`0b`, `0o`, `0x`), or a decimal numeral without one, that denotes `n`. -/
def PrefixedNumeral (l : List (BitVec 8)) (n : Nat) : Prop :=
  (∃ t, l = [48, 98] ++ t ∧ Numeral 2 t n) ∨ (∃ t, l = [48, 111] ++ t ∧ Numeral 8 t n)
  ∨ (∃ t, l = [48, 120] ++ t ∧ Numeral 16 t n) ∨ Numeral 10 l n

/-- The same with an optional sign in front. -/
def SignedPrefixedNumeral (s : List (BitVec 8)) (z : Int) : Prop :=
  (∃ n : Nat, PrefixedNumeral (dropPlus s) n ∧ z = n) ∨ (∃ t, ∃ n : Nat, s = 45 :: t ∧ PrefixedNumeral t n ∧ z = -n)

/-- Underscores and ASCII white space, which a literal may contain anywhere between its digits. -/
def IsSeparator (b : BitVec 8) : Prop := b = 95 ∨ b = 9 ∨ b = 10 ∨ b = 12 ∨ b = 13 ∨ b = 32

instance (b : BitVec 8) : Decidable (IsSeparator b) := by unfold IsSeparator; infer_instance

/-- The text without separators. -/
def digitsOf (l : List (BitVec 8)) : List (BitVec 8) := l.filter (fun b => decide (¬ IsSeparator b))

/-- The text `l` after the sign is written in base `r`, as its prefix says, with the digits `d`. A prefix counts only if
something follows it. -/
def LiteralForm (l : List (BitVec 8)) (r : Nat) (d : List (BitVec 8)) : Prop :=
  (∃ t, t ≠ [] ∧ l = [48, 98] ++ t ∧ r = 2 ∧ d = digitsOf t)
  ∨ (∃ t, t ≠ [] ∧ l = [48, 111] ++ t ∧ r = 8 ∧ d = digitsOf t)
  ∨ (∃ t, t ≠ [] ∧ l = [48, 120] ++ t ∧ r = 16 ∧ d = digitsOf t)
  ∨ (l ≠ [] ∧ (∀ a t, t ≠ [] → l = [48, a] ++ t → a ≠ 98 ∧ a ≠ 111 ∧ a ≠ 120) ∧ r = 10 ∧ d = digitsOf l)

/-- The text `l` is a well-formed literal without sign, and denotes `n`. -/
def Literal (l : List (BitVec 8)) (n : Nat) : Prop := ∃ r d, LiteralForm l r d ∧ Numeral r d n

/-- The text `s` is a well-formed literal with an optional sign, and denotes `z`. -/
def SignedLiteral (s : List (BitVec 8)) (z : Int) : Prop :=
  (∃ n : Nat, Literal (dropPlus s) n ∧ z = n) ∨ (∃ t, ∃ n : Nat, s = 45 :: t ∧ Literal t n ∧ z = -n)

/-- The carry out of the low word of `v * r` does not depend on the lowest 64 bits of `v`. -/
def NoCarry (r v : Nat) : Prop := (v % 2 ^ 128 / 2 ^ 64 * r) / 2 ^ 64 = (v % 2 ^ 128 * r) / 2 ^ 128

instance (r v : Nat) : Decidable (NoCarry r v) := inferInstanceAs (Decidable (_ = _))

/-- The texts after the sign that the parser of compile-time literals accepts, and the numbers it returns. This is wider
than `Literal` in one way and narrower in another: a text without digits counts as zero, and a decimal literal is rejected
if the value of some proper prefix of its digits has a carry as above. -/
def Const.Accepts (l : List (BitVec 8)) (n : Nat) : Prop :=
  ∃ r d, LiteralForm l r d ∧ (d = [] ∧ n = 0 ∨ Numeral r d n)
    ∧ (r = 10 → ∀ q u, q <+: d → q ≠ d → Numeral 10 q u → NoCarry 10 u)

end Ethnum
