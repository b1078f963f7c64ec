import Verif.Proofs.Prim
import Mathlib.Tactic.Ring
import Mathlib.Tactic.Linarith

/-! Counting bits of a word. -/

namespace Ethnum

theorem takeWhile_range (w : Nat) (p : Nat → Bool) :
    ((List.range w).takeWhile p).length ≤ w ∧
    (∀ i < ((List.range w).takeWhile p).length, p i = true) ∧
    (((List.range w).takeWhile p).length < w → p ((List.range w).takeWhile p).length = false) := by
  have e : ((List.range w).takeWhile p).length = (List.range w).findIdx (fun x => !p x) := by
    rw [List.takeWhile_eq_take_findIdx_not, List.length_take]
    have := List.findIdx_le_length (xs := List.range w) (p := fun x => !p x)
    omega
  rw [e]
  refine ⟨?_, ?_, ?_⟩
  · have := List.findIdx_le_length (xs := List.range w) (p := fun x => !p x); simpa using this
  · intro i hi
    have hw := List.findIdx_le_length (xs := List.range w) (p := fun x => !p x)
    have := List.not_of_lt_findIdx hi
    simpa using this
  · intro h
    have := List.findIdx_getElem (xs := List.range w) (p := fun x => !p x) (w := by simpa using h)
    simpa using this

theorem leadingZeros_le {w : Nat} (x : BitVec w) : leadingZeros x ≤ w :=
  (takeWhile_range w (fun i => !x.getMsbD i)).1

theorem leadingZeros_clear {w : Nat} (x : BitVec w) {i : Nat} (h : i < leadingZeros x) :
    x.getMsbD i = false := by
  have := (takeWhile_range w (fun i => !x.getMsbD i)).2.1 i h; simpa using this

theorem leadingZeros_set {w : Nat} (x : BitVec w) (h : leadingZeros x < w) :
    x.getMsbD (leadingZeros x) = true := by
  have := (takeWhile_range w (fun i => !x.getMsbD i)).2.2 h; simpa [leadingZeros, trailingZeros] using this

theorem trailingZeros_le {w : Nat} (x : BitVec w) : trailingZeros x ≤ w :=
  (takeWhile_range w (fun i => !x.getLsbD i)).1

theorem trailingZeros_clear {w : Nat} (x : BitVec w) {i : Nat} (h : i < trailingZeros x) :
    x.getLsbD i = false := by
  have := (takeWhile_range w (fun i => !x.getLsbD i)).2.1 i h; simpa using this

theorem trailingZeros_set {w : Nat} (x : BitVec w) (h : trailingZeros x < w) :
    x.getLsbD (trailingZeros x) = true := by
  have := (takeWhile_range w (fun i => !x.getLsbD i)).2.2 h; simpa [leadingZeros, trailingZeros] using this

theorem toNat_lt_leadingZeros {w : Nat} (x : BitVec w) : x.toNat < 2 ^ (w - leadingZeros x) := by
  apply Nat.lt_pow_two_of_testBit
  intro i hi
  rw [BitVec.testBit_toNat]
  by_cases h : i < w
  · have := leadingZeros_clear x (i := w - 1 - i) (by omega)
    rw [BitVec.getMsbD] at this
    simpa [show w - 1 - (w - 1 - i) = i by omega, show w - 1 - i < w by omega] using this
  · exact BitVec.getLsbD_of_ge _ _ (by omega)

theorem leadingZeros_lt {w : Nat} {x : BitVec w} (hx : x.toNat ≠ 0) : leadingZeros x < w := by
  rcases Nat.lt_or_ge (leadingZeros x) w with h | h
  · exact h
  · have := toNat_lt_leadingZeros x
    rw [show w - leadingZeros x = 0 by omega] at this
    omega

theorem le_toNat_leadingZeros {w : Nat} {x : BitVec w} (hx : x.toNat ≠ 0) :
    2 ^ (w - 1 - leadingZeros x) ≤ x.toNat := by
  have h := leadingZeros_lt hx
  have := leadingZeros_set x h
  rw [BitVec.getMsbD] at this
  simp only [h, decide_true, Bool.true_and] at this
  exact Nat.ge_two_pow_of_testBit (by rw [BitVec.testBit_toNat]; exact this)

theorem toNat_u32 {n : Nat} (h : n < 2 ^ 32) : (u32 n).toNat = n := by
  simp [u32]; omega

end Ethnum
