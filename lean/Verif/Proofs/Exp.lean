import Verif.SpecExp
import Verif.Proofs.FloatVal
import Mathlib.Tactic.Linarith
import Mathlib.Tactic.Ring
import Mathlib.Tactic.FieldSimp
import Mathlib.Tactic.Positivity
import Mathlib.Tactic.NormNum
import Mathlib.Data.Int.Log
import Mathlib.Data.Set.Finite.Lemmas
import Mathlib.Data.Int.Interval

/-
Lemmas for C73: which decimals are read back as a double, and that short decimals are told apart.
-/

namespace Ethnum
open FloatTy

/-! ### Digits -/

theorem digitCount_le_iff {D k : ℕ} (h : 0 < k) : digitCount D ≤ k ↔ D < 10 ^ k :=
  Nat.length_toDigits_le_iff (by decide) h

theorem digitCount_pos (D : ℕ) : 0 < digitCount D := Nat.length_toDigits_pos

theorem digitCount_lt (D : ℕ) : D < 10 ^ digitCount D := (digitCount_le_iff (digitCount_pos D)).1 (le_refl _)

theorem le_digitCount {D : ℕ} (h : D ≠ 0) : 10 ^ (digitCount D - 1) ≤ D := by
  rcases Nat.eq_zero_or_pos (digitCount D - 1) with h0 | h0
  · rw [h0]; omega
  · by_contra hc
    have := (digitCount_le_iff (D := D) h0).2 (by omega)
    have := digitCount_pos D
    omega

theorem digitCount_eq {D k : ℕ} (h1 : 10 ^ k ≤ D) (h2 : D < 10 ^ (k + 1)) : digitCount D = k + 1 := by
  have a := (digitCount_le_iff (Nat.succ_pos k)).2 h2
  rcases Nat.eq_zero_or_pos k with rfl | hk
  · have := digitCount_pos D; omega
  · have : ¬ digitCount D ≤ k := fun hc => by have := (digitCount_le_iff hk).1 hc; omega
    omega

theorem digitCount_mono {D D' : ℕ} (h : D ≤ D') : digitCount D ≤ digitCount D' :=
  (digitCount_le_iff (digitCount_pos D')).2 (lt_of_le_of_lt h (digitCount_lt D'))

/-- A number without its last digit has one digit less. -/
theorem digitCount_div {D : ℕ} (h : 10 ≤ D) : digitCount (D / 10) < digitCount D := by
  have h1 := digitCount_lt D
  have h2 : 1 < digitCount D := by
    by_contra hc
    have : digitCount D = 1 := by have := digitCount_pos D; omega
    rw [this] at h1; omega
  have h3 : digitCount (D / 10) ≤ digitCount D - 1 := by
    rw [digitCount_le_iff (by omega), Nat.div_lt_iff_lt_mul (by omega), ← pow_succ]
    rwa [show digitCount D - 1 + 1 = digitCount D by omega]
  omega

/-! ### Decimals -/

theorem zpow_ten_pos (k : ℤ) : (0 : ℚ) < 10 ^ k := zpow_pos (by norm_num) k

/-- The same number of the last digit's weight -/
theorem decimal_shift (D : ℕ) (k : ℤ) (j : ℕ) : (D * 10 ^ (k + j) : ℚ) = ((D * 10 ^ j : ℕ) : ℚ) * 10 ^ k := by
  rw [zpow_add₀ (by norm_num : (10 : ℚ) ≠ 0), zpow_natCast]
  push_cast
  ring

/-- A decimal determines its digits and exponent, if its last digit is not zero. -/
theorem decimal_inj {D D' : ℕ} {k k' : ℤ} (h : (D * 10 ^ k : ℚ) = D' * 10 ^ k') (hD : D % 10 ≠ 0) (hD' : D' % 10 ≠ 0) :
    D = D' ∧ k = k' := by
  have key : ∀ {D D' : ℕ} {k k' : ℤ}, (D * 10 ^ k : ℚ) = D' * 10 ^ k' → D % 10 ≠ 0 → k ≤ k' → D = D' ∧ k = k' := by
    intro D D' k k' h hD hk
    obtain ⟨j, rfl⟩ : ∃ j : ℕ, k' = k + j := ⟨(k' - k).toNat, by omega⟩
    rw [decimal_shift] at h
    have h' := mul_right_cancel₀ (zpow_ten_pos k).ne' h
    have h2 : D = D' * 10 ^ j := by exact_mod_cast h'
    rcases j with _ | j
    · simpa using h2
    · exfalso
      rw [pow_succ, ← mul_assoc] at h2
      omega
  rcases le_total k k' with hk | hk
  · exact key h hD hk
  · obtain ⟨a, b⟩ := key h.symm hD' hk
    exact ⟨a.symm, b.symm⟩

/-- Two decimals, the one with the lower last digit having at most fifteen digits, that are closer than one part in `2^51` are equal. -/
theorem decimal_close {D D' : ℕ} {k k' : ℤ} {v : ℚ} (hk : k ≤ k') (hD : D < 10 ^ 15) (hv : 0 < v)
    (h : |(D * 10 ^ k : ℚ) - v| * 2 ^ 53 ≤ v) (h' : |(D' * 10 ^ k' : ℚ) - v| * 2 ^ 53 ≤ v) :
    (D * 10 ^ k : ℚ) = D' * 10 ^ k' := by
  obtain ⟨j, rfl⟩ : ∃ j : ℕ, k' = k + j := ⟨(k' - k).toNat, by omega⟩
  rw [decimal_shift] at h' ⊢
  have hp := zpow_ten_pos k
  generalize (10 : ℚ) ^ k = w at *
  generalize D' * 10 ^ j = E at *
  by_contra hne
  have hDE : (D : ℤ) - E ≠ 0 := by
    intro hc
    apply hne
    have : D = E := by omega
    rw [this]
  have h1 : (1 : ℚ) ≤ |(D : ℚ) - E| := by
    have := Int.one_le_abs hDE
    exact_mod_cast this
  have h2 : w ≤ |(D * w : ℚ) - E * w| := by
    rw [← sub_mul, abs_mul, abs_of_pos hp]
    nlinarith
  have hD' : (D : ℚ) ≤ 10 ^ 15 := by exact_mod_cast hD.le
  rw [← le_div_iff₀ (by norm_num)] at h h'
  have a1 := abs_le.1 h
  have a2 := abs_le.1 h'
  have h3 : |(D * w : ℚ) - E * w| ≤ v / 2 ^ 52 := by
    rw [abs_le]
    constructor <;> linarith [a1.1, a1.2, a2.1, a2.2, show v / 2 ^ 52 = v / 2 ^ 53 + v / 2 ^ 53 by ring]
  have h4 : v ≤ 2 * (D * w) := by
    have : v / 2 ^ 53 ≤ v / 2 := by
      rw [div_le_div_iff₀ (by norm_num) (by norm_num)]
      nlinarith
    linarith [a1.1]
  have h5 : v ≤ 2 * (10 ^ 15 * w) := by nlinarith
  have h6 : v / 2 ^ 52 < w := by
    rw [div_lt_iff₀ (by norm_num)]
    nlinarith
  linarith

/-! ### Doubles -/

/-- The distance to the next double -/
theorem gap_up {b : ℕ} (h : 2 ^ 52 ≤ b) :
    ∃ e, magUnits 53 (b + 1) = magUnits 53 b + 2 ^ e ∧ 2 ^ 52 * 2 ^ e ≤ magUnits 53 b := by
  obtain ⟨e, m, hb, hm, hem, hu⟩ := magUnits_form (p := 53) (by omega) b
  have h2 : magUnits 53 (e * 2 ^ (53 - 1) + (m + 1)) = (m + 1) * 2 ^ e :=
    magUnits_encode (by omega) (by omega) (fun he => by have := hem he; omega)
  rw [show b + 1 = e * 2 ^ (53 - 1) + (m + 1) by omega, h2, hu]
  refine ⟨e, by ring, Nat.mul_le_mul_right _ ?_⟩
  rcases Nat.eq_zero_or_pos e with rfl | he
  · omega
  · exact hem he

/-- The distance to the double before -/
theorem gap_down {b : ℕ} (h : 2 ^ 52 ≤ b) :
    ∃ e, magUnits 53 b = magUnits 53 (b - 1) + 2 ^ e ∧ 2 ^ 52 * 2 ^ e ≤ magUnits 53 b := by
  obtain ⟨e, m, hb, hm, hem, hu⟩ := magUnits_form (p := 53) (by omega) (b - 1)
  have h2 : magUnits 53 (e * 2 ^ (53 - 1) + (m + 1)) = (m + 1) * 2 ^ e :=
    magUnits_encode (by omega) (by omega) (fun he => by have := hem he; omega)
  rw [show b = e * 2 ^ (53 - 1) + (m + 1) by omega, h2]
  rw [show e * 2 ^ (53 - 1) + (m + 1) - 1 = b - 1 by omega, hu]
  refine ⟨e, by ring, Nat.mul_le_mul_right _ ?_⟩
  rcases Nat.eq_zero_or_pos e with rfl | he
  · omega
  · have := hem he; omega

theorem val_pos_eq {v : f64.Val} (hn : f64.neg v = false) : f64.val v = magUnits 53 (f64.mag v) / 2 ^ 1074 := by
  rw [val_eq, hn]; rfl

theorem pow_lt_of {a b : ℕ} (h : a < b) : 2 ^ a < 2 ^ b := Nat.pow_lt_pow_right (by decide) h

theorem mag_range {v : f64.Val} (hn : f64.neg v = false) (h1 : 1 ≤ f64.val v) (h2 : f64.val v ≤ 2 ^ 257) :
    2 ^ 52 ≤ f64.mag v ∧ f64.mag v + 1 < f64.infBits := by
  rw [val_pos_eq hn] at h1 h2
  rw [le_div_iff₀ (by positivity), one_mul] at h1
  rw [div_le_iff₀ (by positivity)] at h2
  have h1' : 2 ^ 1074 ≤ magUnits 53 (f64.mag v) := by exact_mod_cast h1
  have h2' : magUnits 53 (f64.mag v) ≤ 2 ^ 257 * 2 ^ 1074 := by exact_mod_cast h2
  constructor
  · by_contra hc
    have := magUnits_lt (p := 53) (by omega) (show f64.mag v < 2 ^ 52 by omega)
    have e : magUnits 53 (2 ^ 52) = 2 ^ 52 := by decide +kernel
    rw [e] at this
    have hlt : (2 : ℕ) ^ 52 < 2 ^ 1074 := pow_lt_of (by decide)
    exact absurd ((h1'.trans_lt this).trans hlt) (lt_irrefl _)
  · by_contra hc
    have := (magUnits_le_iff (p := 53) (by omega)).2 (show f64.infBits - 1 ≤ f64.mag v by omega)
    have e : 2 ^ 257 * 2 ^ 1074 < magUnits 53 (f64.infBits - 1) := by decide +kernel
    omega

/-- A number that is read back as a double is within one part in `2^53` of it. -/
theorem read_error {v : f64.Val} {q : ℚ} (hn : f64.neg v = false) (h1 : 1 ≤ f64.val v) (h2 : f64.val v ≤ 2 ^ 257)
    (h : f64.NearestEven q v) : |q - f64.val v| * 2 ^ 53 ≤ f64.val v := by
  obtain ⟨hm1, hm2⟩ := mag_range hn h1 h2
  have hinf : f64.infBits < 2 ^ (f64.bits - 1) := infBits_lt f64
  have hval : ∀ m, m < f64.infBits → f64.isFinite (f64.make false m) = true
      ∧ f64.val (f64.make false m) = magUnits 53 m / 2 ^ 1074 := by
    intro m hm
    have a := neg_make f64 false (show m < 2 ^ (f64.bits - 1) by omega)
    have b := mag_make f64 false (show m < 2 ^ (f64.bits - 1) by omega)
    exact ⟨by rw [isFinite_iff, b]; exact hm, by rw [val_pos_eq a, b]⟩
  obtain ⟨e, hu, hu'⟩ := gap_up hm1
  obtain ⟨e', hd, hd'⟩ := gap_down hm1
  obtain ⟨f1, v1⟩ := hval (f64.mag v + 1) hm2
  obtain ⟨f2, v2⟩ := hval (f64.mag v - 1) (by omega)
  have n1 := (h.2 _ f1).1
  have n2 := (h.2 _ f2).1
  rw [v1, hu] at n1
  rw [v2] at n2
  have hdq : (magUnits 53 (f64.mag v - 1) : ℚ) = magUnits 53 (f64.mag v) - 2 ^ e' := by
    rw [hd]; push_cast; ring
  rw [hdq] at n2
  rw [val_pos_eq hn] at *
  push_cast at n1
  rw [add_div] at n1
  rw [sub_div] at n2
  have g1 : (2 : ℚ) ^ 52 * (2 ^ e / 2 ^ 1074) ≤ magUnits 53 (f64.mag v) / 2 ^ 1074 := by
    rw [← mul_div_assoc, div_le_div_iff_of_pos_right (by positivity)]
    exact_mod_cast hu'
  have g2 : (2 : ℚ) ^ 52 * (2 ^ e' / 2 ^ 1074) ≤ magUnits 53 (f64.mag v) / 2 ^ 1074 := by
    rw [← mul_div_assoc, div_le_div_iff_of_pos_right (by positivity)]
    exact_mod_cast hd'
  have p1 : (0 : ℚ) < 2 ^ e / 2 ^ 1074 := by positivity
  have p2 : (0 : ℚ) < 2 ^ e' / 2 ^ 1074 := by positivity
  generalize (magUnits 53 (f64.mag v) / 2 ^ 1074 : ℚ) = V at *
  generalize (2 ^ e / 2 ^ 1074 : ℚ) = g at *
  generalize (2 ^ e' / 2 ^ 1074 : ℚ) = g' at *
  rcases le_total V q with hq | hq
  · rw [abs_of_nonneg (by linarith)]
    have : q - V ≤ g / 2 := by
      by_contra hc
      rw [abs_of_nonpos (by linarith)] at n1
      rcases le_total (V + g) q with hq2 | hq2
      · rw [abs_of_nonpos (by linarith)] at n1; linarith
      · rw [abs_of_nonneg (by linarith)] at n1; linarith
    linarith
  · rw [abs_of_nonpos (by linarith)]
    have : V - q ≤ g' / 2 := by
      by_contra hc
      rw [abs_of_nonneg (by linarith)] at n2
      rcases le_total q (V - g') with hq2 | hq2
      · rw [abs_of_nonneg (by linarith)] at n2; linarith
      · rw [abs_of_nonpos (by linarith)] at n2; linarith
    linarith

/-- A double is read back as itself. -/
theorem read_self {v : f64.Val} (hf : f64.isFinite v = true) : f64.NearestEven (f64.val v) v := by
  refine ⟨hf, fun y _ => ⟨by simp, fun h hne => ?_⟩⟩
  rw [sub_self, abs_zero] at h
  have := abs_eq_zero.1 h.symm
  exact absurd (by linarith) hne

/-! ### The shortest decimal -/

theorem Shortest.last {v : f64.Val} {D : ℕ} {k : ℤ} (h : Shortest v D k) (h0 : D ≠ 0) : D % 10 ≠ 0 := by
  intro hc
  have e : (D * 10 ^ k : ℚ) = ((D / 10 : ℕ) : ℚ) * 10 ^ (k + 1) := by
    have := decimal_shift (D / 10) k 1
    rw [pow_one, show D / 10 * 10 = D by omega] at this
    rw [← this]; norm_num
  have hb := h.back
  rw [e] at hb
  have := h.short _ _ hb
  have := digitCount_div (show 10 ≤ D by omega)
  omega

theorem Shortest.ne_zero {v : f64.Val} {D : ℕ} {k : ℤ} (hn : f64.neg v = false) (h1 : 1 ≤ f64.val v) (h2 : f64.val v ≤ 2 ^ 257)
    (h : Shortest v D k) : D ≠ 0 := by
  rintro rfl
  have e := read_error hn h1 h2 h.back
  rw [Nat.cast_zero, zero_mul, zero_sub, abs_neg, abs_of_nonneg (by linarith)] at e
  linarith

/-- A decimal with at most fifteen digits that is read back as the double is the shortest one, and the only one. -/
theorem Shortest.unique {v : f64.Val} {D D₀ : ℕ} {k k₀ : ℤ} (hn : f64.neg v = false) (h1 : 1 ≤ f64.val v) (h2 : f64.val v ≤ 2 ^ 257)
    (h : Shortest v D k) (hD₀ : D₀ < 10 ^ 15) (hl : D₀ % 10 ≠ 0) (hr : f64.NearestEven (D₀ * 10 ^ k₀) v) : D = D₀ ∧ k = k₀ := by
  have hc := h.short _ _ hr
  have hD : D < 10 ^ 15 := by
    rw [← digitCount_le_iff (by omega)] at hD₀ ⊢
    omega
  have e1 := read_error hn h1 h2 h.back
  have e2 := read_error hn h1 h2 hr
  have hv : 0 < f64.val v := by linarith
  have e : (D * 10 ^ k : ℚ) = D₀ * 10 ^ k₀ := by
    rcases le_total k k₀ with hk | hk
    · exact decimal_close hk hD hv e1 e2
    · exact (decimal_close hk hD₀ hv e2 e1).symm
  have h0 : D ≠ 0 := by
    rintro rfl
    rw [Nat.cast_zero, zero_mul] at e
    have : (0 : ℚ) < D₀ * 10 ^ k₀ := by
      have h3 : (0 : ℚ) < D₀ := by exact_mod_cast (show 0 < D₀ by omega)
      exact mul_pos h3 (zpow_ten_pos _)
    linarith
  exact decimal_inj e (h.last h0) hl

/-- For an integer below `2^53` the shortest decimal is the integer. -/
theorem Shortest.small {v : f64.Val} {D D₀ k₀ x : ℕ} {k : ℤ} (hn : f64.neg v = false) (hx : x < 2 ^ 53) (h1 : 0 < x) (hv : f64.val v = x)
    (h : Shortest v D k) (hl : D₀ % 10 ≠ 0) (hx0 : x = D₀ * 10 ^ k₀) : D = D₀ ∧ k = k₀ := by
  have hxq : (1 : ℚ) ≤ x := by exact_mod_cast h1
  have hxq2 : (x : ℚ) < 2 ^ 53 := by exact_mod_cast hx
  have e1 := read_error hn (by rw [hv]; exact hxq) (by rw [hv]; exact hxq2.le.trans (pow_le_pow_right₀ (by norm_num) (by norm_num))) h.back
  have ex : (x : ℚ) = D₀ * 10 ^ (k₀ : ℤ) := by rw [zpow_natCast, hx0]; push_cast; rfl
  have hr : f64.NearestEven (D₀ * 10 ^ (k₀ : ℤ)) v := by rw [← ex, ← hv]; exact read_self h.back.1
  have hc := h.short _ _ hr
  rw [hv] at e1
  have hlt : |(D * 10 ^ k : ℚ) - x| < 1 := by
    rw [← le_div_iff₀ (by norm_num)] at e1
    refine lt_of_le_of_lt e1 ?_
    rw [div_lt_one (by norm_num)]; exact hxq2
  have e : (D * 10 ^ k : ℚ) = D₀ * 10 ^ (k₀ : ℤ) := by
    rcases Nat.lt_or_ge (digitCount D) (digitCount D₀) with hlt' | hge
    · rcases le_or_gt 0 k with hk | hk
      · obtain ⟨j, rfl⟩ : ∃ j : ℕ, k = j := ⟨k.toNat, by omega⟩
        rw [zpow_natCast] at hlt
        have : ((D * 10 ^ j : ℕ) : ℤ) = x := by
          by_contra hne
          have := Int.one_le_abs (sub_ne_zero.2 hne)
          have h3 : (1 : ℚ) ≤ |((D * 10 ^ j : ℕ) : ℚ) - x| := by exact_mod_cast this
          push_cast at h3
          linarith
        rw [zpow_natCast, ← ex]
        exact_mod_cast this
      · exfalso
        -- too small
        have hD := digitCount_lt D
        have hD₀ := le_digitCount (show D₀ ≠ 0 by omega)
        have h3 : 10 ^ digitCount D ≤ D₀ := le_trans (Nat.pow_le_pow_right (by omega) (by omega)) hD₀
        have h4 : D₀ ≤ x := by rw [hx0]; exact Nat.le_mul_of_pos_right _ (by positivity)
        have h5 : D + 1 ≤ x := by omega
        have h6 : (D : ℚ) + 1 ≤ x := by exact_mod_cast h5
        have h7 : (10 : ℚ) ^ k ≤ 1 := zpow_le_one_of_nonpos₀ (by norm_num) hk.le
        have h8 : (D * 10 ^ k : ℚ) ≤ D := by
          have : (0 : ℚ) ≤ D := by positivity
          nlinarith
        rw [abs_of_nonpos (by linarith)] at hlt
        linarith
    · have := h.near _ _ hr (by omega)
      rw [hv, ← ex, sub_self, abs_zero] at this
      have := abs_eq_zero.1 (le_antisymm this (abs_nonneg _))
      rw [← ex]; linarith
  have h0 : D ≠ 0 := by
    rintro rfl
    rw [← ex, Nat.cast_zero, zero_mul] at e
    linarith
  exact decimal_inj e (h.last h0) hl

/-! ### Seventeen digits suffice -/

/-- A number within one part in `2^54` of a double is read back as it. -/
theorem read_of_close {v : f64.Val} {q : ℚ} (hf : f64.isFinite v = true) (hn : f64.neg v = false) (h1 : 1 ≤ f64.val v) (h2 : f64.val v ≤ 2 ^ 257)
    (h : |q - f64.val v| * 2 ^ 54 < f64.val v) : f64.NearestEven q v := by
  obtain ⟨hm1, _⟩ := mag_range hn h1 h2
  -- other doubles are further away than one part in 2^53
  have far : ∀ y : f64.Val, f64.val y ≠ f64.val v → f64.val v ≤ |f64.val y - f64.val v| * 2 ^ 53 := by
    intro y hy
    have hK : (0 : ℚ) < 2 ^ 1074 := by positivity
    cases hny : f64.neg y
    · rw [val_pos_eq hn, val_pos_eq hny] at *
      have hne : f64.mag y ≠ f64.mag v := fun hc => hy (by rw [hc])
      rw [← sub_div, abs_div, abs_of_pos hK, div_mul_eq_mul_div, div_le_div_iff_of_pos_right hK]
      rcases Nat.lt_or_ge (f64.mag y) (f64.mag v) with hlt | hge
      · obtain ⟨e, m, hb, hm, hem, hu⟩ := magUnits_form (p := 53) (by omega) (f64.mag v - 1)
        have h3 : magUnits 53 (e * 2 ^ (53 - 1) + (m + 1)) = (m + 1) * 2 ^ e :=
          magUnits_encode (by omega) (by omega) (fun he => by have := hem he; omega)
        rw [show e * 2 ^ (53 - 1) + (m + 1) = f64.mag v by omega] at h3
        have h4 := (magUnits_le_iff (p := 53) (by omega)).2 (show f64.mag y ≤ f64.mag v - 1 by omega)
        have h5 : magUnits 53 (f64.mag v) ≤ 2 ^ 53 * 2 ^ e := by rw [h3]; exact Nat.mul_le_mul_right _ (by omega)
        have h6 : magUnits 53 (f64.mag y) + 2 ^ e ≤ magUnits 53 (f64.mag v) := by rw [h3, add_mul, one_mul, ← hu]; omega
        have h5' : (magUnits 53 (f64.mag v) : ℚ) ≤ 2 ^ 53 * 2 ^ e := by exact_mod_cast h5
        have h6' : (magUnits 53 (f64.mag y) : ℚ) + 2 ^ e ≤ magUnits 53 (f64.mag v) := by exact_mod_cast h6
        have hpe : (0 : ℚ) < 2 ^ e := by positivity
        rw [abs_of_nonpos (by linarith)]
        linarith
      · obtain ⟨e, m, hb, hm, hem, hu⟩ := magUnits_form (p := 53) (by omega) (f64.mag v)
        have h3 : magUnits 53 (e * 2 ^ (53 - 1) + (m + 1)) = (m + 1) * 2 ^ e :=
          magUnits_encode (by omega) (by omega) (fun he => by have := hem he; omega)
        have h4 := (magUnits_le_iff (p := 53) (by omega)).2 (show e * 2 ^ (53 - 1) + (m + 1) ≤ f64.mag y by omega)
        have h5 : magUnits 53 (f64.mag v) ≤ 2 ^ 53 * 2 ^ e := by rw [hu]; exact Nat.mul_le_mul_right _ (by omega)
        have h6 : magUnits 53 (f64.mag v) + 2 ^ e ≤ magUnits 53 (f64.mag y) := by
          rw [h3, add_mul, one_mul, ← hu] at h4; exact h4
        have h5' : (magUnits 53 (f64.mag v) : ℚ) ≤ 2 ^ 53 * 2 ^ e := by exact_mod_cast h5
        have h6' : (magUnits 53 (f64.mag v) : ℚ) + 2 ^ e ≤ magUnits 53 (f64.mag y) := by exact_mod_cast h6
        have hpe : (0 : ℚ) < 2 ^ e := by positivity
        rw [abs_of_nonneg (by linarith)]
        linarith
    · have : f64.val y ≤ 0 := by
        rw [val_eq, hny]
        simp only [if_true]
        have : (0 : ℚ) ≤ magUnits f64.p (f64.mag y) / 2 ^ f64.K := div_nonneg (Nat.cast_nonneg _) (pow_nonneg (by norm_num) _)
        linarith
      rw [abs_of_nonpos (by linarith)]
      linarith
  refine ⟨hf, fun y _ => ?_⟩
  have hclose : |f64.val v - q| * 2 ^ 54 < f64.val v := by rwa [abs_sub_comm]
  by_cases hy : f64.val y = f64.val v
  · rw [hy]; exact ⟨le_refl _, fun _ hne => absurd rfl hne⟩
  · have h3 := far y hy
    have h4 : |f64.val y - f64.val v| ≤ |f64.val y - q| + |f64.val v - q| := by
      rw [abs_sub_comm (f64.val v) q]
      exact abs_sub_le _ _ _
    have h5 : |f64.val v - q| < |f64.val y - q| := by linarith
    exact ⟨h5.le, fun he => absurd he h5.ne⟩

/-- Rounding to a number of digits is always possible. -/
theorem exists_rounded (p : ℕ) {q : ℚ} (hq : 0 < q) : ∃ D k, RoundedTo p q D k := by
  have l1 := Int.zpow_log_le_self (b := 10) (by decide) hq
  have l2 := Int.lt_zpow_succ_log_self (b := 10) (by decide) q
  push_cast at l1 l2
  generalize Int.log 10 q = L at l1 l2
  obtain ⟨j, rfl⟩ : ∃ j : ℤ, L = p + j := ⟨L - p, by omega⟩
  have hj := zpow_ten_pos j
  have ep : (10 : ℚ) ^ ((p : ℤ) + j) = 10 ^ p * 10 ^ j := by rw [zpow_add₀ (by norm_num), zpow_natCast]
  have ep1 : (10 : ℚ) ^ ((p : ℤ) + j + 1) = 10 ^ (p + 1) * 10 ^ j := by
    rw [show (p : ℤ) + j + 1 = ((p + 1 : ℕ) : ℤ) + j by push_cast; ring, zpow_add₀ (by norm_num), zpow_natCast]
  -- the nearest multiple
  obtain ⟨R, hR1, hR2⟩ : ∃ R : ℕ, |(R : ℚ) - q / 10 ^ j| ≤ 1 / 2 ∧ (|(R : ℚ) - q / 10 ^ j| = 1 / 2 → R % 2 = 0) := by
    have hy : 0 ≤ q / 10 ^ j := (div_pos hq hj).le
    generalize q / 10 ^ j = y at hy
    have f1 := Nat.floor_le hy
    have f2 := Nat.lt_floor_add_one y
    generalize ⌊y⌋₊ = n at f1 f2
    by_cases h1 : y < n + 1 / 2
    · refine ⟨n, by rw [abs_le]; constructor <;> linarith, fun he => ?_⟩
      rw [abs_of_nonpos (by linarith)] at he; linarith
    · by_cases h2 : y = n + 1 / 2
      · rcases Nat.mod_two_eq_zero_or_one n with hp | hp
        · exact ⟨n, by rw [abs_le]; constructor <;> linarith, fun _ => hp⟩
        · exact ⟨n + 1, by push_cast; rw [abs_le]; constructor <;> linarith, fun _ => by omega⟩
      · have h3 : n + 1 / 2 < y := lt_of_le_of_ne (not_lt.1 h1) (Ne.symm h2)
        refine ⟨n + 1, by push_cast; rw [abs_le]; constructor <;> linarith, fun he => ?_⟩
        push_cast at he
        rw [abs_of_nonneg (by linarith)] at he; linarith
  have hscale : |(R * 10 ^ j : ℚ) - q| = |(R : ℚ) - q / 10 ^ j| * 10 ^ j := by
    rw [← abs_of_pos hj, ← abs_mul, abs_of_pos hj, sub_mul, div_mul_cancel₀ _ hj.ne']
  have hy1 : (10 : ℚ) ^ p ≤ q / 10 ^ j := by rw [le_div_iff₀ hj, ← ep]; exact l1
  have hy2 : q / 10 ^ j < 10 ^ (p + 1) := by rw [div_lt_iff₀ hj, ← ep1]; exact l2
  have hb := abs_le.1 hR1
  have hRl : 10 ^ p ≤ R := by
    by_contra hc
    have : R + 1 ≤ 10 ^ p := by omega
    have : (R : ℚ) + 1 ≤ 10 ^ p := by exact_mod_cast this
    linarith [hb.1]
  have hRu : R ≤ 10 ^ (p + 1) := by
    by_contra hc
    have : 10 ^ (p + 1) + 1 ≤ R := by omega
    have : (10 : ℚ) ^ (p + 1) + 1 ≤ R := by exact_mod_cast this
    linarith [hb.2]
  have main : 10 ^ ((p : ℤ) + j) ≤ q ∧ q < 10 ^ ((p : ℤ) + 1 + j) ∧ |(R * 10 ^ j : ℚ) - q| ≤ 10 ^ j / 2
      ∧ (|(R * 10 ^ j : ℚ) - q| = 10 ^ j / 2 → R % 2 = 0) := by
    refine ⟨l1, by rw [show (p : ℤ) + 1 + j = p + j + 1 by ring]; exact l2, ?_, fun he => hR2 ?_⟩
    · rw [hscale]; nlinarith
    · rw [hscale] at he
      have : |(R : ℚ) - q / 10 ^ j| * 10 ^ j = 1 / 2 * 10 ^ j := by rw [he]; ring
      exact mul_right_cancel₀ hj.ne' this
  rcases Nat.lt_or_ge R (10 ^ (p + 1)) with hlt | hge
  · exact ⟨R, j, digitCount_eq hRl hlt, R, j, main.1, main.2.1, main.2.2.1, main.2.2.2, rfl⟩
  · have hR : R = 10 ^ (p + 1) := by omega
    refine ⟨10 ^ p, j + 1, digitCount_eq (le_refl _) (Nat.pow_lt_pow_right (by omega) (by omega)), R, j, main.1, main.2.1, main.2.2.1,
      main.2.2.2, ?_⟩
    rw [hR, zpow_add₀ (by norm_num)]
    push_cast
    ring

/-- Rounding moves a number by at most half a unit of the last digit. -/
theorem RoundedTo.error {p : ℕ} {q : ℚ} {D : ℕ} {k : ℤ} (h : RoundedTo p q D k) : |(D * 10 ^ k : ℚ) - q| * (2 * 10 ^ p) ≤ q := by
  obtain ⟨_, R, j, h1, _, h3, _, h5⟩ := h
  rw [h5]
  rw [zpow_add₀ (by norm_num), zpow_natCast] at h1
  calc |(R * 10 ^ j : ℚ) - q| * (2 * 10 ^ p) ≤ 10 ^ j / 2 * (2 * 10 ^ p) :=
        mul_le_mul_of_nonneg_right h3 (by positivity)
    _ = 10 ^ p * 10 ^ j := by ring
    _ ≤ q := h1

theorem exists_seventeen {v : f64.Val} (hf : f64.isFinite v = true) (hn : f64.neg v = false) (h1 : 1 ≤ f64.val v) (h2 : f64.val v ≤ 2 ^ 257) :
    ∃ (D : ℕ) (k : ℤ), f64.NearestEven (D * 10 ^ k) v ∧ digitCount D = 17 := by
  obtain ⟨D, k, h⟩ := exists_rounded 16 (lt_of_lt_of_le one_pos h1)
  refine ⟨D, k, read_of_close hf hn h1 h2 ?_, h.1⟩
  have := h.error
  have h0 := abs_nonneg ((D * 10 ^ k : ℚ) - f64.val v)
  rcases h0.eq_or_lt with h0 | h0
  · rw [← h0]; linarith
  · nlinarith

/-- The shortest decimal has at most seventeen digits. -/
theorem Shortest.length {v : f64.Val} {D : ℕ} {k : ℤ} (hn : f64.neg v = false) (h1 : 1 ≤ f64.val v) (h2 : f64.val v ≤ 2 ^ 257)
    (h : Shortest v D k) : digitCount D ≤ 17 := by
  obtain ⟨D', k', hr, hc⟩ := exists_seventeen h.back.1 hn h1 h2
  rw [← hc]; exact h.short _ _ hr

/-- There is always a shortest decimal. -/
theorem exists_shortest {v : f64.Val} (hf : f64.isFinite v = true) (hn : f64.neg v = false) (h1 : 1 ≤ f64.val v) (h2 : f64.val v ≤ 2 ^ 257) :
    ∃ D k, Shortest v D k := by
  classical
  have hex : ∃ n, ∃ (D : ℕ) (k : ℤ), f64.NearestEven (D * 10 ^ k) v ∧ digitCount D = n := by
    obtain ⟨D, k, h⟩ := exists_seventeen hf hn h1 h2
    exact ⟨17, D, k, h⟩
  obtain ⟨D₁, k₁, hr₁, hc₁⟩ := Nat.find_spec hex
  have hmin : ∀ (D : ℕ) (k : ℤ), f64.NearestEven (D * 10 ^ k) v → Nat.find hex ≤ digitCount D :=
    fun D k h => Nat.find_min' hex ⟨D, k, h, rfl⟩
  generalize Nat.find hex = n at hc₁ hmin
  let S : Set (ℕ × ℤ) := {a | f64.NearestEven (a.1 * 10 ^ a.2) v ∧ digitCount a.1 = n}
  have hfin : S.Finite := by
    apply Set.Finite.subset (Finset.finite_toSet (Finset.range (10 ^ n) ×ˢ Finset.Icc (-(n : ℤ)) 100))
    rintro ⟨D, k⟩ ⟨hr, hc⟩
    dsimp only at hr hc
    have hD : D < 10 ^ n := by rw [← hc]; exact digitCount_lt D
    have he := read_error hn h1 h2 hr
    rw [← le_div_iff₀ (by norm_num)] at he
    have hb := abs_le.1 he
    have hd : f64.val v / 2 ^ 53 ≤ f64.val v / 2 := by
      rw [div_le_div_iff₀ (by norm_num) (by norm_num)]; nlinarith
    have hlo : (1 : ℚ) / 2 ≤ D * 10 ^ k := by linarith [hb.1]
    have hhi : (D * 10 ^ k : ℚ) ≤ 2 ^ 258 := by
      rw [show (2 : ℚ) ^ 258 = 2 * 2 ^ 257 by rw [← pow_succ']]
      generalize (2 : ℚ) ^ 257 = w at h2 ⊢
      linarith [hb.2]
    have hk := zpow_ten_pos k
    have hD0 : 1 ≤ D := by
      rcases Nat.eq_zero_or_pos D with rfl | h0
      · rw [Nat.cast_zero, zero_mul] at hlo; norm_num at hlo
      · exact h0
    have hD0' : (1 : ℚ) ≤ D := by exact_mod_cast hD0
    have hD' : (D : ℚ) ≤ 10 ^ n := by exact_mod_cast hD.le
    have k1 : k < 100 := by
      have : (10 : ℚ) ^ k < 10 ^ (100 : ℤ) := by
        calc (10 : ℚ) ^ k ≤ D * 10 ^ k := by nlinarith
          _ ≤ 2 ^ 258 := hhi
          _ < 10 ^ (100 : ℤ) := by
            rw [show (100 : ℤ) = ((100 : ℕ) : ℤ) by rfl, zpow_natCast]
            calc (2 : ℚ) ^ 258 = (2 ^ 3) ^ 86 := by rw [← pow_mul]
              _ < 10 ^ 86 := by
                apply pow_lt_pow_left₀ (by norm_num) (by norm_num) (by norm_num)
              _ ≤ 10 ^ 100 := pow_le_pow_right₀ (by norm_num) (by norm_num)
      exact (zpow_lt_zpow_iff_right₀ (by norm_num)).1 this
    have k2 : -1 < (n : ℤ) + k := by
      have : (10 : ℚ) ^ (-1 : ℤ) < 10 ^ ((n : ℤ) + k) := by
        rw [zpow_add₀ (by norm_num), zpow_natCast]
        calc (10 : ℚ) ^ (-1 : ℤ) < 1 / 2 := by norm_num
          _ ≤ D * 10 ^ k := hlo
          _ ≤ 10 ^ n * 10 ^ k := by nlinarith
      exact (zpow_lt_zpow_iff_right₀ (by norm_num)).1 this
    simp only [Finset.coe_product, Set.mem_prod, Finset.mem_coe, Finset.mem_range, Finset.mem_Icc]
    exact ⟨hD, by omega, by omega⟩
  obtain ⟨⟨D, k⟩, ⟨hr, hc⟩, hnear⟩ := Set.exists_min_image S (fun a => |(a.1 * 10 ^ a.2 : ℚ) - f64.val v|) hfin ⟨(D₁, k₁), hr₁, hc₁⟩
  dsimp only at hr hc
  exact ⟨D, k, hr, fun D' k' h => by rw [hc]; exact hmin D' k' h, fun D' k' h h' => hnear (D', k') ⟨h, by rw [← hc]; exact h'⟩⟩

/-! ### The text determines the number -/

theorem sciText_digits {D : ℕ} {e : Char} (he : e = 'e' ∨ e = 'E') :
    e ∉ (Nat.toDigits 10 D).take 1 ++ (if 1 < (Nat.toDigits 10 D).length then '.' :: (Nat.toDigits 10 D).drop 1 else [])
    ∧ ((Nat.toDigits 10 D).take 1 ++ (if 1 < (Nat.toDigits 10 D).length then '.' :: (Nat.toDigits 10 D).drop 1 else [])).filter Char.isDigit
      = Nat.toDigits 10 D := by
  have hd : ∀ c ∈ Nat.toDigits 10 D, c.isDigit = true := fun c hc => Nat.isDigit_of_mem_toDigits (by decide) (by decide) hc
  generalize Nat.toDigits 10 D = ds at *
  have hne : e.isDigit = false ∧ e ≠ '.' := by rcases he with rfl | rfl <;> decide
  have h1 : ∀ c ∈ ds.take 1, c.isDigit = true := fun c hc => hd c (List.mem_of_mem_take hc)
  have h2 : ∀ c ∈ ds.drop 1, c.isDigit = true := fun c hc => hd c (List.mem_of_mem_drop hc)
  have key : ∀ l : List Char, (∀ c ∈ l, c.isDigit = true) → e ∉ l := fun l hl hm => by simp [hl e hm] at hne
  constructor
  · rw [List.mem_append, not_or]
    refine ⟨key _ h1, ?_⟩
    split
    · rw [List.mem_cons, not_or]; exact ⟨hne.2, key _ h2⟩
    · exact List.not_mem_nil
  · rw [List.filter_append, List.filter_eq_self.2 h1]
    split
    · rw [List.filter_cons_of_neg (by decide), List.filter_eq_self.2 h2, List.take_append_drop]
    · rename_i h
      rw [List.filter_nil, List.append_nil, List.take_of_length_le (by omega)]

theorem toString_int_inj {a b : ℤ} (h : (toString a).toList = (toString b).toList) : a = b := by
  have nat : ∀ n : ℕ, n.repr.toList = Nat.toDigits 10 n := fun n => by rw [Nat.repr_eq_ofList_toDigits, String.toList_ofList]
  have inj : ∀ n m : ℕ, Nat.toDigits 10 n = Nat.toDigits 10 m → n = m := fun n m hh => by
    rw [← Nat.ofDigitChars_ten_toDigits (n := n), hh, Nat.ofDigitChars_ten_toDigits]
  have dash : ∀ n m : ℕ, Nat.toDigits 10 n ≠ '-' :: Nat.toDigits 10 m := fun n m hh => by
    have : '-'.isDigit = true := Nat.isDigit_of_mem_toDigits (b := 10) (n := n) (by decide) (by decide) (by rw [hh]; exact List.mem_cons_self)
    exact absurd this (by decide)
  have e : ∀ x : ℤ, (toString x).toList = if 0 ≤ x then Nat.toDigits 10 x.toNat else '-' :: Nat.toDigits 10 (-x).toNat := by
    intro x
    show x.repr.toList = _
    rw [Int.repr_eq_if]
    split
    · exact nat _
    · rw [String.toList_append, nat]; rfl
  rw [e, e] at h
  split_ifs at h with h1 h2 h2
  · have := inj _ _ h; omega
  · exact absurd h (dash _ _)
  · exact absurd h.symm (dash _ _)
  · have := inj _ _ (List.cons.inj h).2; omega

private theorem append_cons_inj {e : Char} {A A' B B' : List Char} (h : A ++ e :: B = A' ++ e :: B') (hA : e ∉ A) (hA' : e ∉ A') :
    A = A' ∧ B = B' := by
  induction A generalizing A' with
  | nil =>
    cases A' with
    | nil => exact ⟨rfl, (List.cons.inj h).2⟩
    | cons a A' => exact absurd ((List.cons.inj h).1 ▸ List.mem_cons_self) hA'
  | cons a A ih =>
    cases A' with
    | nil => exact absurd ((List.cons.inj h).1 ▸ List.mem_cons_self) hA
    | cons a' A' =>
      obtain ⟨rfl, h2⟩ := List.cons.inj h
      obtain ⟨rfl, rfl⟩ := ih h2 (fun hm => hA (List.mem_cons_of_mem _ hm)) (fun hm => hA' (List.mem_cons_of_mem _ hm))
      exact ⟨rfl, rfl⟩

/-- Two numbers have the same text in scientific notation only if they have the same digits and the same exponent. -/
theorem sciText_inj {D D' : ℕ} {k k' : ℤ} {e : Char} (he : e = 'e' ∨ e = 'E')
    (h : sciText e (Nat.toDigits 10 D) (k + digitCount D - 1) = sciText e (Nat.toDigits 10 D') (k' + digitCount D' - 1)) :
    D = D' ∧ k = k' := by
  unfold sciText at h
  have a := sciText_digits (D := D) he
  have a' := sciText_digits (D := D') he
  obtain ⟨h1, h2⟩ := append_cons_inj h a.1 a'.1
  have hds : Nat.toDigits 10 D = Nat.toDigits 10 D' := by rw [← a.2, ← a'.2, h1]
  have hD : D = D' := by rw [← Nat.ofDigitChars_ten_toDigits (n := D), hds, Nat.ofDigitChars_ten_toDigits]
  subst hD
  have := toString_int_inj h2
  exact ⟨rfl, by omega⟩

end Ethnum
