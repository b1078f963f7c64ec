import Verif.SpecFloat
import Verif.Proofs.FloatInt
import Mathlib.Tactic.FieldSimp
import Mathlib.Tactic.NormNum
import Mathlib.Tactic.Positivity

/-
From patterns to values.
-/

namespace Ethnum.FloatTy
variable (t : FloatTy)

theorem two_le_p : 2 ≤ t.p := by cases t <;> decide
theorem infBits_lt : t.infBits < 2 ^ (t.bits - 1) := by cases t <;> decide

theorem neg_make (s : Bool) {m : Nat} (h : m < 2 ^ (t.bits - 1)) : t.neg (t.make s m) = s := by
  cases t <;> cases s <;> unfold neg make <;> simp only [bits, BitVec.toNat_ofNat] at h ⊢ <;> simp <;> omega

theorem mag_make (s : Bool) {m : Nat} (h : m < 2 ^ (t.bits - 1)) : t.mag (t.make s m) = m := by
  cases t <;> cases s <;> unfold mag make <;> simp only [bits, BitVec.toNat_ofNat] at h ⊢ <;> simp <;> omega

theorem make_neg_mag (x : t.Val) : t.make (t.neg x) (t.mag x) = x := by
  have hn : (t.neg x = true ∧ 2 ^ (t.bits - 1) ≤ x.toNat) ∨ (t.neg x = false ∧ x.toNat < 2 ^ (t.bits - 1)) := by
    unfold neg
    by_cases hc : 2 ^ (t.bits - 1) ≤ x.toNat
    · exact Or.inl ⟨decide_eq_true hc, hc⟩
    · exact Or.inr ⟨decide_eq_false hc, Nat.lt_of_not_le hc⟩
  apply BitVec.eq_of_toNat_eq
  have h := x.isLt
  unfold make mag
  rcases hn with ⟨e, hn⟩ | ⟨e, hn⟩ <;> rw [e] <;> simp only [if_true, Bool.false_eq_true, if_false] <;>
    cases t <;> simp only [bits, BitVec.toNat_ofNat] at h hn ⊢ <;> omega

theorem mag_lt (x : t.Val) : t.mag x < 2 ^ (t.bits - 1) := Nat.mod_lt _ (Nat.two_pow_pos _)

theorem isFinite_iff (x : t.Val) : t.isFinite x = true ↔ t.mag x < t.infBits := by
  unfold isFinite; exact decide_eq_true_iff

theorem units_make (s : Bool) {m : Nat} (h : m < 2 ^ (t.bits - 1)) :
    t.units (t.make s m) = if s then -(magUnits t.p m : Int) else magUnits t.p m := by
  unfold units; rw [neg_make t s h, mag_make t s h]

theorem val_make (s : Bool) {m : Nat} (h : m < 2 ^ (t.bits - 1)) :
    t.val (t.make s m) = if s then -((magUnits t.p m : ℚ) / 2 ^ t.K) else (magUnits t.p m : ℚ) / 2 ^ t.K := by
  unfold val; rw [units_make t s h]; split <;> push_cast <;> ring

theorem val_eq (x : t.Val) :
    t.val x = if t.neg x then -((magUnits t.p (t.mag x) : ℚ) / 2 ^ t.K) else (magUnits t.p (t.mag x) : ℚ) / 2 ^ t.K := by
  unfold val units; split <;> push_cast <;> ring

/-- `-x` -/
theorem exists_opposite (x : t.Val) (h : t.isFinite x = true) : ∃ y : t.Val, t.isFinite y = true ∧ t.val y = -t.val x := by
  have hm := mag_lt t x
  refine ⟨t.make (!t.neg x) (t.mag x), ?_, ?_⟩
  · rw [isFinite_iff, mag_make t _ hm]; exact (isFinite_iff t x).1 h
  · rw [val_make t _ hm, val_eq]
    cases t.neg x <;> simp

/-- The float nearest to `± n`, for an integer that does not overflow. -/
def flt (s : Bool) (n : Nat) : t.Val := t.make s (roundUnits t.p (n * 2 ^ t.K) 1)

/-- `n` does not overflow. -/
def Fits (n : Nat) : Prop := roundUnits t.p (n * 2 ^ t.K) 1 < t.infBits

section
variable {t} {n : Nat} (h : t.Fits n)
include h

theorem fits_lt : roundUnits t.p (n * 2 ^ t.K) 1 < 2 ^ (t.bits - 1) := by
  have := infBits_lt t; unfold Fits at h; omega

theorem neg_flt (s : Bool) : t.neg (t.flt s n) = s := neg_make t s (fits_lt h)
theorem mag_flt (s : Bool) : t.mag (t.flt s n) = roundUnits t.p (n * 2 ^ t.K) 1 := mag_make t s (fits_lt h)
theorem isFinite_flt (s : Bool) : t.isFinite (t.flt s n) = true := by rw [isFinite_iff, mag_flt h]; exact h
theorem isNaN_flt (s : Bool) : t.isNaN (t.flt s n) = false := by
  unfold isNaN; rw [mag_flt h, decide_eq_false_iff_not]; unfold Fits at h; omega
theorem isInf_flt (s : Bool) : t.isInf (t.flt s n) = false := by
  unfold isInf; rw [mag_flt h, decide_eq_false_iff_not]; unfold Fits at h; omega

theorem units_flt (s : Bool) : t.units (t.flt s n) = (if s then -(rn t.p n : Int) else rn t.p n) * 2 ^ t.K := by
  unfold units
  rw [neg_flt h, mag_flt h, rn_scale (two_le_p t)]
  split <;> push_cast <;> ring

theorem natAbs_units_flt (s : Bool) : (t.units (t.flt s n)).natAbs = rn t.p n * 2 ^ t.K := by
  rw [units_flt h]
  cases s <;> simp [Int.natAbs_mul, Int.natAbs_pow]

theorem val_flt (s : Bool) : t.val (t.flt s n) = if s then -(rn t.p n : ℚ) else rn t.p n := by
  unfold val
  rw [units_flt h]
  have : (2 : ℚ) ^ t.K ≠ 0 := by positivity
  split <;> push_cast <;> field_simp

theorem roundMag_fits : t.roundMag n 1 = roundUnits t.p (n * 2 ^ t.K) 1 := by
  unfold roundMag; unfold Fits at h; omega

theorem make_roundMag (s : Bool) : t.make s (t.roundMag n 1) = t.flt s n := by
  unfold flt; rw [roundMag_fits h]

end

variable {t}

theorem flt_rn (s : Bool) (n : Nat) : t.flt s (rn t.p n) = t.flt s n := by
  unfold flt; rw [round_rn (two_le_p t)]

theorem fits_rn {n : Nat} : t.Fits (rn t.p n) ↔ t.Fits n := by
  unfold Fits; rw [round_rn (two_le_p t)]

theorem fits_mono {n m : Nat} (h : t.Fits m) (hn : n ≤ m) : t.Fits n := by
  unfold Fits at h ⊢
  refine lt_of_le_of_lt ?_ h
  rw [← magUnits_le_iff (two_le_p t), rn_scale (two_le_p t), rn_scale (two_le_p t)]
  exact Nat.mul_le_mul_right _ (rn_mono (two_le_p t) hn)

theorem ofInt_nat (n : Nat) (h : t.Fits n) : t.ofInt n = t.flt false n := by
  unfold ofInt
  rw [show decide ((n : Int) < 0) = false from decide_eq_false (by omega), Int.natAbs_natCast, make_roundMag h]

theorem ofInt_neg (n : Nat) (hn : 0 < n) (h : t.Fits n) : t.ofInt (-(n : Int)) = t.flt true n := by
  unfold ofInt
  rw [show decide (-(n : Int) < 0) = true from decide_eq_true (by omega), Int.natAbs_neg, Int.natAbs_natCast,
    make_roundMag h]

/-- Multiplication of integers held in floats. -/
theorem mul_flt {n m : Nat} (s s' : Bool) (hn : t.Fits n) (hm : t.Fits m) (h : t.Fits (rn t.p n * rn t.p m)) :
    t.mul (t.flt s n) (t.flt s' m) = t.flt (s != s') (rn t.p n * rn t.p m) := by
  unfold mul
  rw [isNaN_flt hn, isNaN_flt hm, isInf_flt hn, isInf_flt hm, neg_flt hn, neg_flt hm, natAbs_units_flt hn,
    natAbs_units_flt hm]
  simp only [Bool.or_self, Bool.false_eq_true, if_false]
  rw [← make_roundMag h]
  congr 1
  unfold roundMag
  congr 1
  rw [← roundUnits_mul_right (two_le_p t) (show 0 < 1 by omega) (Nat.two_pow_pos (2 * t.K)), one_mul]
  congr 1
  rw [Nat.two_mul, pow_add]; ring

/-- Addition of non-negative integers held in floats. -/
theorem add_flt {n m : Nat} (hn : t.Fits n) (hm : t.Fits m) (h : t.Fits (rn t.p n + rn t.p m)) :
    t.add (t.flt false n) (t.flt false m) = t.flt false (rn t.p n + rn t.p m) := by
  unfold add
  rw [isNaN_flt hn, isNaN_flt hm, isInf_flt hn, isInf_flt hm, neg_flt hn, neg_flt hm, units_flt hn,
    units_flt hm]
  simp only [Bool.or_self, Bool.false_eq_true, if_false, Bool.and_self]
  have e : (rn t.p n : Int) * 2 ^ t.K + (rn t.p m : Int) * 2 ^ t.K = ((rn t.p n + rn t.p m) * 2 ^ t.K : Nat) := by
    push_cast; ring
  rw [e]
  by_cases h0 : rn t.p n + rn t.p m = 0
  · rw [h0, Nat.zero_mul, if_pos (by rfl)]
    unfold flt
    rw [Nat.zero_mul]
    congr 1
    exact (Nat.le_zero.1 (roundUnits_le (two_le_p t) (by omega) (Nat.zero_le _))).symm
  · have hp : ((rn t.p n + rn t.p m) * 2 ^ t.K) ≠ 0 :=
      Nat.mul_ne_zero h0 (Nat.two_pow_pos _).ne'
    rw [if_neg (by exact_mod_cast hp), show decide ((((rn t.p n + rn t.p m) * 2 ^ t.K : Nat) : Int) < 0) = false from
      decide_eq_false (by omega), Int.natAbs_natCast, ← make_roundMag h]
    congr 1
    unfold roundMag
    congr 1
    rw [← roundUnits_mul_right (two_le_p t) (show 0 < 1 by omega) (Nat.two_pow_pos t.K), one_mul]

/-- Conversion of an integer held in a float. -/
theorem convert_flt {t' : FloatTy} {n : Nat} (s : Bool) (hn : t.Fits n) :
    convert t t' (t.flt s n) = t'.make s (t'.roundMag (rn t.p n) 1) := by
  unfold convert
  rw [isNaN_flt hn, isInf_flt hn, neg_flt hn, natAbs_units_flt hn]
  simp only [Bool.false_eq_true, if_false]
  congr 1
  unfold roundMag
  congr 1
  rw [← roundUnits_mul_right (two_le_p t') (n := rn t.p n * 2 ^ t'.K) (show 0 < 1 by omega) (Nat.two_pow_pos t.K),
    one_mul]
  congr 1
  ring

/-! ### Correct approximations -/

theorem faithful_of_nat {n R : Nat} {r : t.Val} (hfin : t.isFinite r = true) (hr : t.val r = R)
    (h1 : ∀ f, Rep t.p f → f ≤ n → f ≤ R) (h2 : ∀ f, Rep t.p f → n ≤ f → R ≤ f) : t.Faithful n r := by
  refine ⟨hfin, fun y hy => ?_⟩
  rw [hr, val_eq]
  have hK : (0 : ℚ) < 2 ^ t.K := by positivity
  have hR0 : (0 : ℚ) ≤ R := by positivity
  have hn0 : (0 : ℚ) ≤ n := by positivity
  have hm0 : (0 : ℚ) ≤ (magUnits t.p (t.mag y) : ℚ) / 2 ^ t.K := by positivity
  split
  · refine ⟨fun _ => by linarith, fun h => ?_⟩
    have hn : n = 0 := by
      have : (n : ℚ) ≤ 0 := by linarith
      exact_mod_cast le_antisymm this hn0
    have hz := h2 0 (rep_of_le (two_le_p t) (Nat.zero_le _)) (by omega)
    have : R = 0 := by omega
    rw [this]; rw [hn] at h; push_cast at h ⊢; linarith
  · constructor
    · intro h
      rw [div_le_iff₀ hK] at h ⊢
      have h' : magUnits t.p (t.mag y) ≤ n * 2 ^ t.K := by exact_mod_cast h
      obtain ⟨f, hf, hfn, hle⟩ := exists_rep_ge (two_le_p t) h'
      have := hle.trans (Nat.mul_le_mul_right _ (h1 f hf hfn))
      exact_mod_cast this
    · intro h
      rw [le_div_iff₀ hK] at h ⊢
      have h' : n * 2 ^ t.K ≤ magUnits t.p (t.mag y) := by exact_mod_cast h
      obtain ⟨f, hf, hfn, hle⟩ := exists_rep_le (two_le_p t) h'
      have := (Nat.mul_le_mul_right (2 ^ t.K) (h2 f hf hfn)).trans hle
      exact_mod_cast this

theorem faithful_opposite {q : ℚ} {r r' : t.Val} (h : t.Faithful q r) (hf : t.isFinite r' = true)
    (hv : t.val r' = -t.val r) : t.Faithful (-q) r' := by
  refine ⟨hf, fun y hy => ?_⟩
  obtain ⟨y', hy', hv'⟩ := exists_opposite t y hy
  have := h.2 y' hy'
  rw [hv'] at this
  rw [hv]
  exact ⟨fun hle => by have := this.2 (by linarith); linarith, fun hle => by have := this.1 (by linarith); linarith⟩

theorem nearest_flt {n : Nat} (h : t.Fits n) : t.NearestEven n (t.flt false n) := by
  refine ⟨isFinite_flt h _, fun y hy => ?_⟩
  have hK : (0 : ℚ) < 2 ^ t.K := by positivity
  have near := fun b => roundUnits_nearest (n := n * 2 ^ t.K) (two_le_p t) (show 0 < 1 by omega) b
  rw [mag_flt h]
  rw [val_eq t (t.flt false n), neg_flt h, mag_flt h]
  simp only [Bool.false_eq_true, if_false]
  generalize hg : roundUnits t.p (n * 2 ^ t.K) 1 = r at near ⊢
  -- scaled distances
  have dist : ∀ b : Nat, |(magUnits t.p b : ℚ) / 2 ^ t.K - n| = (|(magUnits t.p b : ℤ) * (1 : ℕ) - (n * 2 ^ t.K : ℕ)| : ℤ) / 2 ^ t.K := by
    intro b
    have : (magUnits t.p b : ℚ) / 2 ^ t.K - n = ((magUnits t.p b : ℤ) * (1 : ℕ) - (n * 2 ^ t.K : ℕ) : ℤ) / 2 ^ t.K := by
      push_cast; field_simp
    rw [this, abs_div, abs_of_pos hK]
    push_cast; rfl
  have pos : ∀ b : Nat, |(magUnits t.p r : ℚ) / 2 ^ t.K - n| ≤ |(magUnits t.p b : ℚ) / 2 ^ t.K - n|
      ∧ (|(magUnits t.p r : ℚ) / 2 ^ t.K - n| = |(magUnits t.p b : ℚ) / 2 ^ t.K - n| → b ≠ r → r % 2 = 0) := by
    intro b
    rw [dist, dist]
    have hb := near b
    constructor
    · rw [div_le_div_iff_of_pos_right hK]; exact_mod_cast hb.1
    · intro he hne
      apply hb.2 hne
      rw [div_left_inj' hK.ne'] at he
      exact_mod_cast he
  rw [val_eq t y]
  cases t.neg y
  · simp only [Bool.false_eq_true, if_false]
    refine ⟨(pos _).1, fun he hne => (pos _).2 he ?_⟩
    intro hb; exact hne (by rw [hb])
  · simp only [if_true]
    have h0 := (pos 0).1
    have hz : magUnits t.p 0 = 0 := by unfold magUnits; simp
    rw [hz] at h0
    have hn0 : (0 : ℚ) ≤ n := by positivity
    have hm0 : (0 : ℚ) ≤ (magUnits t.p (t.mag y) : ℚ) / 2 ^ t.K := by positivity
    have e0 : |((0 : ℕ) : ℚ) / 2 ^ t.K - n| = n := by
      simp
    rw [e0] at h0
    have e1 : |-((magUnits t.p (t.mag y) : ℚ) / 2 ^ t.K) - n| = (magUnits t.p (t.mag y) : ℚ) / 2 ^ t.K + n := by
      rw [abs_of_nonpos (by linarith)]; ring
    rw [e1]
    refine ⟨by linarith, fun he hne => ?_⟩
    have hu0 : (magUnits t.p (t.mag y) : ℚ) / 2 ^ t.K = 0 := by linarith
    have := (pos 0).2 (by rw [hz, e0, he, hu0, zero_add])
    apply this
    intro hr
    apply hne
    rw [hu0, ← hr, hz]; simp

theorem nearest_opposite {q : ℚ} {r r' : t.Val} (h : t.NearestEven q r) (hm : t.mag r' = t.mag r)
    (hv : t.val r' = -t.val r) : t.NearestEven (-q) r' := by
  refine ⟨by rw [isFinite_iff, hm]; exact (isFinite_iff t r).1 h.1, fun y hy => ?_⟩
  obtain ⟨y', hy', hv'⟩ := exists_opposite t y hy
  have h2 := h.2 y' hy'
  rw [hv', show -t.val y - q = -(t.val y - -q) by ring, abs_neg] at h2
  rw [hv, hm, show -t.val r - -q = -(t.val r - q) by ring, abs_neg]
  exact ⟨h2.1, fun he hne => h2.2 he (fun hc => hne (by rw [← hc]; ring))⟩

/-- Nearest implies faithful. -/
theorem faithful_of_nearest {q : ℚ} {r : t.Val} (h : t.NearestEven q r) : t.Faithful q r := by
  refine ⟨h.1, fun y hy => ?_⟩
  have h2 := (h.2 y hy).1
  constructor
  · intro hle
    by_contra hc
    rw [abs_of_nonpos (by linarith), abs_of_nonpos (by linarith)] at h2
    linarith
  · intro hle
    by_contra hc
    rw [abs_of_nonneg (by linarith), abs_of_nonneg (by linarith)] at h2
    linarith

/-- The largest finite `p`-digit magnitude is odd, so rounding reaches infinity from halfway on. -/
theorem fits_iff {n N U : Nat} (hN : n * 2 ^ t.K = N) (hU : magUnits t.p t.infBits = U)
    {V : Nat} (hV : magUnits t.p (t.infBits - 1) = V) : t.Fits n ↔ 2 * N < U + V := by
  have hp := two_le_p t
  have hodd : (t.infBits - 1) % 2 = 1 := by cases t <;> decide
  have hpos : 0 < t.infBits := by cases t <;> decide
  have hlt : V < U := by rw [← hU, ← hV]; exact magUnits_lt hp (by omega)
  unfold Fits
  rw [hN]
  have near := fun b => roundUnits_nearest (n := N) hp (show 0 < 1 by omega) b
  simp only [Nat.cast_one, mul_one] at near
  generalize roundUnits t.p N 1 = r at near
  constructor
  · intro h
    by_contra hc
    have hr : magUnits t.p r ≤ V := by rw [← hV]; exact (magUnits_le_iff hp).2 (by omega)
    have h1 := near t.infBits
    rw [hU] at h1
    rw [abs_of_nonpos (by omega)] at h1
    rcases Nat.lt_or_ge U N with h9 | h9
    · rw [abs_of_nonpos (by omega)] at h1; omega
    · rw [abs_of_nonneg (by omega)] at h1
      have hrV : magUnits t.p r = V := by omega
      have hr' : r = t.infBits - 1 := magUnits_inj hp (by rw [hrV, hV])
      have := h1.2 (by omega) (by omega)
      omega
  · intro h
    by_contra hc
    have hr : U ≤ magUnits t.p r := by rw [← hU]; exact (magUnits_le_iff hp).2 (by omega)
    have h1 := (near (t.infBits - 1)).1
    rw [hV] at h1
    rw [abs_of_nonneg (by omega)] at h1
    rcases Nat.lt_or_ge V N with h9 | h9
    · rw [abs_of_nonpos (by omega)] at h1; omega
    · rw [abs_of_nonneg (by omega)] at h1; omega

theorem fits_f32 (n : Nat) : f32.Fits n ↔ n < 2 ^ 128 - 2 ^ 103 := by
  rw [fits_iff (t := f32) rfl (U := 2 ^ 277) (by decide +kernel) (V := 2 ^ 277 - 2 ^ 253) (by decide +kernel)]
  simp only [K]
  omega

theorem fits_f64 {n : Nat} (h : n ≤ 2 ^ 258) : f64.Fits n := by
  refine fits_mono ?_ h
  rw [fits_iff (t := f64) rfl (U := 2 ^ 2098) (by decide +kernel) (V := 2 ^ 2098 - 2 ^ 2045) (by decide +kernel)]
  decide +kernel

/-- Overflow. -/
theorem roundMag_overflow {n : Nat} (h : ¬ t.Fits n) : t.roundMag n 1 = t.infBits := by
  unfold roundMag; unfold Fits at h; omega

end Ethnum.FloatTy
