import Verif.Props.Serde
import Verif.Props.FloatFrom

/-
Lemmas about floating point comparison and the permissive visitor.
-/

namespace Ethnum
open Serde
namespace FloatTy
variable (t : FloatTy)

theorem magUnits_zero (p : Nat) : magUnits p 0 = 0 := by unfold magUnits; simp

/-- The order of the patterns is the order of the numbers. -/
theorem key_le_iff (a b : t.Val) : t.key a ≤ t.key b ↔ t.units a ≤ t.units b := by
  unfold key units
  have hp := two_le_p t
  have h1 := magUnits_le_iff hp (b := t.mag a) (b' := t.mag b)
  have h2 := magUnits_le_iff hp (b := t.mag b) (b' := t.mag a)
  have h3 := magUnits_le_iff hp (b := t.mag a) (b' := 0)
  have h4 := magUnits_le_iff hp (b := t.mag b) (b' := 0)
  rw [magUnits_zero] at h3 h4
  cases t.neg a <;> cases t.neg b <;> simp only [Bool.false_eq_true, if_true, if_false] <;> omega

theorem key_lt_iff (a b : t.Val) : t.key a < t.key b ↔ t.units a < t.units b := by
  have := key_le_iff t b a; omega

theorem key_eq_iff (a b : t.Val) : t.key a = t.key b ↔ t.units a = t.units b := by
  have := key_le_iff t b a; have := key_le_iff t a b; omega

/-- The bound of the permissive visitor. -/
theorem bound_units : t.units (t.ofInt (2 ^ t.p)) = 2 ^ t.p * 2 ^ t.K ∧ t.isNaN (t.ofInt (2 ^ t.p)) = false
    ∧ t.units (fneg t (t.ofInt (2 ^ t.p))) = -(2 ^ t.p * 2 ^ t.K) ∧ t.isNaN (fneg t (t.ofInt (2 ^ t.p))) = false := by
  cases t <;> decide +kernel

theorem units_inf_gt (x : t.Val) (h : t.isFinite x = false) (hn : t.isNaN x = false) :
    2 ^ t.p * 2 ^ t.K ≤ (magUnits t.p (t.mag x)) := by
  have hm : t.mag x = t.infBits := by
    unfold isFinite at h; unfold isNaN at hn
    rw [decide_eq_false_iff_not] at h hn; omega
  rw [hm]; cases t <;> decide +kernel

theorem not_nan_of_finite {x : t.Val} (h : t.isFinite x = true) : t.isNaN x = false := by
  rw [isFinite_iff] at h; unfold isNaN; rw [decide_eq_false_iff_not]; omega

theorem not_inf_of_finite {x : t.Val} (h : t.isFinite x = true) : t.isInf x = false := by
  rw [isFinite_iff] at h; unfold isInf; rw [decide_eq_false_iff_not]; omega

theorem le_val_iff (x : t.Val) (z : Int) : (z : ℚ) ≤ t.val x ↔ z * 2 ^ t.K ≤ t.units x := by
  unfold val
  have hK : (0 : ℚ) < 2 ^ t.K := by positivity
  rw [le_div_iff₀ hK]
  exact_mod_cast Iff.rfl

theorem val_lt_iff (x : t.Val) (z : Int) : t.val x < (z : ℚ) ↔ t.units x < z * 2 ^ t.K := by
  unfold val
  have hK : (0 : ℚ) < 2 ^ t.K := by positivity
  rw [div_lt_iff₀ hK]
  exact_mod_cast Iff.rfl

theorem val_eq_iff (x : t.Val) (z : Int) : t.val x = (z : ℚ) ↔ t.units x = z * 2 ^ t.K := by
  unfold val
  have hK : (2 : ℚ) ^ t.K ≠ 0 := by positivity
  rw [div_eq_iff hK]
  exact_mod_cast Iff.rfl

/-- `(-N..N).contains(&v)` -/
theorem inRange_iff (v : t.Val) : inRange t (t.ofInt (2 ^ t.p)) v = true
    ↔ t.isFinite v = true ∧ -2 ^ t.p ≤ t.val v ∧ t.val v < 2 ^ t.p := by
  obtain ⟨h1, h2, h3, h4⟩ := bound_units t
  have e1 := le_val_iff t v (-2 ^ t.p)
  have e2 := val_lt_iff t v (2 ^ t.p)
  push_cast at e1 e2
  rw [e1, e2]
  unfold inRange ge lt
  rw [h2, h4]
  simp only [Bool.not_false, Bool.and_true, Bool.and_eq_true, Bool.not_eq_true', decide_eq_true_eq]
  rw [key_le_iff, key_lt_iff, h1, h3]
  constructor
  · rintro ⟨⟨hn, h5⟩, _, h6⟩
    refine ⟨?_, by linarith, h6⟩
    by_contra hf
    have := units_inf_gt t v (by simpa using hf) hn
    have h7 : ((2 ^ t.p * 2 ^ t.K : Nat) : Int) ≤ (magUnits t.p (t.mag v) : Int) := by exact_mod_cast this
    push_cast at h7
    have hinf : (magUnits t.p (t.mag v)) ≠ 2 ^ t.p * 2 ^ t.K := by
      have hm : t.mag v = t.infBits := by
        have hf' : t.isFinite v = false := by simpa using hf
        unfold isFinite at hf'; unfold isNaN at hn
        rw [decide_eq_false_iff_not] at hf' hn; omega
      rw [hm]; cases t <;> decide +kernel
    have h8 : (magUnits t.p (t.mag v) : Int) ≠ 2 ^ t.p * 2 ^ t.K := by exact_mod_cast hinf
    unfold units at h5 h6
    cases hs : t.neg v
    · rw [hs] at h6; simp only [Bool.false_eq_true, if_false] at h6; omega
    · rw [hs] at h5; simp only [if_true] at h5; omega
  · rintro ⟨hf, h5, h6⟩
    have := not_nan_of_finite t hf
    exact ⟨⟨this, by linarith⟩, this, h6⟩

/-- Small integers are represented exactly. -/
theorem ofInt_exact (z : Int) (h : z.natAbs ≤ 2 ^ t.p) : t.isFinite (t.ofInt z) = true ∧ t.units (t.ofInt z) = z * 2 ^ t.K := by
  have hfit : t.Fits (2 ^ t.p) := by cases t <;> (unfold Fits; decide +kernel)
  have hr := rn_fix (two_le_p t) (rep_of_le (two_le_p t) h)
  rcases Int.lt_or_le z 0 with hz | hz
  · have e : z = -(z.natAbs : Int) := by omega
    rw [e, ofInt_neg z.natAbs (by omega) (fits_mono hfit h)]
    refine ⟨isFinite_flt (fits_mono hfit h) _, ?_⟩
    rw [units_flt (fits_mono hfit h), hr]; simp
  · have e : z = (z.natAbs : Int) := by omega
    rw [e, ofInt_nat z.natAbs (fits_mono hfit h)]
    refine ⟨isFinite_flt (fits_mono hfit h) _, ?_⟩
    rw [units_flt (fits_mono hfit h), hr]; simp

/-- Every `f32` is an `f64`. -/
theorem convert_exact (v : f32.Val) (h : f32.isFinite v = true) :
    f64.isFinite (convert .f32 .f64 v) = true ∧ f64.val (convert .f32 .f64 v) = f32.val v := by
  have hm := (isFinite_iff _ v).1 h
  obtain ⟨e, m, hb, hlt, hP, hu⟩ := magUnits_form (p := f32.p) (by decide) (f32.mag v)
  obtain ⟨b, hB⟩ := rep_of (p := f64.p) (by decide) (e + 925) (show m ≤ 2 ^ f64.p by
    have : (2 : Nat) ^ f32.p ≤ 2 ^ f64.p := by decide
    omega)
  have habs : (f32.units v).natAbs = m * 2 ^ e := by
    unfold units; rw [hu]
    split
    · rw [Int.natAbs_neg, Int.natAbs_natCast]
    · rw [Int.natAbs_natCast]
  have hround : roundUnits f64.p ((f32.units v).natAbs * 2 ^ f64.K) (2 ^ f32.K) = b := by
    have e1 : (f32.units v).natAbs * 2 ^ f64.K = magUnits f64.p b * 2 ^ f32.K := by
      rw [hB, habs, show (f64.K) = 925 + f32.K by rfl, pow_add 2 925, pow_add 2 e, Nat.mul_assoc, Nat.mul_assoc, Nat.mul_assoc]
    rw [e1]
    exact roundUnits_fix (p := f64.p) (d := 2 ^ f32.K) (by decide) (Nat.two_pow_pos _) b
  have hbinf : b < f64.infBits := by
    by_contra hc
    have h1 := (magUnits_le_iff (p := f64.p) (by decide)).2 (Nat.le_of_not_lt hc)
    have h2 := magUnits_lt (p := f32.p) (by decide) hm
    rw [hu] at h2
    rw [hB, pow_add, ← Nat.mul_assoc] at h1
    have h3 := Nat.le_trans h1 (Nat.mul_le_mul_right (2 ^ 925) h2.le)
    exact absurd h3 (by decide +kernel)
  have hc : convert .f32 .f64 v = f64.make (f32.neg v) b := by
    unfold convert
    rw [not_nan_of_finite _ h, not_inf_of_finite _ h]
    simp only [Bool.false_eq_true, if_false]
    unfold roundMag
    rw [hround, Nat.min_eq_left hbinf.le]
  have hb64 : b < 2 ^ (f64.bits - 1) := Nat.lt_trans hbinf (infBits_lt _)
  rw [hc]
  refine ⟨by rw [isFinite_iff, mag_make _ _ hb64]; exact hbinf, ?_⟩
  rw [val_make _ _ hb64, val_eq, hB, hu]
  have : ((m * 2 ^ (e + 925) : Nat) : ℚ) / 2 ^ f64.K = ((m * 2 ^ e : Nat) : ℚ) / 2 ^ f32.K := by
    rw [show f64.K = 925 + f32.K by rfl, div_eq_div_iff (by positivity) (by positivity)]
    push_cast; rw [pow_add 2 e, pow_add 2 925]; ring
  rw [this]

end FloatTy

open FloatTy

/-- What `visit_f64` does. -/
theorem permissive_f64_ok (c : Cfg) {T : Type} (cast : I256 → T) (v : f64.Val) (z : Int)
    (h : f64.isFinite v = true) (hz : f64.val v = z) (h1 : -2 ^ 53 ≤ f64.val v) (h2 : f64.val v < 2 ^ 53) :
    permissive_f64 c cast v = .ok (.ok (cast (I256.ofInt c z))) := by
  have hr := (inRange_iff .f64 v).2 ⟨h, h1, h2⟩
  have hu := (val_eq_iff .f64 v z).1 hz
  rw [hz] at h1 h2
  have h1' : -2 ^ 53 ≤ z := by exact_mod_cast h1
  have h2' : z < 2 ^ 53 := by exact_mod_cast h2
  have ht : f64.toSigned 64 v = z := by
    unfold toSigned
    rw [not_nan_of_finite _ h, not_inf_of_finite _ h]
    simp only [Bool.false_eq_true, if_false]
    rw [hu, Int.mul_tdiv_cancel _ (by positivity)]
    omega
  have hi : (BitVec.ofInt 64 (f64.toSigned 64 v)).toInt = z := by
    rw [ht, BitVec.toInt_ofInt]
    exact Int.bmod_eq_of_le (by omega) (by omega)
  obtain ⟨e1, e2⟩ := ofInt_exact .f64 z (show z.natAbs ≤ 2 ^ 53 by omega)
  have heq : f64.eq (f64.ofInt z) v = true := by
    unfold FloatTy.eq
    rw [not_nan_of_finite _ h, not_nan_of_finite _ e1, decide_eq_true ((key_eq_iff .f64 _ _).2 (e2.trans hu.symm))]
    rfl
  unfold permissive_f64
  rw [show inRange .f64 (FloatTy.f64.ofInt (2 ^ 53)) v = true from hr]
  simp only [Bool.not_true, Bool.false_eq_true, if_false, hi, heq, done]
  have hp := I256.of_prim_as_eq c .i64 (BitVec.ofInt 64 (f64.toSigned 64 v))
  rw [show PrimTy.i64.toInt (c := c) (BitVec.ofInt 64 (f64.toSigned 64 v)) = z from hi] at hp
  exact congrArg (fun x => Except.ok (Except.ok (cast x))) hp

theorem permissive_f64_cases (c : Cfg) {T : Type} (cast : I256 → T) (v : f64.Val) :
    (∃ z : Int, f64.isFinite v = true ∧ f64.val v = z ∧ -2 ^ 53 ≤ f64.val v ∧ f64.val v < 2 ^ 53
      ∧ permissive_f64 c cast v = .ok (.ok (cast (I256.ofInt c z))))
    ∨ ((∃ e, permissive_f64 c cast v = .ok (.error e) ∧ (e = .floatRange ∨ e = .fraction))
      ∧ ¬ (f64.isFinite v = true ∧ (∃ z : Int, f64.val v = z) ∧ -2 ^ 53 ≤ f64.val v ∧ f64.val v < 2 ^ 53)) := by
  by_cases hr : inRange .f64 (FloatTy.f64.ofInt (2 ^ 53)) v = true
  · obtain ⟨h, h1, h2⟩ := (inRange_iff .f64 v).1 hr
    by_cases hz : ∃ z : Int, f64.val v = z
    · obtain ⟨z, hz⟩ := hz
      exact Or.inl ⟨z, h, hz, h1, h2, permissive_f64_ok c cast v z h hz h1 h2⟩
    · right
      refine ⟨⟨.fraction, ?_, Or.inr rfl⟩, fun hc => hz hc.2.1⟩
      have hneq : ∀ z : Int, -2 ^ 63 ≤ z → z < 2 ^ 63 → z.natAbs ≤ 2 ^ 53 → f64.eq (f64.ofInt z) v = false := by
        intro z _ _ hzb
        obtain ⟨e1, e2⟩ := ofInt_exact .f64 z hzb
        unfold FloatTy.eq
        have : ¬ f64.key (f64.ofInt z) = f64.key v := by
          rw [key_eq_iff, e2]
          intro hc
          exact hz ⟨z, (val_eq_iff .f64 v z).2 hc.symm⟩
        rw [decide_eq_false this, Bool.and_false]
      have g1 := (le_val_iff .f64 v (-2 ^ 53)).1 (by push_cast; exact h1)
      have g2 := (val_lt_iff .f64 v (2 ^ 53)).1 (by push_cast; exact h2)
      have hb : -2 ^ 53 ≤ (f64.units v).tdiv (2 ^ f64.K) ∧ (f64.units v).tdiv (2 ^ f64.K) ≤ 2 ^ 53 := by
        have hK : (0 : Int) < 2 ^ f64.K := by positivity
        constructor
        · have := Int.tdiv_le_tdiv hK g1
          rwa [Int.mul_tdiv_cancel _ (by positivity)] at this
        · have := Int.tdiv_le_tdiv hK g2.le
          rwa [Int.mul_tdiv_cancel _ (by positivity)] at this
      have ht : f64.toSigned 64 v = (f64.units v).tdiv (2 ^ f64.K) := by
        unfold toSigned
        rw [not_nan_of_finite _ h, not_inf_of_finite _ h]
        simp only [Bool.false_eq_true, if_false]
        omega
      have hi : (BitVec.ofInt 64 (f64.toSigned 64 v)).toInt = (f64.units v).tdiv (2 ^ f64.K) := by
        rw [ht, BitVec.toInt_ofInt]
        exact Int.bmod_eq_of_le (by omega) (by omega)
      unfold permissive_f64
      rw [hr]
      simp only [Bool.not_true, Bool.false_eq_true, if_false, hi]
      rw [hneq _ (by omega) (by omega) (by omega)]
      rfl
  · right
    refine ⟨⟨.floatRange, ?_, Or.inl rfl⟩, fun hc => hr ((inRange_iff .f64 v).2 ⟨hc.1, hc.2.2⟩)⟩
    unfold permissive_f64
    rw [if_pos (by simpa using hr)]
    rfl

/-- What the permissive visitor does with a number. -/
theorem permissive_number (c : Cfg) {T : Type} (cast : I256 → T) (parse : List U8 → Res (ParseResult T)) (i : Input) :
    (∃ z : Int, i.number = some (z : ℚ) ∧ ¬ i.beyondExact ∧ (PermissiveVisitor c cast parse).call i = .ok (.ok (cast (I256.ofInt c z))))
    ∨ ((∀ s, i ≠ .str s) ∧ (∃ e, (PermissiveVisitor c cast parse).call i = .ok (.error e))
      ∧ ∀ z : Int, i.number = some (z : ℚ) → i.beyondExact)
    ∨ (∃ s, i = .str s) := by
  have ints : ∀ (t : PrimTy) (v : t.Val c) (z : Int), t.toInt v = z → ∀ i : Input, i.number = some (z : ℚ) → ¬ i.beyondExact →
      (PermissiveVisitor c cast parse).call i = .ok (.ok (cast (I256.of_prim_as c t v))) →
      (∃ z : Int, i.number = some (z : ℚ) ∧ ¬ i.beyondExact ∧ (PermissiveVisitor c cast parse).call i = .ok (.ok (cast (I256.ofInt c z)))) := by
    intro t v z hz i h1 h2 h3
    refine ⟨z, h1, h2, ?_⟩
    rw [h3, I256.of_prim_as_eq, hz]
  have sx : ∀ {n : Nat} (v : BitVec n), n ≤ 64 → (v.signExtend 64).toInt = v.toInt := fun v h =>
    BitVec.toInt_signExtend_of_le h
  have zx : ∀ {n : Nat} (v : BitVec n), n ≤ 64 → ((v.setWidth 64).toNat : Int) = v.toNat := fun v h => by
    rw [BitVec.toNat_setWidth, Nat.mod_eq_of_lt (Nat.lt_of_lt_of_le v.isLt (Nat.pow_le_pow_right (by omega) h))]
  cases i with
  | i8 v => exact Or.inl (ints .i64 (v.signExtend 64) v.toInt (sx v (by omega)) _ rfl id rfl)
  | i16 v => exact Or.inl (ints .i64 (v.signExtend 64) v.toInt (sx v (by omega)) _ rfl id rfl)
  | i32 v => exact Or.inl (ints .i64 (v.signExtend 64) v.toInt (sx v (by omega)) _ rfl id rfl)
  | i64 v => exact Or.inl (ints .i64 v v.toInt rfl _ rfl id rfl)
  | i128 v => exact Or.inl (ints .i128 v v.toInt rfl _ rfl id rfl)
  | u8 v => exact Or.inl (ints .u64 (v.setWidth 64) v.toNat (zx v (by omega)) _ (by simp [Input.number]) id rfl)
  | u16 v => exact Or.inl (ints .u64 (v.setWidth 64) v.toNat (zx v (by omega)) _ (by simp [Input.number]) id rfl)
  | u32 v => exact Or.inl (ints .u64 (v.setWidth 64) v.toNat (zx v (by omega)) _ (by simp [Input.number]) id rfl)
  | u64 v => exact Or.inl (ints .u64 v v.toNat rfl _ (by simp [Input.number]) id rfl)
  | u128 v => exact Or.inl (ints .u128 v v.toNat rfl _ (by simp [Input.number]) id rfl)
  | f64 v =>
    rcases permissive_f64_cases c cast v with ⟨z, h, hz, h1, h2, h3⟩ | ⟨⟨e, he, _⟩, hno⟩
    · left
      exact ⟨z, by simp [Input.number, h, hz], fun hc => hc ⟨h1, h2⟩, h3⟩
    · right; left
      refine ⟨fun s hs => (by cases hs), ⟨e, he⟩, fun z hz => ?_⟩
      by_cases hf : f64.isFinite v = true
      · simp [Input.number, hf] at hz
        exact fun hc => hno ⟨hf, ⟨z, hz⟩, hc⟩
      · simp [Input.number, hf] at hz
  | f32 v =>
    by_cases hr : inRange .f32 (f32.ofInt (2 ^ 24)) v = true
    · obtain ⟨h, h1, h2⟩ := (inRange_iff .f32 v).1 hr
      obtain ⟨hf, hv⟩ := convert_exact v h
      have hcall : (PermissiveVisitor c cast parse).call (.f32 v) = permissive_f64 c cast (convert .f32 .f64 v) := by
        show (if !inRange .f32 (FloatTy.f32.ofInt (2 ^ 24)) v then fail .floatRange
          else permissive_f64 c cast (FloatTy.f32.convert .f64 v)) = _
        rw [hr]; rfl
      rcases permissive_f64_cases c cast (convert .f32 .f64 v) with ⟨z, _, hz, _, _, h3⟩ | ⟨⟨e, he, _⟩, hno⟩
      · left
        refine ⟨z, by rw [hv] at hz; simp [Input.number, h, hz], fun hc => hc ⟨h1, h2⟩, hcall.trans h3⟩
      · right; left
        refine ⟨fun s hs => (by cases hs), ⟨e, hcall.trans he⟩, fun z hz => ?_⟩
        exfalso
        simp [Input.number, h] at hz
        apply hno
        rw [hv]
        have g1 : -2 ^ 24 ≤ f32.val v := h1
        have g2 : f32.val v < 2 ^ 24 := h2
        exact ⟨hf, ⟨z, hz⟩, by linarith, by linarith⟩
    · right; left
      refine ⟨fun s hs => (by cases hs), ⟨.floatRange, ?_⟩, fun z hz => ?_⟩
      · show (if !inRange .f32 (FloatTy.f32.ofInt (2 ^ 24)) v then fail .floatRange
          else permissive_f64 c cast (FloatTy.f32.convert .f64 v)) = _
        rw [if_pos (by simpa using hr)]
        rfl
      · by_cases hf : f32.isFinite v = true
        · exact fun hc => hr ((inRange_iff .f32 v).2 ⟨hf, hc⟩)
        · simp [Input.number, hf] at hz
  | str s => exact Or.inr (Or.inr ⟨s, rfl⟩)
  | bytes b => exact Or.inr (Or.inl ⟨fun s hs => (by cases hs), ⟨_, rfl⟩, fun z hz => by simp [Input.number] at hz⟩)
  | seq a b => exact Or.inr (Or.inl ⟨fun s hs => (by cases hs), ⟨_, rfl⟩, fun z hz => by simp [Input.number] at hz⟩)
  | other => exact Or.inr (Or.inl ⟨fun s hs => (by cases hs), ⟨_, rfl⟩, fun z hz => by simp [Input.number] at hz⟩)

end Ethnum
