import Verif.Proofs.Ops
import Verif.Proofs.Bv
import Verif.Model.IntApi
import Mathlib.Data.Int.Lemmas

/-
Lemmas about the I256 API: signs, absolute values and the Euclidean division routine.
-/

set_option linter.unusedSimpArgs false

namespace Ethnum

theorem checkedOf_mk {α : Type} (x : α) (p : Prop) [Decidable p] :
    U256.checkedOf (x, decide p) = if p then none else some x := by
  unfold U256.checkedOf; by_cases h : p <;> simp [h]

theorem checkedOf_not {α : Type} (x : α) (p : Prop) [Decidable p] :
    U256.checkedOf (x, decide (¬ p)) = if p then some x else none := by
  unfold U256.checkedOf; by_cases h : p <;> simp [h]

namespace I256
variable (c : Cfg)

theorem InI256_neg {z : Int} (h1 : InI256 z) (h2 : z ≠ -2 ^ 255) : InI256 (-z) := by
  unfold InI256 at *; omega

theorem is_negative_eq (x : I256) : is_negative c x = decide (x.toInt c < 0) := by
  unfold is_negative; rw [into_words_eq, decide_eq_decide]; exact high_neg_iff c x

theorem toInt_MIN_iff (x : I256) : x = MIN c ↔ x.toInt c = -2 ^ 255 := by
  rw [← toInt_inj_iff c, toInt_MIN]

theorem wrapping_sub_eq (a b : I256) : wrapping_sub c a b = ofInt c (a.toInt c - b.toInt c) :=
  Intr.isub3_eq c a b

theorem wrapping_neg_eq (a : I256) : wrapping_neg c a = ofInt c (-a.toInt c) := by
  unfold wrapping_neg; rw [wrapping_sub_eq, toInt_ZERO, Int.zero_sub]

theorem wrapping_abs_eq (a : I256) : wrapping_abs c a = ofInt c (a.toInt c).natAbs := by
  unfold wrapping_abs
  rw [is_negative_eq, wrapping_neg_eq]
  by_cases h : a.toInt c < 0
  · rw [if_pos (decide_eq_true h)]; congr 1; omega
  · rw [if_neg (by simpa using h)]
    apply eq_ofInt_of_toInt; omega

theorem toNat_unsigned_abs (a : I256) : (unsigned_abs c a).toNat c = (a.toInt c).natAbs := by
  unfold unsigned_abs
  rw [toNat_as_u256, wrapping_abs_eq]
  have h1 := toInt_lt c a; have h2 := le_toInt c a
  exact toNat_ofInt_natAbs c _ (by omega)

theorem signum128_toInt (x : I256) : (signum128 c x).toInt = Int.sign (x.toInt c) := by
  unfold signum128 signum_i128
  rw [into_words_eq]
  have hw := toInt_eq_words c x
  have hn := high_neg_iff c x
  have hl := (x.low c).isLt
  simp only []
  by_cases h : (x.high c).toInt < 0
  · rw [if_pos h, Int.sign_eq_neg_one_of_neg (hn.1 h)]
    have : ∀ b, ((-1 : U128) ||| ofBool 128 b).toInt = -1 := by intro b; cases b <;> decide
    exact this _
  · rw [if_neg h]
    have h0 : ¬ x.toInt c < 0 := fun hh => h (hn.2 hh)
    by_cases hz : x.high c = 0
    · rw [if_pos hz]
      rw [hz, toInt_0] at hw
      by_cases hlz : x.low c = 0
      · rw [hlz, toNat_0] at hw
        have hz' : x.toInt c = 0 := by rw [hw]; rfl
        rw [hlz, hz']; simp [ofBool]
      · have : (x.low c).toNat ≠ 0 := fun e => hlz (BitVec.eq_of_toNat_eq e)
        rw [decide_eq_true hlz, Int.sign_eq_one_of_pos (by omega)]; decide
    · rw [if_neg hz]
      have hp : 0 < (x.high c).toInt := by
        rcases Int.lt_trichotomy (x.high c).toInt 0 with g | g | g
        · exact absurd g h
        · exfalso; apply hz; apply BitVec.eq_of_toInt_eq; rw [g]; rfl
        · exact g
      rw [Int.sign_eq_one_of_pos (by omega)]
      have : ∀ b, ((1 : U128) ||| ofBool 128 b).toInt = 1 := by intro b; cases b <;> decide
      exact this _

theorem minByMinusOne_eq (a b : I256) :
    minByMinusOne c a b = decide (a.toInt c = -2 ^ 255 ∧ b.toInt c = -1) := by
  unfold minByMinusOne
  rw [eq_eq, eq_prim_eq, toInt_MIN, toInt_m1, Bool.decide_and]

/-- quotient and remainder of absolute values, versus Euclidean division -/
theorem euclid_of_abs (a b : Int) (hb : b ≠ 0) :
    let q : Int := (a.natAbs / b.natAbs : Nat)
    let r : Int := (a.natAbs % b.natAbs : Nat)
    (a / b = if a < 0 ∧ r ≠ 0 then (if b < 0 then q + 1 else -q - 1)
      else (if (decide (a < 0) ^^ decide (b < 0)) then -q else q))
    ∧ a % b = if a < 0 ∧ r ≠ 0 then b.natAbs - r else r := by
  intro q r
  have hq : (b.natAbs : Int) * q + r = a.natAbs := by
    have := Nat.div_add_mod a.natAbs b.natAbs
    show (b.natAbs : Int) * ((a.natAbs / b.natAbs : Nat) : Int) + ((a.natAbs % b.natAbs : Nat) : Int) = _
    rw [← Int.natCast_mul, ← Int.natCast_add, this]
  have hr : r < b.natAbs := by
    have := Nat.mod_lt a.natAbs (Int.natAbs_pos.2 hb)
    show ((a.natAbs % b.natAbs : Nat) : Int) < _
    omega
  have hr0 : 0 ≤ r := Int.natCast_nonneg _
  clear_value q r
  rw [Int.ediv_emod_unique'' hb]
  have habs : |b| = (b.natAbs : Int) := Int.abs_eq_natAbs b
  rw [habs]
  clear habs
  have ea : (a < 0 ∧ (a.natAbs : Int) = -a) ∨ (¬ a < 0 ∧ (a.natAbs : Int) = a) := by omega
  have eb : (b < 0 ∧ (b.natAbs : Int) = -b) ∨ (¬ b < 0 ∧ (b.natAbs : Int) = b) := by omega
  generalize (a.natAbs : Int) = A at *
  generalize (b.natAbs : Int) = B at *
  rcases ea with ⟨ha, ea⟩ | ⟨ha, ea⟩ <;> rcases eb with ⟨hbn, eb⟩ | ⟨hbn, eb⟩ <;> subst ea <;> subst eb <;>
    by_cases hr1 : r = 0 <;>
    simp only [ha, hbn, hr1, if_true, if_false, _root_.ne_eq, not_true_eq_false, not_false_eq_true, and_true, and_false,
      decide_true, decide_false, Bool.xor_true, Bool.xor_false, Bool.not_true, Bool.not_false,
      Bool.false_eq_true, false_and, true_and] <;>
    refine ⟨?_, by omega, by omega⟩ <;> nlinarith

theorem natAbs_div_le (a b : Int) : a.natAbs / b.natAbs ≤ a.natAbs := Nat.div_le_self _ _

theorem add_one_eq (q : I256) (h : InI256 (q.toInt c + 1)) :
    withPrim c add q 1 = .ok (ofInt c (q.toInt c + 1)) := by
  unfold withPrim; rw [add_eq, toInt_new, toInt_1, if_neg (by simp [h])]

theorem add_assign_one_eq (q : I256) (h : InI256 (q.toInt c + 1)) :
    withPrim c add_assign q 1 = .ok (ofInt c (q.toInt c + 1)) := by
  unfold withPrim; rw [add_assign_eq, add_eq, toInt_new, toInt_1, if_neg (by simp [h])]

theorem sub_one_eq (q : I256) (h : InI256 (q.toInt c - 1)) :
    withPrim c sub q 1 = .ok (ofInt c (q.toInt c - 1)) := by
  unfold withPrim; rw [sub_eq, toInt_new, toInt_1, if_neg (by simp [h])]

/-- bounds of the absolute quotient -/
theorem quot_half {A B : Nat} (hA : A ≤ 2 ^ 255) (hB : 2 ≤ B) : A / B ≤ 2 ^ 254 := by
  have h1 : A / B ≤ A / 2 := Nat.div_le_div_left hB (by omega)
  omega

theorem two_le_of_mod {A B : Nat} (hB : B ≠ 0) (h : A % B ≠ 0) : 2 ≤ B := by
  rcases B with _ | _ | B
  · exact absurd rfl hB
  · exfalso; apply h; rw [Nat.mod_one]
  · omega

theorem U256_div_rem_eq (a b : U256) (hb : b.toNat c ≠ 0) :
    a.div_rem c b = .ok (U256.ofNat c (a.toNat c / b.toNat c), U256.ofNat c (a.toNat c % b.toNat c)) := by
  have ha := U256.toNat_lt c a
  have hbl := U256.toNat_lt c b
  have hq : (U256.ofNat c (a.toNat c / b.toNat c)).toNat c = a.toNat c / b.toNat c :=
    U256.toNat_ofNat_of_lt c (Nat.lt_of_le_of_lt (Nat.div_le_self _ _) ha)
  have hr : (U256.ofNat c (a.toNat c % b.toNat c)).toNat c = a.toNat c % b.toNat c :=
    U256.toNat_ofNat_of_lt c (Nat.lt_of_le_of_lt (Nat.mod_le _ _) ha)
  have hle : b.le_prim c 0 = false := by
    rw [U256.le_prim_eq, toNat_0, decide_eq_false_iff_not]; omega
  unfold U256.div_rem
  rw [U256.eq_prim_eq, toNat_0, decide_eq_false hb]
  simp only [Bool.false_eq_true, if_false]
  rw [unreachableIf_ok hle, ok_bind, Intr.udivmod4_eq c _ hb]
  simp only [ok_bind, if_true, Intr.assumeInit]
  rw [unreachableIf_ok (by
      rw [U256.ge_eq, hr, decide_eq_false_iff_not]; have := Nat.mod_lt (a.toNat c) (Nat.pos_of_ne_zero hb); omega),
    ok_bind,
    unreachableIf_ok (by rw [U256.gt_eq, hr, decide_eq_false_iff_not]; have := Nat.mod_le (a.toNat c) (b.toNat c); omega),
    ok_bind,
    unreachableIf_ok (by rw [U256.gt_eq, hq, decide_eq_false_iff_not]; have := Nat.div_le_self (a.toNat c) (b.toNat c); omega)]
  rfl

theorem U256_div_rem_zero (a b : U256) (hb : b.toNat c = 0) :
    a.div_rem c b = .error (.panic .divByZero) := by
  have hg : b.gt_prim c 0 = false := by rw [U256.gt_prim_eq, toNat_0, hb]; rfl
  unfold U256.div_rem
  rw [U256.eq_prim_eq, toNat_0, hb]
  simp only [decide_true, if_true]
  rw [unreachableIf_ok hg]; rfl

theorem wrapping_div_rem_euclid_zero (a b : I256) (hb : b.toInt c = 0) :
    wrapping_div_rem_euclid c a b = .error (.panic .divByZero) := by
  unfold wrapping_div_rem_euclid
  simp only []
  rw [U256_div_rem_zero c _ _ (by rw [toNat_unsigned_abs, hb]; rfl)]; rfl

set_option maxHeartbeats 1000000 in
/-- Exact behaviour of the Euclidean division routine for a non-zero divisor. -/
theorem wrapping_div_rem_euclid_eq (a b : I256) (hb : b.toInt c ≠ 0) :
    wrapping_div_rem_euclid c a b =
      if c.debugAssertions = true ∧ b.toInt c = -2 ^ 255 ∧ a.toInt c < 0 ∧ a.toInt c % b.toInt c ≠ 0
      then .error (.panic .subOverflow)
      else .ok (ofInt c (a.toInt c / b.toInt c), ofInt c (a.toInt c % b.toInt c)) := by
  have ha1 := toInt_lt c a; have ha2 := le_toInt c a
  have hb1 := toInt_lt c b; have hb2 := le_toInt c b
  have hbn : (b.toInt c).natAbs ≠ 0 := by omega
  obtain ⟨hq, hr⟩ := euclid_of_abs (a.toInt c) (b.toInt c) hb
  unfold wrapping_div_rem_euclid
  simp only [is_negative_eq]
  rw [U256_div_rem_eq c _ _ (by rw [toNat_unsigned_abs]; exact hbn)]
  simp only [ok_bind, toNat_unsigned_abs, as_i256_ofNat]
  have hqle : (a.toInt c).natAbs / (b.toInt c).natAbs ≤ (a.toInt c).natAbs := Nat.div_le_self _ _
  have hrlt : (a.toInt c).natAbs % (b.toInt c).natAbs < (b.toInt c).natAbs := Nat.mod_lt _ (by omega)
  have hhalf : (a.toInt c).natAbs % (b.toInt c).natAbs ≠ 0 →
      (a.toInt c).natAbs / (b.toInt c).natAbs ≤ 2 ^ 254 := fun h =>
    quot_half (by omega) (two_le_of_mod hbn h)
  obtain ⟨Q, hQ⟩ : ∃ Q, Q = (a.toInt c).natAbs / (b.toInt c).natAbs := ⟨_, rfl⟩
  obtain ⟨R, hR⟩ : ∃ R, R = (a.toInt c).natAbs % (b.toInt c).natAbs := ⟨_, rfl⟩
  rw [← hQ] at hqle hq hhalf ⊢
  rw [← hR] at hrlt hq hr hhalf ⊢
  clear hQ hR
  have hRin : (ofInt c (R : Int)).toInt c = R := toInt_ofInt_of_in c (by unfold InI256; omega)
  rw [eq_prim_eq, toInt_0, hRin]
  -- the final check
  have hchk : ∀ z : Int, 0 ≤ z → z < (b.toInt c).natAbs →
      euclidCheck c (ofInt c z) (unsigned_abs c b) = .ok () := by
    intro z h0 h1
    have hz : (ofInt c z).toInt c = z := toInt_ofInt_of_in c (by unfold InI256; omega)
    have hz2 := toNat_ofInt c z
    rw [Int.emod_eq_of_lt h0 (by omega)] at hz2
    unfold euclidCheck
    rw [is_negative_eq, hz, U256.ge_eq, toNat_as_u256, toNat_unsigned_abs, decide_eq_false (by omega),
      decide_eq_false (by omega)]
    rfl
  have hBi : (unsigned_abs c b).as_i256 = ofInt c ((b.toInt c).natAbs : Int) := by
    unfold unsigned_abs; rw [as_i256_as_u256, wrapping_abs_eq]
  by_cases hadj : a.toInt c < 0 ∧ R ≠ 0
  · have hadjb : (decide (a.toInt c < 0) && !decide ((R : Int) = 0)) = true := by
      simp [hadj.1, hadj.2]
    rw [hadjb]
    simp only [if_true]
    rw [if_pos (by omega)] at hq hr
    rw [hBi, sub_eq, hRin]
    by_cases hmin : b.toInt c = -2 ^ 255
    · have hBm : (ofInt c ((b.toInt c).natAbs : Int)).toInt c = -2 ^ 255 := by
        rw [toInt_ofInt]; omega
      rw [hBm]
      by_cases hd : c.debugAssertions = true
      · rw [if_pos ⟨hd, by unfold InI256; omega⟩, if_pos ⟨hd, hmin, hadj.1, by omega⟩]; rfl
      · rw [if_neg (fun h => hd h.1), if_neg (fun h => hd h.1)]
        simp only [ok_bind]
        have he : ofInt c (-2 ^ 255 - (R : Int)) = ofInt c (a.toInt c % b.toInt c) :=
          ofInt_congr c (by omega)
        rw [he, hchk _ (by omega) (by omega), ok_bind]
        unfold euclidQuot
        simp only [hadj.1, decide_true, show b.toInt c < 0 by omega, Bool.xor_true, Bool.not_true,
          if_true, Bool.false_eq_true, if_false] at hq ⊢
        have hh := hhalf hadj.2
        have hQin : (ofInt c (Q : Int)).toInt c = Q := toInt_ofInt_of_in c (by unfold InI256; omega)
        rw [add_assign_one_eq c _ (by rw [hQin]; unfold InI256; omega), hQin, ← hq]; rfl
    · have hBm : (ofInt c ((b.toInt c).natAbs : Int)).toInt c = (b.toInt c).natAbs :=
        toInt_ofInt_of_in c (by unfold InI256; omega)
      rw [hBm, if_neg (fun h => h.2 (by unfold InI256; omega)), if_neg (fun h => hmin h.2.1)]
      simp only [ok_bind]
      rw [← hr, hchk _ (by omega) (by omega), ok_bind]
      unfold euclidQuot
      have hh := hhalf hadj.2
      have hQin : (ofInt c (Q : Int)).toInt c = Q := toInt_ofInt_of_in c (by unfold InI256; omega)
      by_cases hbneg : b.toInt c < 0
      · simp only [hadj.1, hbneg, decide_true, Bool.xor_true, Bool.not_true, if_true, Bool.false_eq_true,
          if_false] at hq ⊢
        rw [add_assign_one_eq c _ (by rw [hQin]; unfold InI256; omega), hQin, ← hq]; rfl
      · simp only [hadj.1, hbneg, decide_true, decide_false, Bool.xor_false, if_true, if_false] at hq ⊢
        rw [not_eq c, hQin, hq, show (-(Q : Int) - 1) = -1 - (Q : Int) by omega]
        rfl
  · have hadjb : (decide (a.toInt c < 0) && !decide ((R : Int) = 0)) = false := by
      by_cases h : a.toInt c < 0
      · have : R = 0 := by omega
        simp [this]
      · simp [h]
    rw [hadjb]
    simp only [Bool.false_eq_true, if_false, pure_eq_ok, ok_bind]
    rw [if_neg (by omega)] at hq hr
    rw [hchk _ (by omega) (by omega), ok_bind, if_neg (by
      rintro ⟨_, _, h1, h2⟩; omega), ← hr]
    unfold euclidQuot
    simp only [Bool.false_eq_true, if_false]
    by_cases hs : (decide (a.toInt c < 0) ^^ decide (b.toInt c < 0)) = true
    · rw [if_pos hs] at hq ⊢
      rw [wrapping_neg_eq, hq,
        show ofInt c (-(ofInt c (Q : Int)).toInt c) = ofInt c (-(Q : Int)) from
          Intr.toInt_ofInt_neg_congr c Q true]
      rfl
    · rw [if_neg hs] at hq ⊢
      rw [hq]; rfl

end I256
end Ethnum
