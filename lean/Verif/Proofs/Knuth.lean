import Verif.Proofs.Div128

/-! Knuth's algorithm D for a two-word divisor. -/

set_option linter.unusedSimpArgs false

namespace Ethnum
namespace Intr
variable (c : Cfg)

theorem fullmul_u128_spec (a b : U128) :
    ∃ lo hi, fullmul_u128 c a b = .ok (lo, hi) ∧ hi.toNat * 2 ^ 128 + lo.toNat = a.toNat * b.toNat := by
  have ha := a.isLt; have hb := b.isLt
  have a0 : a.toNat % 2 ^ 64 < 2 ^ 64 := by omega
  have a1 : a.toNat / 2 ^ 64 < 2 ^ 64 := by omega
  have b0 : b.toNat % 2 ^ 64 < 2 ^ 64 := by omega
  have b1 : b.toNat / 2 ^ 64 < 2 ^ 64 := by omega
  have m00 := mul_lt_64 a0 b0
  have m10 := mul_lt_64 a1 b0
  have m01 := mul_lt_64 a0 b1
  have m11 := mul_lt_64 a1 b1
  have key : a.toNat * b.toNat = (a.toNat / 2 ^ 64 * (b.toNat / 2 ^ 64)) * 2 ^ 128
      + (a.toNat / 2 ^ 64 * (b.toNat % 2 ^ 64)) * 2 ^ 64
      + (a.toNat % 2 ^ 64 * (b.toNat / 2 ^ 64)) * 2 ^ 64
      + a.toNat % 2 ^ 64 * (b.toNat % 2 ^ 64) := by
    conv_lhs => rw [← Nat.div_add_mod a.toNat (2 ^ 64), ← Nat.div_add_mod b.toNat (2 ^ 64)]
    ring
  unfold fullmul_u128 split_u128_to_u128
  simp only []
  obtain ⟨t, e, v⟩ := mulC_spec c (a := a &&& MASK64) (b := b &&& MASK64) (by simp only [toNat_shr64, toNat_and_MASK64, toNat_shl64]; omega)
  simp only [e, ok_bind]; clear e
  obtain ⟨p, e, vp⟩ := mulC_spec c (a := a >>> 64) (b := b &&& MASK64) (by simp only [toNat_shr64, toNat_and_MASK64, toNat_shl64]; omega)
  simp only [e, ok_bind]; clear e
  simp only [toNat_shr64, toNat_and_MASK64] at v vp
  obtain ⟨t2, e, vt2⟩ := addC_spec c (a := p) (b := t >>> 64) (by simp only [toNat_shr64, toNat_and_MASK64, toNat_shl64]; omega)
  simp only [e, ok_bind]; clear e
  simp only [toNat_shr64] at vt2
  obtain ⟨p2, e, vp2⟩ := mulC_spec c (a := a &&& MASK64) (b := b >>> 64) (by simp only [toNat_shr64, toNat_and_MASK64, toNat_shl64]; omega)
  simp only [e, ok_bind]; clear e
  simp only [toNat_shr64, toNat_and_MASK64] at vp2
  obtain ⟨t3, e, vt3⟩ := addC_spec c (a := p2) (b := t2 &&& MASK64) (by simp only [toNat_shr64, toNat_and_MASK64, toNat_shl64]; omega)
  simp only [e, ok_bind]; clear e
  simp only [toNat_and_MASK64] at vt3
  obtain ⟨p3, e, vp3⟩ := mulC_spec c (a := a >>> 64) (b := b >>> 64) (by simp only [toNat_shr64, toNat_and_MASK64, toNat_shl64]; omega)
  simp only [e, ok_bind]; clear e
  simp only [toNat_shr64] at vp3
  obtain ⟨h1, e, vh1⟩ := addC_spec c (a := p3) (b := t2 >>> 64) (by simp only [toNat_shr64, toNat_and_MASK64, toNat_shl64]; omega)
  simp only [e, ok_bind]; clear e
  simp only [toNat_shr64] at vh1
  obtain ⟨h2, e, vh2⟩ := addC_spec c (a := h1) (b := t3 >>> 64) (by simp only [toNat_shr64, toNat_and_MASK64, toNat_shl64]; omega)
  simp only [e, ok_bind]; clear e
  simp only [toNat_shr64] at vh2
  obtain ⟨lo, e, vlo⟩ := addC_spec c (a := t3 <<< 64) (b := t &&& MASK64) (by simp only [toNat_shr64, toNat_and_MASK64, toNat_shl64]; omega)
  simp only [e, ok_bind, pure_eq_ok]; clear e
  simp only [toNat_shl64, toNat_and_MASK64] at vlo
  refine ⟨_, _, rfl, ?_⟩
  rw [key]; omega

theorem fullmul_u256_u128_spec (a : U256) (b : U128) :
    ∃ x0 x1 x2, fullmul_u256_u128 c a b = .ok (x0, x1, x2) ∧
      x2.toNat * 2 ^ 256 + x1.toNat * 2 ^ 128 + x0.toNat = a.toNat c * b.toNat := by
  unfold fullmul_u256_u128
  split
  · obtain ⟨l0, h0, e, v0⟩ := fullmul_u128_spec c (a.low c) b
    rw [e, ok_bind]; clear e
    simp only []
    obtain ⟨l1, h1, e, v1⟩ := fullmul_u128_spec c (a.high c) b
    rw [e, ok_bind]; clear e
    simp only [overflowingAdd]
    have hb := b.isLt
    have hah := (a.high c).isLt
    have m1 := Native.mul_lt_128 hah hb
    have hl0 := l0.isLt; have hh0 := h0.isLt; have hl1 := l1.isLt; have hh1 := h1.isLt
    obtain ⟨x2, e, v2⟩ := addC_spec c (a := h1) (b := ofBool 128 (decide (2 ^ 128 ≤ h0.toNat + l1.toNat)))
      (by rw [toNat_ofBool128]; split <;> omega)
    simp only [e, ok_bind, pure_eq_ok]; clear e
    refine ⟨_, _, _, rfl, ?_⟩
    rw [toNat_ofBool128] at v2
    have e : a.toNat c * b.toNat = (a.high c).toNat * b.toNat * 2 ^ 128 + (a.low c).toNat * b.toNat := by
      rw [U256.toNat_eq]; ring
    rw [e, ← v0, ← v1, BitVec.toNat_add]
    simp only [decide_eq_true_eq] at v2
    clear e v0 v1 m1
    split at v2 <;> omega
  · rename_i h
    have hb : b = 0 := by simpa using h
    exact ⟨0, 0, 0, rfl, by simp [hb]⟩

theorem sub_carry_spec (a b : U128) (cin : Bool) :
    (sub_carry a b cin).1.toNat + b.toNat + cin.toNat = a.toNat + (sub_carry a b cin).2.toNat * 2 ^ 128 := by
  have ha := a.isLt; have hb := b.isLt
  unfold sub_carry overflowingAdd overflowingSub
  have hc : (ofBool 128 cin).toNat = cin.toNat := by cases cin <;> rfl
  simp only [BitVec.toNat_sub, BitVec.toNat_add, hc]
  have : cin.toNat ≤ 1 := by cases cin <;> simp
  by_cases h1 : 2 ^ 128 ≤ b.toNat + cin.toNat
  · simp only [h1, decide_true, Bool.true_or, Bool.toNat_true]; omega
  · simp only [h1, decide_false, Bool.false_or]
    by_cases h2 : a.toNat < (b.toNat + cin.toNat) % 2 ^ 128
    · simp only [h2, decide_true, Bool.toNat_true]; omega
    · simp only [h2, decide_false, Bool.toNat_false]; omega

/-- The estimate loop: `W = u2 * 2^128 + u1`, divisor `v1 * 2^128 + v0`. -/
theorem knuthLoop_spec {v1 v0 u0 : U128} {W : Nat} (h1 : 2 ^ 127 ≤ v1.toNat)
    (hU : W < v1.toNat * 2 ^ 128) :
    ∀ (fuel : Nat) (q rhat : U128),
      q.toNat * v1.toNat + rhat.toNat = W →
      (W * 2 ^ 128 + u0.toNat) / (v1.toNat * 2 ^ 128 + v0.toNat) ≤ q.toNat →
      2 ^ 128 + v1.toNat ≤ rhat.toNat + fuel * v1.toNat →
      ∃ r, knuthLoop c v1 v0 u0 fuel q rhat = .ok r ∧
        r.toNat = (W * 2 ^ 128 + u0.toNat) / (v1.toNat * 2 ^ 128 + v0.toNat) := by
  have h1' := v1.isLt; have h0 := v0.isLt; have hu := u0.isLt
  intro fuel
  induction fuel with
  | zero => intro q rhat _ _ hf; have := rhat.isLt; omega
  | succ fuel ih =>
    intro q rhat hinv hQ hf
    have hr := rhat.isLt; have hq := q.isLt
    unfold knuthLoop
    obtain ⟨lo, hi, e, vm⟩ := fullmul_u128_spec c q v0
    rw [e, ok_bind]; clear e
    have hlo := lo.isLt
    have hVpos : 0 < v1.toNat * 2 ^ 128 + v0.toNat := by omega
    obtain ⟨Q, hQd⟩ : ∃ Q, Q = (W * 2 ^ 128 + u0.toNat) / (v1.toNat * 2 ^ 128 + v0.toNat) := ⟨_, rfl⟩
    simp only [← hQd] at hQ ih ⊢
    have hqV : q.toNat * (v1.toNat * 2 ^ 128 + v0.toNat)
        = q.toNat * v1.toNat * 2 ^ 128 + q.toNat * v0.toNat := by ring
    have htest : (decide (rhat < hi) || (decide (hi = rhat) && decide (u0 < lo)))
        = decide (rhat.toNat * 2 ^ 128 + u0.toNat < q.toNat * v0.toNat) := by
      rw [Bool.eq_iff_iff]
      simp only [Bool.or_eq_true, Bool.and_eq_true, decide_eq_true_eq, BitVec.lt_def,
        ← BitVec.toNat_inj]
      omega
    rw [htest]
    by_cases ht : rhat.toNat * 2 ^ 128 + u0.toNat < q.toNat * v0.toNat
    · simp only [ht, decide_true, Bool.not_true, Bool.false_eq_true, if_false]
      have hgt : Q < q.toNat := by
        rw [hQd, Nat.div_lt_iff_lt_mul hVpos, hqV]
        rw [← hinv]
        have := u0.isLt
        clear hQd hQ ih htest vm hf hqV hlo hVpos hinv
        linarith
      obtain ⟨q', e, vq⟩ := subC_spec c (a := q) (b := 1) (by simp; omega)
      simp only [e, ok_bind]; clear e
      rw [show (1 : U128).toNat = 1 from rfl] at vq
      have e1 : q.toNat * v1.toNat = q'.toNat * v1.toNat + v1.toNat := by
        have : q.toNat = q'.toNat + 1 := by omega
        rw [this]; ring
      simp only [overflowingAdd]
      by_cases hB : 2 ^ 128 ≤ rhat.toNat + v1.toNat
      · simp only [hB, decide_true, if_true]
        refine ⟨q', rfl, ?_⟩
        apply Nat.le_antisymm ?_ (by omega)
        rw [hQd, Nat.le_div_iff_mul_le hVpos]
        have e2 : q'.toNat * (v1.toNat * 2 ^ 128 + v0.toNat)
          = q'.toNat * v1.toNat * 2 ^ 128 + q'.toNat * v0.toNat := by ring
        have e3 : q'.toNat * v0.toNat ≤ 2 ^ 128 * v0.toNat := Nat.mul_le_mul_right _ (by omega)
        omega
      · simp only [hB, decide_false, Bool.false_eq_true, if_false]
        have hadd : (rhat + v1).toNat = rhat.toNat + v1.toNat := by
          rw [BitVec.toNat_add, Nat.mod_eq_of_lt (by omega)]
        apply ih q' (rhat + v1) (by rw [hadd]; omega) (by omega)
        have : (fuel + 1) * v1.toNat = fuel * v1.toNat + v1.toNat := by ring
        rw [hadd]; omega
    · simp only [ht, decide_false, Bool.not_false, if_true]
      refine ⟨q, rfl, ?_⟩
      apply Nat.le_antisymm ?_ hQ
      rw [hQd, Nat.le_div_iff_mul_le hVpos, hqV]
      omega

theorem knuthQhat_spec {u0 u1 u2 v1 v0 : U128} (h1 : 2 ^ 127 ≤ v1.toNat) (hu : u2.toNat < v1.toNat) :
    ∃ r, knuthQhat c u0 u1 u2 v1 v0 = .ok r ∧
      r.toNat = ((u2.toNat * 2 ^ 128 + u1.toNat) * 2 ^ 128 + u0.toNat)
        / (v1.toNat * 2 ^ 128 + v0.toNat) := by
  unfold knuthQhat
  rw [if_pos (BitVec.lt_def.2 hu), nonZeroUnchecked_ok (by omega), ok_bind]
  obtain ⟨q, r, e, vq, vr⟩ := udiv256_by_128_to_128_spec c (u0 := u1) hu
  rw [e, ok_bind]; clear e
  have hu1 := u1.isLt; have hu0 := u0.isLt
  have hdm := Nat.div_add_mod (u2.toNat * 2 ^ 128 + u1.toNat) v1.toNat
  rw [← vq, ← vr] at hdm
  have hml := Nat.mod_lt (u2.toNat * 2 ^ 128 + u1.toNat) (show 0 < v1.toNat by omega)
  have hcomm : q.toNat * v1.toNat = v1.toNat * q.toNat := Nat.mul_comm _ _
  apply knuthLoop_spec c h1
  · omega
  · omega
  · rw [vq, Nat.le_div_iff_mul_le (by omega)]
    have hd := Nat.div_mul_le_self ((u2.toNat * 2 ^ 128 + u1.toNat) * 2 ^ 128 + u0.toNat)
      (v1.toNat * 2 ^ 128 + v0.toNat)
    obtain ⟨Q, hQ⟩ : ∃ Q, Q = ((u2.toNat * 2 ^ 128 + u1.toNat) * 2 ^ 128 + u0.toNat)
      / (v1.toNat * 2 ^ 128 + v0.toNat) := ⟨_, rfl⟩
    rw [← hQ] at hd ⊢
    have : Q * (v1.toNat * 2 ^ 128 + v0.toNat) = Q * v1.toNat * 2 ^ 128 + Q * v0.toNat := by ring
    omega
  · omega

theorem knuthSub_spec {u0 u1 u2 : U128} {v : U256} {q : U128} (_hv : 0 < v.toNat c)
    (hq : q.toNat = ((u2.toNat * 2 ^ 128 + u1.toNat) * 2 ^ 128 + u0.toNat) / v.toNat c) :
    ∃ r0 r1 r2, knuthSub c u0 u1 u2 v q = .ok (q, r0, r1, r2) ∧
      (r2.toNat * 2 ^ 128 + r1.toNat) * 2 ^ 128 + r0.toNat
        = ((u2.toNat * 2 ^ 128 + u1.toNat) * 2 ^ 128 + u0.toNat) % v.toNat c := by
  have hdm := Nat.div_add_mod ((u2.toNat * 2 ^ 128 + u1.toNat) * 2 ^ 128 + u0.toNat) (v.toNat c)
  rw [← hq] at hdm
  obtain ⟨R, hR⟩ : ∃ R, R = ((u2.toNat * 2 ^ 128 + u1.toNat) * 2 ^ 128 + u0.toNat) % v.toNat c := ⟨_, rfl⟩
  rw [← hR] at hdm ⊢
  clear hR hq
  unfold knuthSub
  obtain ⟨x0, x1, x2, e, vx⟩ := fullmul_u256_u128_spec c v q
  rw [e, ok_bind]; clear e
  simp only []
  rw [← vx] at hdm
  clear vx
  have s0 := sub_carry_spec u0 x0 false
  generalize sub_carry u0 x0 false = p0 at *
  obtain ⟨y0, c0⟩ := p0
  have s1 := sub_carry_spec u1 x1 c0
  simp only [] at s0 s1 ⊢
  generalize sub_carry u1 x1 c0 = p1 at *
  obtain ⟨y1, c1⟩ := p1
  have s2 := sub_carry_spec u2 x2 c1
  simp only [] at s1 s2 ⊢
  generalize sub_carry u2 x2 c1 = p2 at *
  obtain ⟨y2, c2⟩ := p2
  simp only [Bool.toNat_false] at s0 s1 s2 ⊢
  have hy0 := y0.isLt; have hy1 := y1.isLt; have hy2 := y2.isLt
  have hc2 : c2 = false := by
    cases c2
    · rfl
    · rw [Bool.toNat_true] at s2; omega
  subst hc2
  rw [Bool.toNat_false] at s2
  refine ⟨y0, y1, y2, rfl, ?_⟩
  clear hy0 hy1 hy2
  linarith

theorem full_shl_spec {a : U256} {s : U32} (hs : s.toNat < 128) :
    ∃ u0 u1 u2, full_shl c a s = .ok (u0, u1, u2) ∧ u2.toNat < 2 ^ s.toNat ∧
      (u2.toNat * 2 ^ 128 + u1.toNat) * 2 ^ 128 + u0.toNat = a.toNat c * 2 ^ s.toNat := by
  unfold full_shl
  rw [debugAssert_ok c (by simpa using (u32_lt_iff s 128 (by omega)).2 hs), ok_bind, shlC_ok c hs, ok_bind]
  obtain ⟨k, e, vk⟩ := subC_128 c hs
  rw [e, ok_bind, U256.shr_eq c a k (by omega), ok_bind, pure_eq_ok]; clear e
  refine ⟨_, _, _, rfl, ?_⟩
  rw [vk]
  have ha := U256.toNat_lt c a
  have hPQ := pow_split (b := s.toNat) (by omega)
  have hhi : a.toNat c / 2 ^ (128 - s.toNat) < 2 ^ s.toNat * 2 ^ 128 := by
    rw [Nat.div_lt_iff_lt_mul (Nat.two_pow_pos _), Nat.mul_right_comm, hPQ]; omega
  have hlt256 : 2 ^ s.toNat * 2 ^ 128 < 2 ^ 256 := by
    rw [← Nat.pow_add]; exact Nat.pow_lt_pow_right (by omega) (by omega)
  rw [U256.high_toNat, U256.low_toNat, U256.toNat_ofNat_of_lt c (by omega)]
  constructor
  · rw [Nat.div_lt_iff_lt_mul (by norm_num)]; exact hhi
  · rw [toNat_shl, U256.low_toNat]
    obtain ⟨A, hA⟩ : ∃ A, A = a.toNat c := ⟨_, rfl⟩
    rw [← hA] at *
    have e1 : A % 2 ^ 128 * 2 ^ s.toNat % 2 ^ 128 = A * 2 ^ s.toNat % 2 ^ 128 := by
      rw [Nat.mod_mul_mod]
    have e2 : A / 2 ^ (128 - s.toNat) = A * 2 ^ s.toNat / 2 ^ 128 := by
      rw [← hPQ, Nat.mul_comm A, Nat.mul_div_mul_left _ _ (Nat.two_pow_pos _)]
    rw [e1, e2]
    clear * -
    omega

theorem full_shr_spec {u0 u1 : U128} {s : U32} (hs : s.toNat < 128) :
    full_shr c (u0, u1, 0) s = .ok (U256.ofNat c ((u1.toNat * 2 ^ 128 + u0.toNat) / 2 ^ s.toNat)) := by
  unfold full_shr
  have hu0 := u0.isLt; have hu1 := u1.isLt
  have hlt : (u1.toNat * 2 ^ 128 + u0.toNat) / 2 ^ s.toNat < 2 ^ 256 :=
    Nat.lt_of_le_of_lt (Nat.div_le_self _ _) (by omega)
  rw [debugAssert_ok c (by simpa using (u32_lt_iff s 128 (by omega)).2 hs), ok_bind, shrC_ok c hs, ok_bind,
    shrC_ok c hs, ok_bind]
  split
  · obtain ⟨k, e, vk⟩ := subC_128 c hs
    rename_i hpos
    have : 0 < s.toNat := by simpa [BitVec.lt_def] using hpos
    simp only [e, ok_bind]; clear e
    rw [shlC_ok c (by omega), ok_bind, shlC_ok c (by omega), ok_bind, pure_eq_ok]
    congr 1
    apply U256.eq_ofNat
    rw [Nat.mod_eq_of_lt hlt, ← shr_value (by omega) _ _ hu0, U256.toNat_eq]
    simp only [U256.high_set_high, U256.low_set_high, U256.high_set_low, U256.low_set_low]
    simp only [toNat_shl, toNat_shr, vk, BitVec.toNat_or, toNat_0, Nat.zero_mul, Nat.zero_mod, Nat.or_zero]
  · rename_i hpos
    have : s.toNat = 0 := by
      have : ¬ 0 < s.toNat := by simpa [BitVec.lt_def] using hpos
      omega
    rw [pure_eq_ok]
    congr 1
    apply U256.eq_ofNat
    rw [Nat.mod_eq_of_lt hlt, U256.toNat_eq]
    simp [this]

theorem div_mod_knuth_spec {u v : U256} (hv : 2 ^ 128 ≤ v.toNat c) (hu : 2 ^ 128 ≤ u.toNat c) :
    div_mod_knuth c u v = .ok (U256.ofNat c (u.toNat c / v.toNat c), U256.ofNat c (u.toNat c % v.toNat c)) := by
  have hul := U256.toNat_lt c u; have hvl := U256.toNat_lt c v
  have huh : (u.high c).toNat ≠ 0 := by rw [U256.high_toNat]; omega
  have hvh : (v.high c).toNat ≠ 0 := by rw [U256.high_toNat]; omega
  have hlz := leadingZeros_lt hvh
  have hlo := le_toNat_leadingZeros hvh
  have hhi := toNat_lt_leadingZeros (v.high c)
  have hu32 : (u32 (leadingZeros (v.high c))).toNat = leadingZeros (v.high c) := toNat_u32 (by omega)
  unfold div_mod_knuth
  rw [debugAssert_ok c (by simpa using u128_ne_zero huh), ok_bind,
    unreachableIf_ok (by simpa using u128_ne_zero huh), ok_bind]
  simp only []
  generalize hs : leadingZeros (v.high c) = s at *
  have hslt : (u32 s).toNat < 128 := by omega
  rw [debugAssert_ok c (by simpa using (u32_lt_iff (u32 s) 128 (by omega)).2 hslt), ok_bind,
    U256.shl_eq c v _ (by omega), ok_bind]
  obtain ⟨u0, u1, u2, e, hu2, hU⟩ := full_shl_spec c (a := u) hslt
  rw [e, ok_bind]; clear e
  rw [hu32] at hu2 hU
  rw [hu32]
  -- the normalised divisor
  have hPp : 0 < 2 ^ s := Nat.two_pow_pos s
  have hPQ := pow_split (b := s) (by omega)
  have hhw := U256.high_toNat c v
  have hlw := U256.low_toNat c v
  have hVlt : v.toNat c * 2 ^ s < 2 ^ 256 := by
    have : v.toNat c < 2 ^ (128 - s) * 2 ^ 128 := by omega
    calc v.toNat c * 2 ^ s < 2 ^ (128 - s) * 2 ^ 128 * 2 ^ s := Nat.mul_lt_mul_of_pos_right this hPp
      _ = 2 ^ s * 2 ^ (128 - s) * 2 ^ 128 := by ring
      _ = 2 ^ 256 := by rw [hPQ]; norm_num
  have hVge : 2 ^ 255 ≤ v.toNat c * 2 ^ s := by
    have h1 : 2 ^ (128 - 1 - s) * 2 ^ 128 ≤ v.toNat c := by omega
    calc 2 ^ 255 = 2 ^ (128 - 1 - s) * 2 ^ 128 * 2 ^ s := by
          rw [← Nat.pow_add, ← Nat.pow_add]; congr 1; omega
      _ ≤ _ := Nat.mul_le_mul_right _ h1
  have hVn := U256.toNat_ofNat_of_lt c hVlt
  generalize U256.ofNat c (v.toNat c * 2 ^ s) = V at *
  have hV1 := U256.high_toNat c V
  have hV0 := U256.low_toNat c V
  have hVeq := U256.toNat_eq c V
  have hv1 : 2 ^ 127 ≤ (V.high c).toNat := by rw [hV1, hVn]; omega
  have h2s : 2 ^ s ≤ 2 ^ 127 := Nat.pow_le_pow_right (by omega) (by omega)
  have hchk : knuthCheck c (V.high c) = .ok () := by
    unfold knuthCheck
    rw [if_neg]; rfl
    rw [not_not, ← BitVec.toNat_inj, toNat_shr]
    have := (V.high c).isLt
    show _ = 1
    omega
  rw [hchk, ok_bind]
  obtain ⟨q, e, vq⟩ := knuthQhat_spec c (u0 := u0) (u1 := u1) (v0 := V.low c) hv1 (show u2.toNat < _ by omega)
  rw [e, ok_bind]; clear e
  rw [← hVeq] at vq
  obtain ⟨r0, r1, r2, e, vr⟩ := knuthSub_spec c (by omega) vq
  rw [e, ok_bind]; clear e
  simp only []
  rw [hU] at vq vr
  rw [hVn, Nat.mul_div_mul_right _ _ hPp] at vq
  rw [hVn, Nat.mul_mod_mul_right] at vr
  have hml := Nat.mod_lt (u.toNat c) (show 0 < v.toNat c by omega)
  have hmls : u.toNat c % v.toNat c * 2 ^ s < 2 ^ 256 :=
    Nat.lt_of_le_of_lt (Nat.mul_le_mul_right _ hml.le) hVlt
  have hr0 := r0.isLt; have hr1 := r1.isLt
  have hr2 : r2 = 0 := by
    rw [← BitVec.toNat_inj]; show r2.toNat = 0; omega
  subst hr2
  rw [full_shr_spec c hslt, ok_bind, pure_eq_ok, hu32]
  have hr' : r1.toNat * 2 ^ 128 + r0.toNat = u.toNat c % v.toNat c * 2 ^ s := by
    rw [← vr]; simp
  rw [hr', Nat.mul_div_cancel _ hPp]
  have hq : U256.ZERO.set_low c q = U256.ofNat c (u.toNat c / v.toNat c) := by
    apply U256.eq_ofNat
    rw [U256.toNat_eq]
    simp only [U256.high_set_low, U256.low_set_low, U256.high_ZERO, vq]
    rw [Nat.mod_eq_of_lt (Nat.lt_of_le_of_lt (Nat.div_le_self _ _) hul)]
    simp
  rw [hq]

end Intr
end Ethnum
