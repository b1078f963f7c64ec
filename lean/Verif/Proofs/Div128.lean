import Verif.Proofs.Shift
import Verif.Proofs.Bits

/-! The 256-by-128-bit division step. -/

set_option linter.unusedSimpArgs false

namespace Ethnum
namespace Intr
variable (c : Cfg)

theorem toNat_B : B.toNat = 2 ^ 64 := by decide
theorem toNat_and_MASK64 (x : U128) : (x &&& MASK64).toNat = x.toNat % 2 ^ 64 := and_mask64 x

theorem nonZeroUnchecked_ok {x : U128} (h : x.toNat ≠ 0) : nonZeroUnchecked x = .ok x := by
  unfold nonZeroUnchecked; rw [if_neg]; intro h'; exact h (by rw [h']; rfl)

theorem u128_ne_zero {x : U128} (h : x.toNat ≠ 0) : x ≠ 0 := fun h' => h (by rw [h']; rfl)

theorem shl_nz_ok {x : U128} {n : U32} (hn : n.toNat < 128) (h : (x <<< n.toNat).toNat ≠ 0) :
    shl_nz c x n = .ok (x <<< n.toNat) := by
  unfold shl_nz
  rw [debugAssert_ok c (by simpa using (u32_lt_iff n 128 (by omega)).2 hn), ok_bind, shlC_ok c hn, ok_bind,
    debugAssert_ok c (by simpa using u128_ne_zero h), ok_bind, nonZeroUnchecked_ok h]

theorem shr_nz_ok {x : U128} {n : U32} (hn : n.toNat < 128) (h : (x >>> n.toNat).toNat ≠ 0) :
    shr_nz c x n = .ok (x >>> n.toNat) := by
  unfold shr_nz
  rw [debugAssert_ok c (by simpa using (u32_lt_iff n 128 (by omega)).2 hn), ok_bind, shrC_ok c hn, ok_bind,
    debugAssert_ok c (by simpa using u128_ne_zero h), ok_bind, nonZeroUnchecked_ok h]

/-- The loop condition never overflows and says what it should. -/
theorem corrTest_spec {q rhat vn0 un : U128} (hr : rhat.toNat < 2 ^ 64) (hv : vn0.toNat < 2 ^ 64)
    (hu : un.toNat < 2 ^ 64) :
    corrTest c q rhat vn0 un =
      .ok (decide (2 ^ 64 ≤ q.toNat ∨ 2 ^ 64 * rhat.toNat + un.toNat < q.toNat * vn0.toNat)) := by
  unfold corrTest
  by_cases hq : B ≤ q
  · rw [if_pos hq]
    have : 2 ^ 64 ≤ q.toNat := by rw [← toNat_B]; exact BitVec.le_def.1 hq
    rw [decide_eq_true (Or.inl this), pure_eq_ok]
  · rw [if_neg hq]
    have hq' : ¬ 2 ^ 64 ≤ q.toNat := by rw [← toNat_B]; exact fun h => hq (BitVec.le_def.2 h)
    have m := mul_lt_64 (a := q.toNat) (by omega) hv
    obtain ⟨l, e, vl⟩ := mulC_spec c (a := q) (b := vn0) (by omega)
    simp only [e, ok_bind]; clear e
    obtain ⟨r, e, vr⟩ := mulC_spec c (a := B) (b := rhat) (by rw [toNat_B]; omega)
    simp only [e, ok_bind]; clear e
    rw [toNat_B] at vr
    obtain ⟨r2, e, vr2⟩ := addC_spec c (a := r) (b := un) (by omega)
    simp only [e, ok_bind, pure_eq_ok]; clear e
    congr 1
    rw [decide_eq_decide, BitVec.lt_def, vl, vr2, vr]
    omega

/-- Correction loop: `U` is the current two-digit dividend prefix, `v = vn1 * 2^64 + vn0` the
normalised divisor. -/
theorem corrLoop_spec {vn1 vn0 un : U128} {U : Nat}
    (h1 : 2 ^ 63 ≤ vn1.toNat) (h1' : vn1.toNat < 2 ^ 64) (h0 : vn0.toNat < 2 ^ 64)
    (hu : un.toNat < 2 ^ 64) (hU : U < vn1.toNat * 2 ^ 64 + vn0.toNat) :
    ∀ (fuel : Nat) (q rhat : U128), rhat.toNat < 2 ^ 64 → q.toNat ≤ 2 ^ 64 + 1 →
      q.toNat * vn1.toNat + rhat.toNat = U →
      (U * 2 ^ 64 + un.toNat) / (vn1.toNat * 2 ^ 64 + vn0.toNat) ≤ q.toNat →
      2 ^ 64 + vn1.toNat ≤ rhat.toNat + fuel * vn1.toNat →
      ∃ r, corrLoop c vn1 vn0 un fuel q rhat = .ok r ∧
        r.toNat = (U * 2 ^ 64 + un.toNat) / (vn1.toNat * 2 ^ 64 + vn0.toNat) := by
  intro fuel
  induction fuel with
  | zero => intro q rhat hr _ _ _ hf; omega
  | succ fuel ih =>
    intro q rhat hr hq hinv hQ hf
    unfold corrLoop
    rw [corrTest_spec c hr h0 hu, ok_bind]
    have hVpos : 0 < vn1.toNat * 2 ^ 64 + vn0.toNat := by omega
    generalize hQd : (U * 2 ^ 64 + un.toNat) / (vn1.toNat * 2 ^ 64 + vn0.toNat) = Q at *
    have hQB : Q < 2 ^ 64 := by
      rw [← hQd]; apply Nat.div_lt_of_lt_mul
      omega
    have hqV : q.toNat * (vn1.toNat * 2 ^ 64 + vn0.toNat)
        = q.toNat * vn1.toNat * 2 ^ 64 + q.toNat * vn0.toNat := by ring
    split
    · rename_i ht
      rw [decide_eq_true_eq] at ht
      -- the test is true: q is too large
      have hgt : Q < q.toNat := by
        rcases ht with ht | ht
        · omega
        · rw [← hQd]; apply Nat.div_lt_of_lt_mul
          rw [Nat.mul_comm _ q.toNat, hqV]; omega
      obtain ⟨q', e, vq⟩ := subC_spec c (a := q) (b := 1) (by simp; omega)
      simp only [e, ok_bind]; clear e
      rw [show (1 : U128).toNat = 1 from rfl] at vq
      obtain ⟨r', e, vr⟩ := addC_spec c (a := rhat) (b := vn1) (by omega)
      simp only [e, ok_bind]; clear e
      have hinv' : q'.toNat * vn1.toNat + r'.toNat = U := by
        have : q.toNat * vn1.toNat = q'.toNat * vn1.toNat + vn1.toNat := by
          have : q.toNat = q'.toNat + 1 := by omega
          rw [this]; ring
        omega
      split
      · rename_i hB
        have hB : 2 ^ 64 ≤ r'.toNat := by rw [← toNat_B]; exact BitVec.le_def.1 hB
        refine ⟨q', rfl, ?_⟩
        apply Nat.le_antisymm ?_ (by omega)
        rw [← hQd, Nat.le_div_iff_mul_le hVpos]
        have e1 : q'.toNat * (vn1.toNat * 2 ^ 64 + vn0.toNat)
          = q'.toNat * vn1.toNat * 2 ^ 64 + q'.toNat * vn0.toNat := by ring
        have e2 : q'.toNat * vn0.toNat ≤ 2 ^ 64 * vn0.toNat := Nat.mul_le_mul_right _ (by omega)
        omega
      · rename_i hB
        have hB : ¬ 2 ^ 64 ≤ r'.toNat := by rw [← toNat_B]; exact fun h => hB (BitVec.le_def.2 h)
        apply ih q' r' (by omega) (by omega) hinv' (by omega)
        have : (fuel + 1) * vn1.toNat = fuel * vn1.toNat + vn1.toNat := by ring
        omega
    · rename_i ht
      rw [decide_eq_true_eq] at ht
      refine ⟨q, rfl, ?_⟩
      apply Nat.le_antisymm ?_ hQ
      rw [← hQd, Nat.le_div_iff_mul_le hVpos, hqV]
      omega

theorem quotDigit_spec {un un' vn1 vn0 : U128}
    (h1 : 2 ^ 63 ≤ vn1.toNat) (h1' : vn1.toNat < 2 ^ 64) (h0 : vn0.toNat < 2 ^ 64)
    (hu : un'.toNat < 2 ^ 64) (hU : un.toNat < vn1.toNat * 2 ^ 64 + vn0.toNat) :
    ∃ r, quotDigit c un un' vn1 vn0 = .ok r ∧
      r.toNat = (un.toNat * 2 ^ 64 + un'.toNat) / (vn1.toNat * 2 ^ 64 + vn0.toNat) := by
  unfold quotDigit
  have hq : (un / vn1).toNat = un.toNat / vn1.toNat := BitVec.toNat_udiv
  have hun := un.isLt
  have hdm := Nat.div_add_mod un.toNat vn1.toNat
  have hml := Nat.mod_lt un.toNat (show 0 < vn1.toNat by omega)
  have hcomm : un.toNat / vn1.toNat * vn1.toNat = vn1.toNat * (un.toNat / vn1.toNat) := Nat.mul_comm _ _
  obtain ⟨p, e, vp⟩ := mulC_spec c (a := un / vn1) (b := vn1) (by rw [hq]; omega)
  simp only [e, ok_bind]; clear e
  rw [hq] at vp
  obtain ⟨r, e, vr⟩ := subC_spec c (a := un) (b := p) (by omega)
  simp only [e, ok_bind]; clear e
  apply corrLoop_spec c h1 h1' h0 hu hU
  · omega
  · rw [hq]
    have : un.toNat / vn1.toNat < 2 ^ 64 + 2 := by
      rw [Nat.div_lt_iff_lt_mul (by omega), Nat.add_mul]
      omega
    omega
  · rw [hq]; omega
  · rw [hq]
    rw [Nat.le_div_iff_mul_le (by omega)]
    have hVpos : 0 < vn1.toNat * 2 ^ 64 + vn0.toNat := by omega
    have hd := Nat.div_mul_le_self (un.toNat * 2 ^ 64 + un'.toNat) (vn1.toNat * 2 ^ 64 + vn0.toNat)
    generalize (un.toNat * 2 ^ 64 + un'.toNat) / (vn1.toNat * 2 ^ 64 + vn0.toNat) = Q at *
    have : Q * (vn1.toNat * 2 ^ 64 + vn0.toNat) = Q * vn1.toNat * 2 ^ 64 + Q * vn0.toNat := by ring
    omega
  · omega

/-- Wrapping computation of a remainder that fits. -/
theorem wrap_rem {U u' q v : U128} (hv : 0 < v.toNat)
    (hq : q.toNat = (U.toNat * 2 ^ 64 + u'.toNat) / v.toNat) :
    (U * B + u' - q * v).toNat = (U.toNat * 2 ^ 64 + u'.toNat) % v.toNat := by
  have hdm := Nat.div_add_mod (U.toNat * 2 ^ 64 + u'.toNat) v.toNat
  have hml := Nat.mod_lt (U.toNat * 2 ^ 64 + u'.toNat) hv
  have hvl := v.isLt
  rw [← hq] at hdm
  rw [BitVec.toNat_sub, BitVec.toNat_add, BitVec.toNat_mul, BitVec.toNat_mul, toNat_B]
  rw [Nat.mul_comm v.toNat] at hdm
  clear hq
  obtain ⟨R, hR⟩ : ∃ R, R = (U.toNat * 2 ^ 64 + u'.toNat) % v.toNat := ⟨_, rfl⟩
  rw [← hR] at hml hdm ⊢
  clear hR
  generalize q.toNat * v.toNat = X at *
  omega

theorem normalize_spec {u1 u0 v : U128} (h : u1.toNat < v.toNat) :
    ∃ v' U1 U0 : U128, normalize c u1 u0 v (u32 (leadingZeros v)) = .ok (v', U1, U0) ∧
      v'.toNat = v.toNat * 2 ^ leadingZeros v ∧ 2 ^ 127 ≤ v'.toNat ∧
      U1.toNat * 2 ^ 128 + U0.toNat = (u1.toNat * 2 ^ 128 + u0.toNat) * 2 ^ leadingZeros v ∧
      U1.toNat < v'.toNat := by
  have hv0 : v.toNat ≠ 0 := by omega
  have hlz := leadingZeros_lt hv0
  have hlo := le_toNat_leadingZeros hv0
  have hhi := toNat_lt_leadingZeros v
  have hu32 : (u32 (leadingZeros v)).toNat = leadingZeros v := toNat_u32 (by omega)
  have hu0 := u0.isLt
  generalize hs : leadingZeros v = s at *
  have hPQ := pow_split (b := s) (by omega)
  have hPp : 0 < 2 ^ s := Nat.two_pow_pos s
  -- v * 2^s fits in a word and has its top bit set
  have hvs : v.toNat * 2 ^ s < 2 ^ 128 := by
    rw [← hPQ, Nat.mul_comm]; exact Nat.mul_lt_mul_of_pos_left hhi hPp
  have hvt : 2 ^ 127 ≤ v.toNat * 2 ^ s := by
    have : 2 ^ 127 = 2 ^ (128 - 1 - s) * 2 ^ s := by rw [← Nat.pow_add]; congr 1; omega
    rw [this]; exact Nat.mul_le_mul_right _ hlo
  have hbig : (u1.toNat * 2 ^ 128 + u0.toNat) * 2 ^ s < v.toNat * 2 ^ s * 2 ^ 128 := by
    have : (u1.toNat * 2 ^ 128 + u0.toNat) < v.toNat * 2 ^ 128 := by omega
    calc (u1.toNat * 2 ^ 128 + u0.toNat) * 2 ^ s < v.toNat * 2 ^ 128 * 2 ^ s :=
          Nat.mul_lt_mul_of_pos_right this hPp
      _ = _ := by ring
  unfold normalize
  by_cases h0 : s = 0
  · subst h0
    rw [if_neg (by rw [gt_iff_lt, BitVec.lt_def, hu32]; simp)]
    exact ⟨v, u1, u0, rfl, by simp, by simpa using hvt, by simp, h⟩
  · rw [if_pos (by rw [gt_iff_lt, BitVec.lt_def, hu32]; simp; omega)]
    have hsv : (v <<< s).toNat = v.toNat * 2 ^ s := by rw [toNat_shl, Nat.mod_eq_of_lt hvs]
    rw [shl_nz_ok c (by omega) (by rw [hu32, hsv]; omega), ok_bind, shlC_ok c (by omega), ok_bind]
    obtain ⟨k, e, vk⟩ := subC_128 c (b := u32 s) (by omega)
    simp only [e, ok_bind]; clear e
    rw [shrC_ok c (by omega), ok_bind, shlC_ok c (by omega), ok_bind, hu32, vk, hu32]
    have hval : ((u1 <<< s) ||| (u0 >>> (128 - s))).toNat * 2 ^ 128 + (u0 <<< s).toNat
        = (u1.toNat * 2 ^ 128 + u0.toNat) * 2 ^ s := by
      rw [BitVec.toNat_or, toNat_shl, toNat_shr, toNat_shl, shl_value (by omega) _ _ hu0,
        Nat.mod_eq_of_lt]
      have : v.toNat * 2 ^ s * 2 ^ 128 < 2 ^ 128 * 2 ^ 128 := Nat.mul_lt_mul_of_pos_right hvs (by norm_num)
      omega
    refine ⟨_, _, _, rfl, hsv, by rw [hsv]; exact hvt, hval, ?_⟩
    rw [hsv]
    by_contra hc
    have : v.toNat * 2 ^ s * 2 ^ 128 ≤ ((u1 <<< s) ||| (u0 >>> (128 - s))).toNat * 2 ^ 128 :=
      Nat.mul_le_mul_right _ (by omega)
    omega

/-- The division step is exact. -/
theorem udiv256_by_128_to_128_spec {u1 u0 v : U128} (h : u1.toNat < v.toNat) :
    ∃ q r, udiv256_by_128_to_128 c u1 u0 v = .ok (q, r) ∧
      q.toNat = (u1.toNat * 2 ^ 128 + u0.toNat) / v.toNat ∧
      r.toNat = (u1.toNat * 2 ^ 128 + u0.toNat) % v.toNat := by
  have hv0 : v.toNat ≠ 0 := by omega
  have hlz := leadingZeros_lt hv0
  have hu32 : (u32 (leadingZeros v)).toNat = leadingZeros v := toNat_u32 (by omega)
  obtain ⟨v', U1, U0, en, hv', hv'127, hU, hU1⟩ := normalize_spec c (u0 := u0) h
  unfold udiv256_by_128_to_128
  rw [debugAssert_ok c (by simpa [BitVec.lt_def] using h), ok_bind]
  simp only []
  rw [debugAssert_ok c (by
    simp only [decide_eq_true_eq]; intro hc
    have := congrArg BitVec.toNat hc
    rw [hu32] at this; simp at this; omega), ok_bind, en, ok_bind]
  simp only []
  have hv'l := v'.isLt
  have hvn1 : (v' >>> 64).toNat = v'.toNat / 2 ^ 64 := toNat_shr64 v'
  rw [shr_nz_ok c (n := 64) (by simp) (by rw [show BitVec.toNat (64 : U32) = 64 from rfl, hvn1]; omega), ok_bind]
  rw [show BitVec.toNat (64 : U32) = 64 from rfl]
  have hvn0 := toNat_and_MASK64 v'
  have hun1 : (U0 >>> 64).toNat = U0.toNat / 2 ^ 64 := toNat_shr64 U0
  have hun0 := toNat_and_MASK64 U0
  have hU0l := U0.isLt
  generalize v' >>> 64 = vn1 at *
  generalize v' &&& MASK64 = vn0 at *
  generalize U0 >>> 64 = un1 at *
  generalize U0 &&& MASK64 = un0 at *
  have hVeq : vn1.toNat * 2 ^ 64 + vn0.toNat = v'.toNat := by
    rw [hvn1, hvn0]; clear * -; omega
  obtain ⟨q1, e, vq1⟩ := quotDigit_spec c (un := U1) (un' := un1) (vn1 := vn1) (vn0 := vn0)
    (by omega) (by omega) (by omega) (by omega) (by omega)
  rw [e, ok_bind]; clear e
  rw [hVeq] at vq1
  have hw := wrap_rem (v := v') (by omega) vq1
  generalize U1 * B + un1 - q1 * v' = un21 at *
  have hml := Nat.mod_lt (U1.toNat * 2 ^ 64 + un1.toNat) (show 0 < v'.toNat by omega)
  obtain ⟨q0, e, vq0⟩ := quotDigit_spec c (un := un21) (un' := un0) (vn1 := vn1) (vn0 := vn0)
    (by omega) (by omega) (by omega) (by omega) (by omega)
  rw [e, ok_bind]; clear e
  rw [hVeq] at vq0
  have hw2 := wrap_rem (v := v') (by omega) vq0
  generalize un21 * B + un0 - q0 * v' = r' at *
  have hml2 := Nat.mod_lt (un21.toNat * 2 ^ 64 + un0.toNat) (show 0 < v'.toNat by omega)
  rw [shrC_ok c (by omega), ok_bind]
  have hq1B : q1.toNat < 2 ^ 64 := by rw [vq1]; apply Nat.div_lt_of_lt_mul; omega
  have hq0B : q0.toNat < 2 ^ 64 := by rw [vq0]; apply Nat.div_lt_of_lt_mul; omega
  obtain ⟨p, e, vp⟩ := mulC_spec c (a := q1) (b := B) (by rw [toNat_B]; omega)
  simp only [e, ok_bind]; clear e
  rw [toNat_B] at vp
  obtain ⟨q, e, vq⟩ := addC_spec c (a := p) (b := q0) (by omega)
  simp only [e, ok_bind, pure_eq_ok]; clear e
  refine ⟨_, _, rfl, ?_⟩
  -- algebra
  have d1 := Nat.div_add_mod (U1.toNat * 2 ^ 64 + un1.toNat) v'.toNat
  have d2 := Nat.div_add_mod (un21.toNat * 2 ^ 64 + un0.toNat) v'.toNat
  rw [← vq1, ← hw] at d1
  rw [← vq0, ← hw2] at d2
  have key : v'.toNat * q.toNat + r'.toNat
      = (u1.toNat * 2 ^ 128 + u0.toNat) * 2 ^ leadingZeros v := by
    rw [← hU]
    have e1 : v'.toNat * q.toNat = v'.toNat * q1.toNat * 2 ^ 64 + v'.toNat * q0.toNat := by
      rw [vq, vp]; ring
    omega
  rw [toNat_shr, hu32]
  generalize hs : leadingZeros v = s at *
  have hPp : 0 < 2 ^ s := Nat.two_pow_pos s
  rw [← hw2] at hml2
  rw [hv'] at key hml2
  obtain ⟨N, hN⟩ : ∃ N, N = u1.toNat * 2 ^ 128 + u0.toNat := ⟨_, rfl⟩
  rw [← hN] at key ⊢
  clear hN
  have hle : v.toNat * q.toNat ≤ N := by
    apply Nat.le_of_mul_le_mul_right (c := 2 ^ s) _ hPp
    rw [← key]
    have : v.toNat * 2 ^ s * q.toNat = v.toNat * q.toNat * 2 ^ s := by ring
    omega
  have hr' : r'.toNat = (N - v.toNat * q.toNat) * 2 ^ s := by
    rw [Nat.sub_mul, ← key]
    have : v.toNat * 2 ^ s * q.toNat = v.toNat * q.toNat * 2 ^ s := by ring
    omega
  have hlt : N - v.toNat * q.toNat < v.toNat := by
    apply Nat.lt_of_mul_lt_mul_right (a := 2 ^ s)
    rw [← hr']; exact hml2
  rw [hr', Nat.mul_div_cancel _ hPp]
  have hN : N = v.toNat * q.toNat + (N - v.toNat * q.toNat) := by omega
  constructor
  · conv_rhs => rw [hN]
    rw [Nat.mul_add_div (by omega), Nat.div_eq_of_lt hlt]; rfl
  · conv_rhs => rw [hN]
    rw [Nat.mul_add_mod, Nat.mod_eq_of_lt hlt]

end Intr
end Ethnum
