import Verif.Props.FloatBack
import Verif.Props.FloatNearest

/-
C35: the conversions that round more than once return the nearest float whenever one float is clearly nearer than all others.
-/

namespace Ethnum
open FloatTy

/-! ### Lemmas -/

private theorem rn_half {p : ℕ} (hp : 2 ≤ p) {z e : ℕ} (h : z < 2 ^ p * 2 ^ e) : 2 * |(rn p z : ℤ) - z| ≤ (2 ^ e : ℕ) := by
  have hq : z / 2 ^ e < 2 ^ p := (Nat.div_lt_iff_lt_mul (Nat.two_pow_pos e)).2 h
  have n1 := (rn_nearest hp z (rep_of hp (m := z / 2 ^ e) e hq.le)).1
  have n2 := (rn_nearest hp z (rep_of hp (m := z / 2 ^ e + 1) e hq)).1
  have hd := Nat.div_add_mod' z (2 ^ e)
  have hm := Nat.mod_lt z (Nat.two_pow_pos e)
  have hs : (z / 2 ^ e + 1) * 2 ^ e = z / 2 ^ e * 2 ^ e + 2 ^ e := by ring
  rw [hs] at n2
  have e1 : |((z / 2 ^ e * 2 ^ e : ℕ) : ℤ) - z| = (z % 2 ^ e : ℕ) := by rw [abs_of_nonpos (by omega)]; omega
  have e2 : |((z / 2 ^ e * 2 ^ e + 2 ^ e : ℕ) : ℤ) - z| = (2 ^ e - z % 2 ^ e : ℕ) := by rw [abs_of_nonneg (by omega)]; omega
  rw [e1] at n1
  rw [e2] at n2
  omega

/-- Rounding a number `y` near `z` gives the float nearest to `z` if that is nearer than all others by twice the distance. -/
private theorem near_enough {p z y : ℕ} (hp : 2 ≤ p) {d : ℤ} (hy : 2 * |(y : ℤ) - z| ≤ d)
    (hc : rn p y ≠ rn p z → |(rn p z : ℤ) - z| + d < |(rn p y : ℤ) - z|) : rn p y = rn p z := by
  by_contra hne
  have h1 := hc hne
  have h2 := (rn_nearest hp y (rn_rep hp z)).1
  have h3 : |(rn p y : ℤ) - z| ≤ |(rn p y : ℤ) - y| + |(y : ℤ) - z| := abs_sub_le _ _ _
  have h4 : |(rn p z : ℤ) - y| ≤ |(rn p z : ℤ) - z| + |(z : ℤ) - y| := abs_sub_le _ _ _
  rw [abs_sub_comm (z : ℤ) y] at h4
  omega

private theorem scale (a b k : ℕ) : |((a * 2 ^ k : ℕ) : ℤ) - (b * 2 ^ k : ℕ)| = |(a : ℤ) - b| * 2 ^ k := by
  rw [Nat.cast_mul, Nat.cast_mul, ← sub_mul, abs_mul, Nat.cast_pow, abs_of_pos (show (0 : ℤ) < ((2 : ℕ) : ℤ) ^ k by positivity)]; rfl

/-- The two steps of `as_f64` -/
private theorem clear {z : ℕ} (hz : z < 2 ^ 256)
    (hc : ∀ g, Rep 53 g → g ≤ 2 ^ 256 → g ≠ rn 53 z → |(rn 53 z : ℤ) - z| + (if z < 2 ^ 181 then 2 ^ 75 else 2 ^ 129) < |(g : ℤ) - z|) :
    twoStep 53 128 (z / 2 ^ 128) (z % 2 ^ 128) = rn 53 z := by
  have hp : 2 ≤ 53 := by omega
  have hd := Nat.div_add_mod' z (2 ^ 128)
  have hm := Nat.mod_lt z (Nat.two_pow_pos 128)
  have hR : twoStep 53 128 (z / 2 ^ 128) (z % 2 ^ 128) ≤ 2 ^ 256 := twoStep_le hp hm (rep_pow hp 256) (by omega)
  have hl := rn_half (p := 53) hp (z := z % 2 ^ 128) (e := 75) (by omega)
  split at hc
  · next h =>
    have hr : rn 53 (z / 2 ^ 128) = z / 2 ^ 128 := rn_fix hp (rep_of_le hp (by omega))
    unfold twoStep at hR ⊢
    rw [hr] at hR ⊢
    refine near_enough hp (d := 2 ^ 75) ?_ fun hne => hc _ (rn_rep hp _) hR hne
    have e : ((z / 2 ^ 128 * 2 ^ 128 + rn 53 (z % 2 ^ 128) : ℕ) : ℤ) - z = (rn 53 (z % 2 ^ 128) : ℤ) - (z % 2 ^ 128 : ℕ) := by omega
    rw [e]; exact hl
  · next h =>
    by_contra hne
    have h1 := hc (twoStep 53 128 (z / 2 ^ 128) (z % 2 ^ 128)) (rn_rep hp _) hR hne
    have hlo : rn 53 (z % 2 ^ 128) ≤ 2 ^ 128 := rn_le hp (rep_pow hp 128) hm.le
    have h2 := (rn_nearest hp (rn 53 (z / 2 ^ 128) * 2 ^ 128 + rn 53 (z % 2 ^ 128)) (rn_rep hp z)).1
    change |(twoStep 53 128 (z / 2 ^ 128) (z % 2 ^ 128) : ℤ) - _| ≤ _ at h2
    generalize twoStep 53 128 (z / 2 ^ 128) (z % 2 ^ 128) = R at h1 h2 hne hR
    have hf : 2 ^ 181 ≤ rn 53 z := le_rn hp (rep_pow hp 181) (by omega)
    obtain ⟨g, hg, eg⟩ := rep_big (p := 53) hp (k := 127) (rn_rep hp z) (by omega)
    have hh : Rep 53 (rn 53 (z / 2 ^ 128) * 2 ^ 128) := rep_mul_pow hp (rn_rep hp _) 128
    have hhl : rn 53 (z / 2 ^ 128) ≤ 2 ^ 128 := rn_le hp (rep_pow hp 128) (by omega)
    have hn := (rn_nearest hp (z / 2 ^ 128) hg).1
    have hc' := hc _ hh (by omega)
    generalize rn 53 (z / 2 ^ 128) = h at *
    generalize rn 53 (z % 2 ^ 128) = l at *
    generalize rn 53 z = f at *
    by_cases hfe : h * 2 ^ 128 = f
    · have a1 : |(R : ℤ) - z| ≤ |(R : ℤ) - (h * 2 ^ 128 + l : ℕ)| + |((h * 2 ^ 128 + l : ℕ) : ℤ) - z| := abs_sub_le _ _ _
      have a2 : |((h * 2 ^ 128 + l : ℕ) : ℤ) - z| ≤ |((h * 2 ^ 128 + l : ℕ) : ℤ) - f| + |(f : ℤ) - z| := abs_sub_le _ _ _
      have a3 : |((h * 2 ^ 128 + l : ℕ) : ℤ) - f| = l := by rw [abs_of_nonneg (by omega)]; omega
      rw [abs_sub_comm (f : ℤ), a3] at h2
      rw [a3] at a2
      have : (l : ℤ) ≤ 2 ^ 128 := by exact_mod_cast hlo
      linarith
    · have h3 := hc' hfe
      rw [show 127 + 1 = 128 from rfl] at eg
      have a0 : |((z / 2 ^ 128 * 2 ^ 128 : ℕ) : ℤ) - z| = (z % 2 ^ 128 : ℕ) := by rw [abs_of_nonpos (by omega)]; omega
      have a1 : |((h * 2 ^ 128 : ℕ) : ℤ) - z| ≤ |((h * 2 ^ 128 : ℕ) : ℤ) - (z / 2 ^ 128 * 2 ^ 128 : ℕ)| + |((z / 2 ^ 128 * 2 ^ 128 : ℕ) : ℤ) - z| :=
        abs_sub_le _ _ _
      have a2 : |(f : ℤ) - (z / 2 ^ 128 * 2 ^ 128 : ℕ)| ≤ |(f : ℤ) - z| + |(z : ℤ) - (z / 2 ^ 128 * 2 ^ 128 : ℕ)| := abs_sub_le _ _ _
      have a3 : |((h * 2 ^ 128 : ℕ) : ℤ) - (z / 2 ^ 128 * 2 ^ 128 : ℕ)| = |(h : ℤ) - (z / 2 ^ 128 : ℕ)| * 2 ^ 128 := scale _ _ _
      have a4 : |(f : ℤ) - (z / 2 ^ 128 * 2 ^ 128 : ℕ)| = |(g : ℤ) - (z / 2 ^ 128 : ℕ)| * 2 ^ 128 := by rw [eg]; exact scale _ _ _
      rw [abs_sub_comm (z : ℤ), a0] at a2
      rw [a0, a3] at a1
      rw [a4] at a2
      have : ((z % 2 ^ 128 : ℕ) : ℤ) < 2 ^ 128 := by exact_mod_cast hm
      linarith

private theorem cast_abs_sub (a b : ℕ) : |(a : ℚ) - (b : ℕ)| = ((|(a : ℤ) - b| : ℤ) : ℚ) := by push_cast; rfl

/-- What a clear winner among the floats says about integers -/
private theorem winner {t : FloatTy} {p : ℕ} (ht : t.p = p) {s : ℤ} {d : ℚ} (hs : t.Fits s.natAbs)
    (h : ∃ r : t.Val, t.isFinite r = true ∧ ∀ y : t.Val, t.isFinite y = true → t.val y ≠ t.val r → |t.val r - s| + d < |t.val y - s|)
    (hd : 0 ≤ d) (g : ℕ) (hg : Rep p g) (hf : t.Fits g) (hne : g ≠ rn p s.natAbs) :
    |(rn p s.natAbs : ℚ) - (s.natAbs : ℕ)| + d < |(g : ℚ) - (s.natAbs : ℕ)| := by
  subst ht
  obtain ⟨r, hr, hc⟩ := h
  have hp := two_le_p t
  have hF := nearest_signed s hs
  have e1 : t.val (t.flt (decide (s < 0)) s.natAbs) = t.val r := by
    by_contra hne
    have := hc _ hF.1 hne
    have := (hF.2 r hr).1
    linarith
  have v1 := val_flt hs (decide (s < 0))
  have v2 := val_flt hf (decide (s < 0))
  rw [rn_fix hp hg] at v2
  have hy := hc _ (isFinite_flt hf (decide (s < 0)))
  rw [v2, ← e1, v1] at hy
  by_cases hz : s < 0
  · rw [decide_eq_true hz, if_pos rfl, if_pos rfl] at hy
    have e : (s : ℚ) = -((s.natAbs : ℕ) : ℚ) := by
      have : s = -(s.natAbs : ℤ) := by omega
      rw [this]; push_cast; simp
    rw [e] at hy
    have := hy (fun h => hne (by exact_mod_cast neg_injective h))
    rw [show -(rn t.p s.natAbs : ℚ) - -(s.natAbs : ℕ) = -((rn t.p s.natAbs : ℚ) - (s.natAbs : ℕ)) by ring, abs_neg,
      show -(g : ℚ) - -(s.natAbs : ℕ) = -((g : ℚ) - (s.natAbs : ℕ)) by ring, abs_neg] at this
    exact this
  · rw [decide_eq_false hz, if_neg (by simp), if_neg (by simp)] at hy
    have e : (s : ℚ) = ((s.natAbs : ℕ) : ℚ) := by
      have : s = (s.natAbs : ℤ) := by omega
      rw [this]; simp
    rw [e] at hy
    exact hy (fun h => hne (by exact_mod_cast h))

/-- To be nearer than all others is to be nearer than the two neighbours (in units of the last place of the smallest float). -/
private theorem clear_of_neighbours (t : FloatTy) (m z d : ℕ) (h0 : 0 < m) (h1 : m + 1 < t.infBits)
    (hl : |(magUnits t.p m : ℤ) - z * 2 ^ t.K| + d * 2 ^ t.K < z * 2 ^ t.K - magUnits t.p (m - 1))
    (hr : |(magUnits t.p m : ℤ) - z * 2 ^ t.K| + d * 2 ^ t.K < magUnits t.p (m + 1) - z * 2 ^ t.K) :
    ∃ r : t.Val, t.isFinite r = true ∧ ∀ y : t.Val, t.isFinite y = true → t.val y ≠ t.val r → |t.val r - z| + d < |t.val y - z| := by
  have hp := two_le_p t
  have hb : m < 2 ^ (t.bits - 1) := by have := infBits_lt t; omega
  have hK : (0 : ℚ) < 2 ^ t.K := by positivity
  have vr : t.val (t.make false m) = (magUnits t.p m : ℚ) / 2 ^ t.K := by rw [val_make t false hb, if_neg (by simp)]
  refine ⟨t.make false m, by rw [isFinite_iff, mag_make t false hb]; omega, fun y _ hne => ?_⟩
  have ql := (Int.cast_lt (R := ℚ)).2 hl
  have qr := (Int.cast_lt (R := ℚ)).2 hr
  rw [Int.cast_add, Int.cast_abs, Int.cast_sub] at ql qr
  rw [vr] at hne ⊢
  have e : |(magUnits t.p m : ℚ) / 2 ^ t.K - z| = |(magUnits t.p m : ℚ) - z * 2 ^ t.K| / 2 ^ t.K := by
    rw [← abs_of_pos hK, ← abs_div, abs_of_pos hK]; congr 1; field_simp
  rw [e]
  have push : ∀ a : ℚ, |(magUnits t.p m : ℚ) - z * 2 ^ t.K| + d * 2 ^ t.K < a * 2 ^ t.K →
      |(magUnits t.p m : ℚ) - z * 2 ^ t.K| / 2 ^ t.K + d < a := by
    intro a ha
    rw [← mul_lt_mul_iff_left₀ hK, add_mul, div_mul_cancel₀ _ hK.ne']
    exact ha
  have low : t.val y ≤ (magUnits t.p (m - 1) : ℚ) / 2 ^ t.K → |(magUnits t.p m : ℚ) - z * 2 ^ t.K| / 2 ^ t.K + d < |t.val y - z| := by
    intro hy
    refine lt_of_lt_of_le (push (z - (magUnits t.p (m - 1) : ℚ) / 2 ^ t.K) ?_) (le_trans (by linarith) (neg_le_abs _))
    rw [sub_mul, div_mul_cancel₀ _ hK.ne']; push_cast at ql; exact ql
  rw [val_eq t y] at hne
  by_cases hn : t.neg y = true
  · refine low ?_
    have a1 : (0 : ℚ) ≤ (magUnits t.p (t.mag y) : ℚ) / 2 ^ t.K := by positivity
    have a2 : (0 : ℚ) ≤ (magUnits t.p (m - 1) : ℚ) / 2 ^ t.K := by positivity
    rw [val_eq t y, if_pos hn]; linarith
  · rw [if_neg hn] at hne
    rcases Nat.lt_or_ge (t.mag y) m with h | h
    · refine low ?_
      rw [val_eq t y, if_neg hn]
      refine div_le_div_of_nonneg_right ?_ hK.le
      exact_mod_cast (magUnits_le_iff hp).2 (show t.mag y ≤ m - 1 by omega)
    · have hm : m + 1 ≤ t.mag y := by
        rcases Nat.eq_or_lt_of_le h with h | h
        · exact absurd (by rw [h]) hne
        · exact h
      have hv : (magUnits t.p (m + 1) : ℚ) / 2 ^ t.K ≤ t.val y := by
        rw [val_eq t y, if_neg hn]
        refine div_le_div_of_nonneg_right ?_ hK.le
        exact_mod_cast (magUnits_le_iff hp).2 hm
      refine lt_of_lt_of_le (push ((magUnits t.p (m + 1) : ℚ) / 2 ^ t.K - z) ?_) (le_trans (by linarith) (le_abs_self _))
      rw [sub_mul, div_mul_cancel₀ _ hK.ne']; push_cast at qr; exact qr

/-! ### The property -/

/-- C35: `as_f64` returns the nearest float for every value that has one float which is nearer than all others by more than `2^75` (for
values below `2^181`), or `2^129` (for all). Floats are `2^76` apart at `2^128`, `2^129` at `2^181`, and `2^203` below `2^256`. -/
theorem C35_as_f64_clear (c : Cfg) (x : U256) (s : I256) :
    ((∃ r : f64.Val, f64.isFinite r = true ∧ ∀ y : f64.Val, f64.isFinite y = true → f64.val y ≠ f64.val r →
        |f64.val r - x.toNat c| + (if x.toNat c < 2 ^ 181 then 2 ^ 75 else 2 ^ 129) < |f64.val y - x.toNat c|)
      → f64.NearestEven (x.toNat c) (x.as_f64 c))
    ∧ ((∃ r : f64.Val, f64.isFinite r = true ∧ ∀ y : f64.Val, f64.isFinite y = true → f64.val y ≠ f64.val r →
        |f64.val r - s.toInt c| + (if (s.toInt c).natAbs < 2 ^ 181 then 2 ^ 75 else 2 ^ 129) < |f64.val y - s.toInt c|)
      → f64.NearestEven (s.toInt c) (s.as_f64 c)) := by
  have key : ∀ z : ℤ, z.natAbs < 2 ^ 256 → (∃ r : f64.Val, f64.isFinite r = true ∧ ∀ y : f64.Val, f64.isFinite y = true → f64.val y ≠ f64.val r →
        |f64.val r - z| + (if z.natAbs < 2 ^ 181 then 2 ^ 75 else 2 ^ 129) < |f64.val y - z|)
      → f64.NearestEven z (f64.flt (decide (z < 0)) (twoStep 53 128 (z.natAbs / 2 ^ 128) (z.natAbs % 2 ^ 128))) := by
    intro z hz h
    have hw := winner (t := f64) (p := 53) rfl (fits_f64 (by omega)) h (by split <;> positivity)
    rw [clear hz, show (53 : ℕ) = f64.p from rfl, flt_rn]
    · exact nearest_signed z (fits_f64 (by omega))
    · intro g hg hgl hne
      have := hw g hg (fits_f64 (by omega)) hne
      have e : (if z.natAbs < 2 ^ 181 then (2 : ℚ) ^ 75 else 2 ^ 129) = (((if z.natAbs < 2 ^ 181 then 2 ^ 75 else 2 ^ 129 : ℤ)) : ℚ) := by
        split <;> norm_num
      rw [e, cast_abs_sub, cast_abs_sub, ← Int.cast_add, Int.cast_lt] at this
      exact this
  refine ⟨fun h => ?_, fun h => ?_⟩
  · rw [U256.as_f64_eq]
    have := key (x.toNat c : ℕ) (by have := x.toNat_lt c; omega) (by simpa using h)
    rw [decide_eq_false (by omega)] at this
    simpa using this
  · rw [I256.as_f64_eq]
    exact key _ (by have := I256.le_toInt c s; have := I256.toInt_lt c s; omega) h

-- two values whose low halves are no floats, and neither is the high half of the second; `C35_as_f64_nearest` says nothing of them
example : f64.NearestEven ((2 ^ 140 + 2 ^ 86 + 1 : ℕ) : ℕ) ((U256.ofNat dbg (2 ^ 140 + 2 ^ 86 + 1)).as_f64 dbg)
    ∧ f64.NearestEven (((2 ^ 60 + 1) * 2 ^ 128 + 2 ^ 127 + 1 : ℕ) : ℕ) ((U256.ofNat rel ((2 ^ 60 + 1) * 2 ^ 128 + 2 ^ 127 + 1)).as_f64 rel) := by
  have h1 := (C35_as_f64_clear dbg (U256.ofNat dbg (2 ^ 140 + 2 ^ 86 + 1)) I256.ZERO).1
  have h2 := (C35_as_f64_clear rel (U256.ofNat rel ((2 ^ 60 + 1) * 2 ^ 128 + 2 ^ 127 + 1)) I256.ZERO).1
  rw [U256.toNat_ofNat_of_lt _ (by norm_num)] at h1 h2
  rw [if_pos (by norm_num)] at h1
  rw [if_neg (by norm_num)] at h2
  refine ⟨h1 ?_, h2 ?_⟩
  · have := clear_of_neighbours f64 (f64.ofInt (2 ^ 140)).toNat (2 ^ 140 + 2 ^ 86 + 1) (2 ^ 75) (by decide +kernel) (by decide +kernel)
      (by decide +kernel) (by decide +kernel)
    simp only [show ((2 ^ 75 : ℕ) : ℚ) = 2 ^ 75 by norm_num] at this
    exact this
  · have := clear_of_neighbours f64 (f64.ofInt (2 ^ 188)).toNat ((2 ^ 60 + 1) * 2 ^ 128 + 2 ^ 127 + 1) (2 ^ 129) (by decide +kernel)
      (by decide +kernel) (by decide +kernel) (by decide +kernel)
    simp only [show ((2 ^ 129 : ℕ) : ℚ) = 2 ^ 129 by norm_num] at this
    exact this

/-- C35: `I256::as_f32` returns the nearest float for every value that has one float which is nearer than all others by more than one part in
`2^52` of the value. -/
theorem C35_i256_as_f32_clear (c : Cfg) (s : I256) (hs : (s.toInt c).natAbs < 2 ^ 128 - 2 ^ 103 - 2 ^ 74)
    (h : ∃ r : f32.Val, f32.isFinite r = true ∧ ∀ y : f32.Val, f32.isFinite y = true → f32.val y ≠ f32.val r →
        |f32.val r - s.toInt c| + |(s.toInt c : ℚ)| / 2 ^ 52 < |f32.val y - s.toInt c|) :
    f32.NearestEven (s.toInt c) (s.as_f32 c) := by
  have hfit : f32.Fits (s.toInt c).natAbs := (fits_f32 _).2 (by omega)
  have hw := winner (t := f32) (p := 24) rfl hfit h (by positivity)
  have hp : 2 ≤ 53 := by omega
  have e53 : twoStep 53 128 ((s.toInt c).natAbs / 2 ^ 128) ((s.toInt c).natAbs % 2 ^ 128) = rn 53 (s.toInt c).natAbs :=
    twoStep_eq_rn hp (Or.inl (by omega))
  have hle : rn 53 (s.toInt c).natAbs < 2 ^ 128 - 2 ^ 103 := by
    have := rn_half (p := 53) hp (z := (s.toInt c).natAbs) (e := 75) (by omega)
    have := le_abs_self ((rn 53 (s.toInt c).natAbs : ℤ) - (s.toInt c).natAbs)
    omega
  have hfit' : f32.Fits (rn 53 (s.toInt c).natAbs) := (fits_f32 _).2 hle
  have hfit2 : f32.Fits (rn 24 (rn 53 (s.toInt c).natAbs)) := by
    rw [show (24 : ℕ) = f32.p from rfl]; exact fits_rn.2 hfit'
  have he : rn 24 (rn 53 (s.toInt c).natAbs) = rn 24 (s.toInt c).natAbs := by
    have herr := rn_error (p := 53) hp (s.toInt c).natAbs
    refine near_enough (by omega) (d := 2 * |(rn 53 (s.toInt c).natAbs : ℤ) - (s.toInt c).natAbs|) le_rfl fun hne => ?_
    have := hw _ (rn_rep (p := 24) (by omega) (rn 53 (s.toInt c).natAbs)) hfit2 hne
    have hq : ((2 * |(rn 53 (s.toInt c).natAbs : ℤ) - (s.toInt c).natAbs| : ℤ) : ℚ) ≤ |(s.toInt c : ℚ)| / 2 ^ 52 := by
      rw [le_div_iff₀ (by positivity)]
      have e : |(s.toInt c : ℚ)| = (((s.toInt c).natAbs : ℤ) : ℚ) := by rw [Int.natCast_natAbs, Int.cast_abs]
      have := (Int.cast_le (R := ℚ)).2 herr
      rw [e]
      push_cast at this ⊢
      linarith
    rw [cast_abs_sub, cast_abs_sub] at this
    rw [← Int.cast_lt (R := ℚ), Int.cast_add]
    linarith
  unfold I256.as_f32
  rw [I256.as_f64_eq, e53, convert_flt _ (fits_f64 (by omega)), show f64.p = 53 from rfl, rn_fix hp (rn_rep hp _), make_roundMag hfit']
  have : f32.flt (decide (s.toInt c < 0)) (rn 53 (s.toInt c).natAbs) = f32.flt (decide (s.toInt c < 0)) (s.toInt c).natAbs := by
    rw [← flt_rn, ← flt_rn (n := (s.toInt c).natAbs), show f32.p = 24 from rfl, he]
  rw [this]
  exact nearest_signed _ hfit

-- `2^60 + 2^35 + 1` is no `f64`
example : f32.NearestEven ((2 ^ 60 + 2 ^ 35 + 1 : ℤ) : ℤ) ((I256.ofInt dbg (2 ^ 60 + 2 ^ 35 + 1)).as_f32 dbg) := by
  have e : (I256.ofInt dbg (2 ^ 60 + 2 ^ 35 + 1)).toInt dbg = 2 ^ 60 + 2 ^ 35 + 1 := by decide +kernel
  have h := C35_i256_as_f32_clear dbg (I256.ofInt dbg (2 ^ 60 + 2 ^ 35 + 1))
  rw [e] at h
  refine h (by decide) ?_
  obtain ⟨r, hr, hc⟩ := clear_of_neighbours f32 (f32.ofInt (2 ^ 60)).toNat (2 ^ 60 + 2 ^ 35 + 1) 257 (by decide +kernel) (by decide +kernel)
    (by decide +kernel) (by decide +kernel)
  refine ⟨r, hr, fun y hy hne => lt_of_le_of_lt ?_ (by simpa using hc y hy hne)⟩
  norm_num

end Ethnum
