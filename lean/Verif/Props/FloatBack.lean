import Verif.Props.FloatFmt
import Verif.Props.FloatFrom
import Mathlib.Data.Nat.Log

/-
C74 through a float and back: the conversions to and from `f32` and `f64`, one after the other.
-/

namespace Ethnum
open FloatTy

/-! ### Lemmas -/

/-- The magnitude of `as_f64`, as a function of the magnitude of the value -/
private def R (n : ℕ) : ℕ := twoStep 53 128 (n / 2 ^ 128) (n % 2 ^ 128)

private theorem R_rep (n : ℕ) : Rep 53 (R n) := rn_rep (by omega) _

private theorem R_fix {n : ℕ} (h : Rep 53 n) : R n = n := by
  have e := Nat.div_add_mod' n (2 ^ 128)
  have l := Nat.mod_lt n (Nat.two_pow_pos 128)
  exact le_antisymm (twoStep_le (by omega) l h (by omega)) (le_twoStep (by omega) l h (by omega))

private theorem R_le {n k : ℕ} (h : n ≤ 2 ^ k) : R n ≤ 2 ^ k := by
  have e := Nat.div_add_mod' n (2 ^ 128)
  have l := Nat.mod_lt n (Nat.two_pow_pos 128)
  exact twoStep_le (by omega) l (rep_pow (by omega) k) (by omega)

private theorem R_mono {n m : ℕ} (h : n ≤ m) : R n ≤ R m := by
  have e := Nat.div_add_mod' n (2 ^ 128)
  have e' := Nat.div_add_mod' m (2 ^ 128)
  exact twoStep_mono (by omega) (Nat.mod_lt _ (Nat.two_pow_pos _)) (by omega) (Nat.mod_lt _ (Nat.two_pow_pos _))

/-- The integral part of a magnitude is a magnitude. -/
private theorem rep_integral (t : FloatTy) (b : ℕ) : Rep t.p (magUnits t.p b / 2 ^ t.K) := by
  have hp := two_le_p t
  have hpp := two_pow_pred hp
  have hlt : b % 2 ^ (t.p - 1) < 2 ^ (t.p - 1) := Nat.mod_lt _ (Nat.two_pow_pos _)
  by_cases hs : b < t.bias * 2 ^ (t.p - 1)
  · rw [units_small t hs]; exact rep_of_le hp (Nat.zero_le _)
  · by_cases h1 : b / 2 ^ (t.p - 1) - t.bias ≤ t.p - 1
    · rw [units_mid t (by omega) h1]
      exact rep_of_le hp (le_trans (Nat.div_le_self _ _) (by omega))
    · rw [units_high t (by omega) (by omega)]
      exact rep_of hp _ (by omega)

private theorem truncate_natAbs (t : FloatTy) (v : t.Val) : Rep t.p (truncate (t.val v)).natAbs := by
  rw [truncate_val]
  have := rep_integral t (t.mag v)
  generalize magUnits t.p (t.mag v) / 2 ^ t.K = n at *
  cases t.neg v
  · simpa using this
  · simpa using this

private theorem truncate_int (z : ℤ) : truncate (z : ℚ) = z := by
  unfold truncate
  split
  · exact Int.floor_intCast z
  · exact Int.ceil_intCast z

private theorem U256.as_f64_R (c : Cfg) (x : U256) : x.as_f64 c = f64.flt false (R (x.toNat c)) := U256.as_f64_eq c x
private theorem I256.as_f64_R (c : Cfg) (s : I256) : s.as_f64 c = f64.flt (decide (s.toInt c < 0)) (R (s.toInt c).natAbs) := I256.as_f64_eq c s

private theorem val_R {n : ℕ} (h : n ≤ 2 ^ 256) (b : Bool) : f64.val (f64.flt b (R n)) = ((if b then -(R n : ℤ) else R n : ℤ) : ℚ) := by
  have := R_le h
  rw [val_flt (fits_f64 (by omega)), show rn f64.p (R n) = R n from rn_fix (p := 53) (by omega) (R_rep n)]
  cases b <;> simp

private theorem fin_R {n : ℕ} (h : n ≤ 2 ^ 256) (b : Bool) : f64.isFinite (f64.flt b (R n)) = true := by
  have := R_le h
  exact isFinite_flt (fits_f64 (by omega)) b

/-- Back from the double, on numbers -/
private theorem U256.back (c : Cfg) (x : U256) : ∃ v, U256.of_float c .f64 (x.as_f64 c) = .ok v ∧ v.toNat c = min (R (x.toNat c)) (2 ^ 256 - 1) := by
  have hx := (U256.toNat_lt c x).le
  rw [U256.as_f64_R]
  obtain ⟨v, h1, h2⟩ := C36_u256_partial c .f64 _ (fin_R hx false)
  refine ⟨v, h1, ?_⟩
  rw [val_R hx, truncate_int] at h2
  unfold saturate at h2
  simp only [Bool.false_eq_true, if_false] at h2
  omega

private theorem I256.back (c : Cfg) (s : I256) : ∃ v, I256.of_float c .f64 (s.as_f64 c) = .ok v
    ∧ v.toInt c = if s.toInt c < 0 then -(R (s.toInt c).natAbs : ℤ) else min (R (s.toInt c).natAbs) (2 ^ 255 - 1) := by
  have b1 := I256.le_toInt c s
  have b2 := I256.toInt_lt c s
  have hx : (s.toInt c).natAbs ≤ 2 ^ 256 := by omega
  have hr : R (s.toInt c).natAbs ≤ 2 ^ 255 := R_le (by omega)
  rw [I256.as_f64_R]
  obtain ⟨v, h1, h2⟩ := C36_i256_partial c .f64 _ (fin_R hx _)
  refine ⟨v, h1, ?_⟩
  rw [val_R hx, truncate_int] at h2
  unfold saturate at h2
  by_cases hn : s.toInt c < 0
  · rw [if_pos hn]
    rw [decide_eq_true hn, if_pos rfl] at h2
    omega
  · rw [if_neg hn]
    rw [decide_eq_false hn] at h2
    simp only [Bool.false_eq_true, if_false] at h2
    omega

/-- Rounding an integer to `p` digits -/
theorem rn_error {p : ℕ} (hp : 2 ≤ p) (z : ℕ) : |(rn p z : ℤ) - z| * 2 ^ p ≤ z := by
  rcases Nat.lt_or_ge z (2 ^ p) with h | h
  · rw [rn_fix hp (rep_of_le hp h.le), sub_self, abs_zero, zero_mul]; omega
  · have hpp := two_pow_pred hp
    obtain ⟨e, h1, h2⟩ : ∃ e, 2 ^ (p - 1) * 2 ^ e ≤ z ∧ z < 2 ^ p * 2 ^ e := by
      have hz : z ≠ 0 := by have := Nat.two_pow_pos p; omega
      have hl : p ≤ Nat.log 2 z := (Nat.le_log_iff_pow_le (by decide) hz).2 h
      refine ⟨Nat.log 2 z + 1 - p, ?_, ?_⟩
      · rw [← pow_add, show p - 1 + (Nat.log 2 z + 1 - p) = Nat.log 2 z by omega]; exact Nat.pow_log_le_self 2 hz
      · rw [← pow_add, show p + (Nat.log 2 z + 1 - p) = Nat.log 2 z + 1 by omega]; exact Nat.lt_pow_succ_log_self (by decide) z
    have hq : z / 2 ^ e < 2 ^ p := (Nat.div_lt_iff_lt_mul (Nat.two_pow_pos e)).2 h2
    have n1 := (rn_nearest hp z (rep_of hp (m := z / 2 ^ e) e hq.le)).1
    have n2 := (rn_nearest hp z (rep_of hp (m := z / 2 ^ e + 1) e hq)).1
    have hd := Nat.div_add_mod' z (2 ^ e)
    have hm := Nat.mod_lt z (Nat.two_pow_pos e)
    have hs : (z / 2 ^ e + 1) * 2 ^ e = z / 2 ^ e * 2 ^ e + 2 ^ e := by ring
    rw [hs] at n2
    have e1 : |((z / 2 ^ e * 2 ^ e : ℕ) : ℤ) - z| = (z % 2 ^ e : ℕ) := by rw [abs_of_nonpos (by omega)]; omega
    have e2 : |((z / 2 ^ e * 2 ^ e + 2 ^ e : ℕ) : ℤ) - z| = (2 ^ e - z % 2 ^ e : ℕ) := by rw [abs_of_nonneg (by omega)]; omega
    rw [e1] at n1
    rw [e2] at n2
    have h3 : 2 * |(rn p z : ℤ) - z| ≤ (2 ^ e : ℕ) := by omega
    have h4 : ((2 ^ (p - 1) * 2 ^ e : ℕ) : ℤ) ≤ z := by exact_mod_cast h1
    have h5 : (2 : ℤ) ^ p = 2 * 2 ^ (p - 1) := by
      have : p = p - 1 + 1 := by omega
      conv_lhs => rw [this, pow_succ]
      ring
    calc |(rn p z : ℤ) - z| * 2 ^ p = 2 * |(rn p z : ℤ) - z| * 2 ^ (p - 1) := by rw [h5]; ring
      _ ≤ (2 ^ e : ℕ) * 2 ^ (p - 1) := mul_le_mul_of_nonneg_right h3 (by positivity)
      _ ≤ z := by refine le_trans (le_of_eq ?_) h4; push_cast; ring

private theorem U256.as_f32_eq (c : Cfg) (x : U256) :
    x.as_f32 c = if x.toNat c < 2 ^ 128 - 2 ^ 103 then f32.flt false (x.toNat c) else f32.inf := by
  by_cases h : x.toNat c < 2 ^ 128 - 2 ^ 103
  · rw [if_pos h]
    have hv := U256.toNat_eq c x
    have hl := (x.low c).isLt
    have hh : x.high c = 0 := by
      have : (x.high c).toNat = 0 := by omega
      exact BitVec.eq_of_toNat_eq this
    unfold U256.as_f32
    rw [U256.into_words_eq]
    dsimp only
    rw [if_pos hh]
    have hlow : x.toNat c = (x.low c).toNat := by rw [hh] at hv; simpa using hv
    rw [hlow]
    exact ofInt_nat _ ((fits_f32 _).2 (by omega))
  · rw [if_neg h]
    exact (C35_u256_as_f32 c x).2.1 (by omega)

private theorem I256.as_f32_eq (c : Cfg) (s : I256) :
    s.as_f32 c = if R (s.toInt c).natAbs < 2 ^ 128 - 2 ^ 103 then f32.flt (decide (s.toInt c < 0)) (R (s.toInt c).natAbs)
      else f32.make (decide (s.toInt c < 0)) f32.infBits := by
  have b1 := I256.le_toInt c s
  have b2 := I256.toInt_lt c s
  have hr : R (s.toInt c).natAbs ≤ 2 ^ 255 := R_le (by omega)
  unfold I256.as_f32
  rw [I256.as_f64_R, convert_flt _ (fits_f64 (by omega)), show rn f64.p (R (s.toInt c).natAbs) = R (s.toInt c).natAbs from
    rn_fix (p := 53) (by omega) (R_rep _)]
  by_cases h : R (s.toInt c).natAbs < 2 ^ 128 - 2 ^ 103
  · rw [if_pos h, make_roundMag ((fits_f32 _).2 h)]
  · rw [if_neg h, roundMag_overflow (fun hf => h ((fits_f32 _).1 hf))]

private theorem rn24_le {n : ℕ} (h : n ≤ 2 ^ 128) : rn 24 n ≤ 2 ^ 128 := rn_le (by omega) (rep_pow (by omega) 128) h

private theorem U256.back32 (c : Cfg) (x : U256) : ∃ v, U256.of_float c .f32 (x.as_f32 c) = .ok v
    ∧ v.toNat c = if x.toNat c < 2 ^ 128 - 2 ^ 103 then rn 24 (x.toNat c) else 2 ^ 128 := by
  rw [U256.as_f32_eq]
  by_cases h : x.toNat c < 2 ^ 128 - 2 ^ 103
  · rw [if_pos h, if_pos h]
    have hf := (fits_f32 _).2 h
    obtain ⟨v, h1, h2⟩ := C36_u256_partial c .f32 _ (isFinite_flt hf false)
    refine ⟨v, h1, ?_⟩
    rw [val_flt hf] at h2
    simp only [Bool.false_eq_true, if_false] at h2
    have hl : rn 24 (x.toNat c) ≤ 2 ^ 128 := rn24_le (by omega)
    have ht := truncate_int (rn 24 (x.toNat c) : ℕ)
    rw [Int.cast_natCast] at ht
    rw [show rn f32.p (x.toNat c) = rn 24 (x.toNat c) from rfl, ht] at h2
    unfold saturate at h2
    omega
  · rw [if_neg h, if_neg h]
    exact (C36_f32_infinity c).1

private theorem I256.back32 (c : Cfg) (s : I256) : ∃ v, I256.of_float c .f32 (s.as_f32 c) = .ok v
    ∧ v.toInt c = (if s.toInt c < 0 then -1 else 1)
        * ((if R (s.toInt c).natAbs < 2 ^ 128 - 2 ^ 103 then rn 24 (R (s.toInt c).natAbs) else 2 ^ 128 : ℕ) : ℤ) := by
  rw [I256.as_f32_eq]
  by_cases h : R (s.toInt c).natAbs < 2 ^ 128 - 2 ^ 103
  · rw [if_pos h, if_pos h]
    have hf := (fits_f32 _).2 h
    obtain ⟨v, h1, h2⟩ := C36_i256_partial c .f32 _ (isFinite_flt hf (decide (s.toInt c < 0)))
    refine ⟨v, h1, ?_⟩
    rw [val_flt hf] at h2
    have hl : rn 24 (R (s.toInt c).natAbs) ≤ 2 ^ 128 := rn24_le (by omega)
    rw [show rn f32.p (R (s.toInt c).natAbs) = rn 24 (R (s.toInt c).natAbs) from rfl] at h2
    generalize rn 24 (R (s.toInt c).natAbs) = n at *
    have t1 := truncate_int (n : ℕ)
    have t2 := truncate_int (-(n : ℕ))
    rw [Int.cast_natCast] at t1
    rw [Int.cast_neg, Int.cast_natCast] at t2
    unfold saturate at h2
    by_cases hn : s.toInt c < 0
    · rw [decide_eq_true hn, if_pos rfl, t2] at h2
      rw [if_pos hn]; omega
    · rw [decide_eq_false hn] at h2
      simp only [Bool.false_eq_true, if_false] at h2
      rw [t1] at h2
      rw [if_neg hn]; omega
  · rw [if_neg h, if_neg h]
    obtain ⟨-, ⟨v, v1, v2⟩, ⟨w, w1, w2⟩⟩ := C36_f32_infinity c
    by_cases hn : s.toInt c < 0
    · rw [decide_eq_true hn, if_pos hn]
      exact ⟨w, w1, by rw [w2]; rfl⟩
    · rw [decide_eq_false hn, if_neg hn]
      exact ⟨v, v1, by rw [v2]; rfl⟩

/-! ### C74 -/

/-- C74: a value that goes through `f64` and back changes by at most one part in `2^52`, and has the same double as before. -/
theorem C74_u256_f64 (c : Cfg) (x : U256) :
    ∃ v, U256.of_float c .f64 (x.as_f64 c) = .ok v ∧ |(v.toNat c : ℚ) - x.toNat c| * 2 ^ 52 ≤ x.toNat c ∧ v.as_f64 c = x.as_f64 c := by
  obtain ⟨v, h1, h2⟩ := U256.back c x
  have hx := U256.toNat_lt c x
  refine ⟨v, h1, ?_, ?_⟩
  · have h := (C35_relative_error c x I256.ZERO).1
    rw [U256.as_f64_R, val_R hx.le] at h
    simp only [Bool.false_eq_true, if_false] at h
    refine le_trans (mul_le_mul_of_nonneg_right ?_ (by positivity)) h
    by_cases hm : R (x.toNat c) ≤ 2 ^ 256 - 1
    · rw [h2, min_eq_left hm]; push_cast; exact le_refl _
    · have hr : R (x.toNat c) = 2 ^ 256 := by have := R_le hx.le; omega
      have h3 : v.toNat c = 2 ^ 256 - 1 := by omega
      have a : (x.toNat c : ℚ) ≤ v.toNat c := by rw [h3]; exact_mod_cast (by omega)
      have b : (v.toNat c : ℚ) ≤ R (x.toNat c) := by rw [h3, hr]; exact_mod_cast (by omega)
      rw [abs_of_nonneg (by linarith), abs_of_nonneg (by push_cast; linarith)]
      push_cast
      linarith
  · rw [U256.as_f64_R, U256.as_f64_R]
    by_cases hm : R (x.toNat c) ≤ 2 ^ 256 - 1
    · rw [h2, min_eq_left hm, R_fix (R_rep _)]
    · have hr : R (x.toNat c) = 2 ^ 256 := by have := R_le hx.le; omega
      have h3 : v.toNat c = 2 ^ 256 - 1 := by omega
      rw [h3, hr]
      decide +kernel

example : U256.of_float dbg .f64 ((U256.ofNat dbg (2 ^ 100 + 1)).as_f64 dbg) = .ok (U256.ofNat dbg (2 ^ 100))
    ∧ U256.of_float rel .f64 ((U256.MAX).as_f64 rel) = .ok U256.MAX := by decide +kernel

/-- C74: so does a signed one. -/
theorem C74_i256_f64 (c : Cfg) (s : I256) :
    ∃ v, I256.of_float c .f64 (s.as_f64 c) = .ok v ∧ |(v.toInt c : ℚ) - s.toInt c| * 2 ^ 52 ≤ |(s.toInt c : ℚ)| ∧ v.as_f64 c = s.as_f64 c := by
  obtain ⟨v, h1, h2⟩ := I256.back c s
  have b1 := I256.le_toInt c s
  have b2 := I256.toInt_lt c s
  have hx : (s.toInt c).natAbs ≤ 2 ^ 256 := by omega
  have hr : R (s.toInt c).natAbs ≤ 2 ^ 255 := R_le (by omega)
  have h := (C35_relative_error c U256.ZERO s).2
  rw [I256.as_f64_R, val_R hx] at h
  by_cases hn : s.toInt c < 0
  · rw [if_pos hn] at h2
    rw [decide_eq_true hn, if_pos rfl] at h
    refine ⟨v, h1, by rw [h2]; exact h, ?_⟩
    rw [I256.as_f64_R, I256.as_f64_R, h2, Int.natAbs_neg, Int.natAbs_natCast, R_fix (R_rep _), decide_eq_true hn]
    have hpos : 0 < R (s.toInt c).natAbs := by
      have : R 1 ≤ R (s.toInt c).natAbs := R_mono (by omega)
      rw [R_fix (rep_of_le (by omega) Nat.one_le_two_pow)] at this
      omega
    rw [decide_eq_true (by omega)]
  · rw [if_neg hn] at h2
    rw [decide_eq_false hn] at h
    simp only [Bool.false_eq_true, if_false] at h
    have hs : ((s.toInt c).natAbs : ℤ) = s.toInt c := by omega
    have hv : ¬ v.toInt c < 0 := by omega
    refine ⟨v, h1, le_trans (mul_le_mul_of_nonneg_right ?_ (by positivity)) h, ?_⟩
    · by_cases hm : R (s.toInt c).natAbs ≤ 2 ^ 255 - 1
      · rw [h2, min_eq_left (by omega)]
      · have h3 : v.toInt c = 2 ^ 255 - 1 := by omega
        have a : (s.toInt c : ℚ) ≤ v.toInt c := by exact_mod_cast (by omega)
        have b : (v.toInt c : ℚ) ≤ ((R (s.toInt c).natAbs : ℤ) : ℚ) := by exact_mod_cast (by omega)
        rw [abs_of_nonneg (by linarith), abs_of_nonneg (by linarith)]
        linarith
    · rw [I256.as_f64_R, I256.as_f64_R, decide_eq_false hn, decide_eq_false hv]
      by_cases hm : R (s.toInt c).natAbs ≤ 2 ^ 255 - 1
      · rw [show (v.toInt c).natAbs = R (s.toInt c).natAbs by omega, R_fix (R_rep _)]
      · rw [show (v.toInt c).natAbs = 2 ^ 255 - 1 by omega, show R (s.toInt c).natAbs = 2 ^ 255 by omega]
        decide +kernel

example : I256.of_float dbg .f64 ((I256.ofInt dbg (-2 ^ 100 - 1)).as_f64 dbg) = .ok (I256.ofInt dbg (-2 ^ 100))
    ∧ I256.of_float rel .f64 ((I256.MAX rel).as_f64 rel) = .ok (I256.MAX rel)
    ∧ I256.of_float rel .f64 ((I256.MIN rel).as_f64 rel) = .ok (I256.MIN rel) := by decide +kernel

/-- C74 (`_partial`: the claim is also that a value too large for an `f32` comes back as the largest value; see `C74_f32_large`): a value
that goes through `f32` and back changes by at most one part in `2^24`, if it is not too large for an `f32`; it always has the same `f32`
as before. -/
theorem C74_u256_f32_partial (c : Cfg) (x : U256) :
    ∃ v, U256.of_float c .f32 (x.as_f32 c) = .ok v
      ∧ (x.toNat c < 2 ^ 128 - 2 ^ 103 → |(v.toNat c : ℤ) - x.toNat c| * 2 ^ 24 ≤ x.toNat c) ∧ v.as_f32 c = x.as_f32 c := by
  obtain ⟨v, h1, h2⟩ := U256.back32 c x
  refine ⟨v, h1, fun h => ?_, ?_⟩
  · rw [if_pos h] at h2
    rw [h2]
    exact rn_error (by omega) _
  · rw [U256.as_f32_eq, U256.as_f32_eq]
    by_cases h : x.toNat c < 2 ^ 128 - 2 ^ 103
    · rw [if_pos h] at h2
      have hf := fits_rn.2 ((fits_f32 _).2 h)
      have hlt : rn 24 (x.toNat c) < 2 ^ 128 - 2 ^ 103 := (fits_f32 _).1 hf
      rw [if_pos h, h2, if_pos hlt]
      exact flt_rn false _
    · rw [if_neg h] at h2
      rw [if_neg h, h2, if_neg (by decide)]

example : U256.of_float dbg .f32 ((U256.ofNat dbg (2 ^ 100 + 1)).as_f32 dbg) = .ok (U256.ofNat dbg (2 ^ 100))
    ∧ 2 ^ 100 + 1 < 2 ^ 128 - 2 ^ 103 := by decide +kernel

/-- C74 (`_partial`, as above): a signed value goes through `f64` on its way to `f32`, and changes by at most one part in `2^23`. -/
theorem C74_i256_f32_partial (c : Cfg) (s : I256) :
    ∃ v, I256.of_float c .f32 (s.as_f32 c) = .ok v
      ∧ ((s.toInt c).natAbs < 2 ^ 128 - 2 ^ 103 - 2 ^ 74 → |(v.toInt c : ℚ) - s.toInt c| * 2 ^ 23 ≤ |(s.toInt c : ℚ)|)
      ∧ v.as_f32 c = s.as_f32 c := by
  obtain ⟨v, h1, h2⟩ := I256.back32 c s
  have up : ∀ f, Rep 24 f → Rep 53 f := fun f hr => by
    obtain ⟨m, e, hm, rfl⟩ := rep_form (by omega) hr
    exact rep_of (by omega) _ (by omega)
  refine ⟨v, h1, fun h => ?_, ?_⟩
  · have b1 := I256.le_toInt c s
    have b2 := I256.toInt_lt c s
    have hR : R (s.toInt c).natAbs < 2 ^ 128 - 2 ^ 103 := by
      by_contra hc
      have e1 := (C35_i256_as_f32_partial c s).1 h
      have e2 := e1.1
      rw [I256.as_f32_eq, if_neg hc] at e2
      revert e2
      cases decide (s.toInt c < 0) <;> decide
    rw [if_pos hR] at h2
    have herr := rn_error (p := 24) (by omega) (R (s.toInt c).natAbs)
    have h3 := (C35_relative_error c U256.ZERO s).2
    rw [I256.as_f64_R, val_R (by omega)] at h3
    have herr' : |(rn 24 (R (s.toInt c).natAbs) : ℚ) - R (s.toInt c).natAbs| * 2 ^ 24 ≤ R (s.toInt c).natAbs := by
      have := (Int.cast_le (R := ℚ)).2 herr
      push_cast at this
      exact this
    generalize rn 24 (R (s.toInt c).natAbs) = m at *
    generalize hr : R (s.toInt c).natAbs = r at *
    have hs : |(s.toInt c : ℚ)| = ((s.toInt c).natAbs : ℚ) := by
      have := Int.natCast_natAbs (s.toInt c)
      have h5 : (((s.toInt c).natAbs : ℤ) : ℚ) = ((|s.toInt c| : ℤ) : ℚ) := by rw [this]
      rw [Int.cast_abs] at h5
      rw [← h5]; rfl
    by_cases hn : s.toInt c < 0
    · rw [if_pos hn] at h2
      rw [decide_eq_true hn, if_pos rfl] at h3
      have hz : (s.toInt c : ℚ) < 0 := by exact_mod_cast hn
      rw [abs_of_neg hz] at h3 ⊢
      rw [h2]
      push_cast at h3 ⊢
      generalize (s.toInt c : ℚ) = z at *
      have a1 := abs_le.1 (le_of_le_of_eq (le_div_iff₀ (by positivity : (0 : ℚ) < 2 ^ 24) |>.2 herr') rfl)
      have a2 := abs_le.1 (le_div_iff₀ (by positivity : (0 : ℚ) < 2 ^ 52) |>.2 h3)
      rw [← le_div_iff₀ (by positivity : (0 : ℚ) < 2 ^ 23), abs_le]
      constructor <;> linarith [a1.1, a1.2, a2.1, a2.2]
    · rw [if_neg hn] at h2
      rw [decide_eq_false hn] at h3
      simp only [Bool.false_eq_true, if_false] at h3
      have hz : (0 : ℚ) ≤ s.toInt c := by exact_mod_cast (by omega)
      rw [abs_of_nonneg hz] at h3 ⊢
      rw [h2]
      push_cast at h3 ⊢
      generalize (s.toInt c : ℚ) = z at *
      have a1 := abs_le.1 (le_div_iff₀ (by positivity : (0 : ℚ) < 2 ^ 24) |>.2 herr')
      have a2 := abs_le.1 (le_div_iff₀ (by positivity : (0 : ℚ) < 2 ^ 52) |>.2 h3)
      rw [← le_div_iff₀ (by positivity : (0 : ℚ) < 2 ^ 23), abs_le]
      constructor <;> linarith [a1.1, a1.2, a2.1, a2.2]
  · rw [I256.as_f32_eq, I256.as_f32_eq]
    have hzero : R 0 = 0 := R_fix (rep_of_le (by omega) (Nat.zero_le _))
    have hpos : s.toInt c < 0 → 0 < R (s.toInt c).natAbs := by
      intro hn
      have : R 1 ≤ R (s.toInt c).natAbs := R_mono (by omega)
      rw [R_fix (rep_of_le (by omega) Nat.one_le_two_pow)] at this
      omega
    by_cases h : R (s.toInt c).natAbs < 2 ^ 128 - 2 ^ 103
    · rw [if_pos h] at h2
      have hp24 : s.toInt c < 0 → 0 < rn 24 (R (s.toInt c).natAbs) := by
        intro hn
        have := le_rn (p := 24) (by omega) (rep_of_le (by omega) Nat.one_le_two_pow) (hpos hn)
        omega
      have hf := fits_rn.2 ((fits_f32 _).2 h)
      have hlt : rn 24 (R (s.toInt c).natAbs) < 2 ^ 128 - 2 ^ 103 := (fits_f32 _).1 hf
      have habs : (v.toInt c).natAbs = rn 24 (R (s.toInt c).natAbs) := by
        rw [h2]; split <;> omega
      have hsign : decide (v.toInt c < 0) = decide (s.toInt c < 0) := by
        rw [h2]
        by_cases hn : s.toInt c < 0
        · have := hp24 hn
          rw [if_pos hn, decide_eq_true hn, decide_eq_true (by omega)]
        · rw [if_neg hn, decide_eq_false hn, decide_eq_false (by omega)]
      rw [if_pos h, habs, hsign, R_fix (up _ (rn_rep (by omega) _)), if_pos hlt]
      exact flt_rn _ _
    · rw [if_neg h] at h2
      have habs : (v.toInt c).natAbs = 2 ^ 128 := by
        rw [h2]; split <;> omega
      have hsign : decide (v.toInt c < 0) = decide (s.toInt c < 0) := by
        rw [h2]
        by_cases hn : s.toInt c < 0
        · rw [if_pos hn, decide_eq_true hn, decide_eq_true (by omega)]
        · rw [if_neg hn, decide_eq_false hn, decide_eq_false (by omega)]
      rw [if_neg h, habs, hsign, R_fix (rep_pow (by omega) 128), if_neg (by decide)]

example : I256.of_float dbg .f32 ((I256.ofInt dbg (-2 ^ 100 - 1)).as_f32 dbg) = .ok (I256.ofInt dbg (-2 ^ 100))
    ∧ 2 ^ 100 + 1 < 2 ^ 128 - 2 ^ 103 - 2 ^ 74 := by decide +kernel

/-- C74, refuted in part: the largest values are infinite as `f32`, and come back as `2^128` and `-2^128` instead of saturating. -/
theorem C74_f32_large (c : Cfg) :
    (∃ v, U256.of_float c .f32 (U256.MAX.as_f32 c) = .ok v ∧ v.toNat c = 2 ^ 128)
    ∧ (∃ v, I256.of_float c .f32 ((I256.MAX c).as_f32 c) = .ok v ∧ v.toInt c = 2 ^ 128)
    ∧ (∃ v, I256.of_float c .f32 ((I256.MIN c).as_f32 c) = .ok v ∧ v.toInt c = -2 ^ 128) := by
  obtain ⟨u, u1, u2⟩ := U256.back32 c U256.MAX
  obtain ⟨v, v1, v2⟩ := I256.back32 c (I256.MAX c)
  obtain ⟨w, w1, w2⟩ := I256.back32 c (I256.MIN c)
  rw [U256.toNat_MAX, if_neg (by decide)] at u2
  rw [I256.toInt_MAX, if_neg (by decide), if_neg (by decide +kernel)] at v2
  rw [I256.toInt_MIN, if_pos (by decide), if_neg (by decide +kernel)] at w2
  exact ⟨⟨u, u1, u2⟩, ⟨v, v1, v2⟩, ⟨w, w1, w2⟩⟩

/-- The integral part of a finite float is the value of one. -/
private theorem exists_truncated (t : FloatTy) (v : t.Val) (hv : t.isFinite v = true) :
    ∃ y : t.Val, t.isFinite y = true ∧ t.val y = truncate (t.val v) := by
  have hf := (isFinite_iff t v).1 hv
  have hp := two_le_p t
  have hfit : t.Fits (magUnits t.p (t.mag v) / 2 ^ t.K) := by
    refine lt_of_le_of_lt (roundUnits_le hp (show 0 < 1 by omega) ?_) hf
    rw [mul_one]
    exact Nat.div_mul_le_self _ _
  refine ⟨t.flt (t.neg v) (magUnits t.p (t.mag v) / 2 ^ t.K), isFinite_flt hfit _, ?_⟩
  rw [val_flt hfit, rn_fix hp (rep_integral t _), truncate_val]
  generalize magUnits t.p (t.mag v) / 2 ^ t.K = n
  cases t.neg v <;> simp

private theorem truncate_bounds {q : ℚ} {lo hi : ℤ} (h1 : lo ≤ q) (h2 : q < hi + 1) (hlo : lo ≤ 0) (hhi : 0 ≤ hi) :
    lo ≤ truncate q ∧ truncate q ≤ hi := by
  unfold truncate
  split
  · rename_i h0
    have a : (0 : ℤ) ≤ ⌊q⌋ := Int.floor_nonneg.2 h0
    have b : ⌊q⌋ < hi + 1 := Int.floor_lt.2 (by push_cast; exact h2)
    omega
  · rename_i h0
    have a : lo ≤ ⌈q⌉ := by
      have := Int.le_ceil q
      exact_mod_cast le_trans h1 this
    have b : ⌈q⌉ ≤ 0 := Int.ceil_le.2 (by push_cast; linarith)
    omega

/-- C74: a double in range that goes through a 256-bit integer and back is rounded towards zero, and nothing else. -/
theorem C74_from_f64 (c : Cfg) (v : f64.Val) (hv : f64.isFinite v = true) :
    (0 ≤ f64.val v → f64.val v < 2 ^ 256 → ∃ x, U256.of_float c .f64 v = .ok x ∧ f64.val (x.as_f64 c) = truncate (f64.val v))
    ∧ (-2 ^ 255 ≤ f64.val v → f64.val v < 2 ^ 255 → ∃ s, I256.of_float c .f64 v = .ok s ∧ f64.val (s.as_f64 c) = truncate (f64.val v)) := by
  obtain ⟨y, hy, hyv⟩ := exists_truncated f64 v hv
  constructor
  · intro h0 h1
    obtain ⟨x, e1, e2⟩ := C36_u256_partial c .f64 v hv
    obtain ⟨b1, b2⟩ := truncate_bounds (lo := 0) (hi := 2 ^ 256 - 1) (by push_cast; exact h0) (by push_cast; linarith) (by decide) (by decide)
    refine ⟨x, e1, ?_⟩
    have e3 : (x.toNat c : ℤ) = truncate (f64.val v) := by unfold saturate at e2; omega
    have e4 : f64.val y = x.toNat c := by rw [hyv, ← e3]; rfl
    rw [(C35_exact c x I256.ZERO).2.1 y hy e4, ← e3]
    rfl
  · intro h0 h1
    obtain ⟨s, e1, e2⟩ := C36_i256_partial c .f64 v hv
    obtain ⟨b1, b2⟩ := truncate_bounds (lo := -2 ^ 255) (hi := 2 ^ 255 - 1) (by push_cast; exact h0) (by push_cast; linarith) (by decide) (by decide)
    refine ⟨s, e1, ?_⟩
    have e3 : s.toInt c = truncate (f64.val v) := by unfold saturate at e2; omega
    have e4 : f64.val y = s.toInt c := by rw [hyv, ← e3]
    rw [(C35_exact c U256.ZERO s).2.2.2 y hy e4, ← e3]

example : (∃ x, U256.of_float rel .f64 (f64.make false 0x4004000000000000) = .ok x ∧ x.as_f64 rel = f64.ofInt 2)
    ∧ f64.isFinite (f64.make false 0x4004000000000000) = true := ⟨⟨U256.ofNat rel 2, by decide +kernel⟩, by decide⟩

/-- C74: so is every finite `f32` (a non-negative one, for `U256`). -/
theorem C74_from_f32 (c : Cfg) (v : f32.Val) (hv : f32.isFinite v = true) :
    (0 ≤ f32.val v → ∃ x, U256.of_float c .f32 v = .ok x ∧ f32.val (x.as_f32 c) = truncate (f32.val v))
    ∧ (∃ s, I256.of_float c .f32 v = .ok s ∧ f32.val (s.as_f32 c) = truncate (f32.val v)) := by
  obtain ⟨y, hy, hyv⟩ := exists_truncated f32 v hv
  have hm : magUnits 24 (f32.mag v) / 2 ^ f32.K < 2 ^ 128 := by
    have h1 := magUnits_lt (p := 24) (by omega) ((isFinite_iff f32 v).1 hv)
    have h2 : magUnits 24 f32.infBits = 2 ^ 128 * 2 ^ f32.K := by decide +kernel
    rw [h2] at h1
    exact (Nat.div_lt_iff_lt_mul (Nat.two_pow_pos _)).2 h1
  have ht := truncate_val f32 v
  rw [show magUnits f32.p (f32.mag v) = magUnits 24 (f32.mag v) from rfl] at ht
  generalize magUnits 24 (f32.mag v) / 2 ^ f32.K = n at *
  constructor
  · intro h0
    obtain ⟨x, e1, e2⟩ := C36_u256_partial c .f32 v hv
    refine ⟨x, e1, ?_⟩
    have hz : 0 ≤ truncate (f32.val v) := by
      unfold truncate; rw [if_pos h0]; exact Int.floor_nonneg.2 h0
    have hb : truncate (f32.val v) < 2 ^ 128 := by
      rw [ht]; split <;> omega
    have e3 : (x.toNat c : ℤ) = truncate (f32.val v) := by unfold saturate at e2; omega
    have e4 : f32.val y = x.toNat c := by rw [hyv, ← e3]; rfl
    rw [(C35_exact c x I256.ZERO).1 y hy e4, ← e3]
    rfl
  · obtain ⟨s, e1, e2⟩ := C36_i256_partial c .f32 v hv
    refine ⟨s, e1, ?_⟩
    have hb : truncate (f32.val v) < 2 ^ 128 ∧ -2 ^ 128 < truncate (f32.val v) := by
      rw [ht]; split <;> omega
    have e3 : s.toInt c = truncate (f32.val v) := by unfold saturate at e2; omega
    have e4 : f32.val y = s.toInt c := by rw [hyv, ← e3]
    rw [(C35_exact c U256.ZERO s).2.2.1 y hy e4, ← e3]

example : (∃ s, I256.of_float rel .f32 (f32.make true 0x40200000) = .ok s ∧ s.as_f32 rel = f32.ofInt (-2))
    ∧ f32.isFinite (f32.make true 0x40200000) = true := ⟨⟨I256.ofInt rel (-2), by decide +kernel⟩, by decide⟩

/-- C74: going through a float and back keeps the order (but may make different values equal). -/
theorem C74_order (c : Cfg) (x y : U256) (a b : I256) :
    (x.toNat c ≤ y.toNat c →
      (∃ v w, U256.of_float c .f64 (x.as_f64 c) = .ok v ∧ U256.of_float c .f64 (y.as_f64 c) = .ok w ∧ v.toNat c ≤ w.toNat c)
      ∧ (∃ v w, U256.of_float c .f32 (x.as_f32 c) = .ok v ∧ U256.of_float c .f32 (y.as_f32 c) = .ok w ∧ v.toNat c ≤ w.toNat c))
    ∧ (a.toInt c ≤ b.toInt c →
      (∃ v w, I256.of_float c .f64 (a.as_f64 c) = .ok v ∧ I256.of_float c .f64 (b.as_f64 c) = .ok w ∧ v.toInt c ≤ w.toInt c)
      ∧ (∃ v w, I256.of_float c .f32 (a.as_f32 c) = .ok v ∧ I256.of_float c .f32 (b.as_f32 c) = .ok w ∧ v.toInt c ≤ w.toInt c)) := by
  have m32 : ∀ {n m : ℕ}, n ≤ m → (if n < 2 ^ 128 - 2 ^ 103 then rn 24 n else 2 ^ 128) ≤ (if m < 2 ^ 128 - 2 ^ 103 then rn 24 m else 2 ^ 128) := by
    intro n m h
    have := rn_mono (p := 24) (by omega) h
    by_cases hm : m < 2 ^ 128 - 2 ^ 103
    · rw [if_pos hm, if_pos (by omega)]; exact this
    · rw [if_neg hm]
      split
      · exact rn24_le (by omega)
      · exact le_refl _
  constructor
  · intro h
    constructor
    · obtain ⟨v, v1, v2⟩ := U256.back c x
      obtain ⟨w, w1, w2⟩ := U256.back c y
      have := R_mono h
      exact ⟨v, w, v1, w1, by omega⟩
    · obtain ⟨v, v1, v2⟩ := U256.back32 c x
      obtain ⟨w, w1, w2⟩ := U256.back32 c y
      exact ⟨v, w, v1, w1, by rw [v2, w2]; exact m32 h⟩
  · intro h
    constructor
    · obtain ⟨v, v1, v2⟩ := I256.back c a
      obtain ⟨w, w1, w2⟩ := I256.back c b
      refine ⟨v, w, v1, w1, ?_⟩
      by_cases ha : a.toInt c < 0
      · rw [if_pos ha] at v2
        by_cases hb : b.toInt c < 0
        · rw [if_pos hb] at w2
          have := R_mono (show (b.toInt c).natAbs ≤ (a.toInt c).natAbs by omega)
          omega
        · rw [if_neg hb] at w2; omega
      · rw [if_neg ha] at v2
        rw [if_neg (by omega)] at w2
        have := R_mono (show (a.toInt c).natAbs ≤ (b.toInt c).natAbs by omega)
        omega
    · obtain ⟨v, v1, v2⟩ := I256.back32 c a
      obtain ⟨w, w1, w2⟩ := I256.back32 c b
      refine ⟨v, w, v1, w1, ?_⟩
      by_cases ha : a.toInt c < 0
      · rw [if_pos ha] at v2
        by_cases hb : b.toInt c < 0
        · rw [if_pos hb] at w2
          have := m32 (R_mono (show (b.toInt c).natAbs ≤ (a.toInt c).natAbs by omega))
          omega
        · rw [if_neg hb] at w2; omega
      · rw [if_neg ha] at v2
        rw [if_neg (by omega)] at w2
        have := m32 (R_mono (show (a.toInt c).natAbs ≤ (b.toInt c).natAbs by omega))
        omega

example : (U256.ofNat dbg (2 ^ 128 - 1)).toNat dbg ≤ (U256.MAX).toNat dbg
    ∧ U256.of_float dbg .f32 ((U256.ofNat dbg (2 ^ 127 + 1)).as_f32 dbg) = .ok (U256.ofNat dbg (2 ^ 127))
    ∧ I256.of_float rel .f32 ((I256.MIN rel).as_f32 rel) = .ok (I256.ofInt rel (-2 ^ 128)) := by decide +kernel

end Ethnum
