import Verif.Model.Float
import Verif.Proofs.FloatVal
import Verif.Props.IArith
import Verif.Props.Convert
import Verif.Props.Operators

/-
C35 conversion to floating point, C36 conversion from floating point.
-/

namespace Ethnum
open FloatTy

/-! ### Model in terms of rounded integers -/

theorem U256.as_f64_eq (c : Cfg) (x : U256) :
    x.as_f64 c = f64.flt false (twoStep 53 128 (x.toNat c / 2 ^ 128) (x.toNat c % 2 ^ 128)) := by
  have h1 := (x.high c).isLt
  have h2 := (x.low c).isLt
  have hv := U256.toNat_eq c x
  have e1 : x.toNat c / 2 ^ 128 = (x.high c).toNat := by omega
  have e2 : x.toNat c % 2 ^ 128 = (x.low c).toNat := by omega
  rw [e1, e2]
  have hp : f64.p = 53 := rfl
  have hp2 : 2 ≤ 53 := by omega
  unfold U256.as_f64
  rw [U256.into_words_eq]
  dsimp only
  have hHI : U256.HI = f64.flt false (2 ^ 128) := by decide +kernel
  have r1 : rn 53 (x.high c).toNat ≤ 2 ^ 128 := rn_le hp2 (rep_pow hp2 128) h1.le
  have r2 : rn 53 (x.low c).toNat ≤ 2 ^ 128 := rn_le hp2 (rep_pow hp2 128) h2.le
  have r3 : rn 53 (2 ^ 128) = 2 ^ 128 := rn_fix hp2 (rep_pow hp2 128)
  have r4 : rn 53 (rn 53 (x.high c).toNat * 2 ^ 128) = rn 53 (x.high c).toNat * 2 ^ 128 :=
    rn_fix hp2 (rep_mul_pow hp2 (rn_rep hp2 _) 128)
  rw [ofInt_nat _ (fits_f64 (by omega)), ofInt_nat _ (fits_f64 (by omega)), hHI,
    mul_flt _ _ (fits_f64 (by omega)) (fits_f64 (by omega)) (by rw [hp, r3]; exact fits_f64 (by omega)),
    hp, r3, show (false != false) = false from rfl,
    add_flt (fits_f64 (by omega)) (fits_f64 (by omega)) (by rw [hp, r4]; exact fits_f64 (by omega)), hp, r4]
  exact (flt_rn false _).symm

theorem U256.twoStep_le_pow (c : Cfg) (x : U256) : twoStep 53 128 (x.toNat c / 2 ^ 128) (x.toNat c % 2 ^ 128) ≤ 2 ^ 256 := by
  have := U256.toNat_lt c x
  exact twoStep_le (by omega) (by omega) (rep_pow (by omega) _) (by omega)

theorem U256.val_as_f64 (c : Cfg) (x : U256) :
    f64.val (x.as_f64 c) = (twoStep 53 128 (x.toNat c / 2 ^ 128) (x.toNat c % 2 ^ 128) : ℕ) := by
  have h := U256.twoStep_le_pow c x
  have hfix : rn f64.p (twoStep 53 128 (x.toNat c / 2 ^ 128) (x.toNat c % 2 ^ 128))
      = twoStep 53 128 (x.toNat c / 2 ^ 128) (x.toNat c % 2 ^ 128) :=
    rn_fix (p := 53) (by omega) (rn_rep (by omega) _)
  rw [U256.as_f64_eq, val_flt (fits_f64 (by omega)), hfix]
  rfl

theorem I256.as_f64_eq (c : Cfg) (x : I256) :
    x.as_f64 c = f64.flt (decide (x.toInt c < 0))
      (twoStep 53 128 ((x.toInt c).natAbs / 2 ^ 128) ((x.toInt c).natAbs % 2 ^ 128)) := by
  have hp : f64.p = 53 := rfl
  have hp2 : 2 ≤ 53 := by omega
  have h0 := U256.twoStep_le_pow c (x.unsigned_abs c)
  unfold I256.as_f64
  dsimp only
  rw [U256.as_f64_eq, I256.signum128_toInt]
  rw [I256.toNat_unsigned_abs] at h0 ⊢
  have hfix : rn 53 (twoStep 53 128 ((x.toInt c).natAbs / 2 ^ 128) ((x.toInt c).natAbs % 2 ^ 128))
      = twoStep 53 128 ((x.toInt c).natAbs / 2 ^ 128) ((x.toInt c).natAbs % 2 ^ 128) :=
    rn_fix hp2 (rn_rep hp2 _)
  have h1 : rn 53 1 = 1 := rn_fix hp2 (rep_of_le hp2 Nat.one_le_two_pow)
  have hz : rn 53 0 = 0 := rn_fix hp2 (rep_of_le hp2 (Nat.zero_le _))
  rcases lt_trichotomy (x.toInt c) 0 with h | h | h
  · rw [Int.sign_eq_neg_one_of_neg h, show (-1 : Int) = -((1 : ℕ) : Int) from rfl,
      ofInt_neg 1 (by omega) (fits_f64 (by omega)),
      mul_flt _ _ (fits_f64 (by omega)) (fits_f64 (by omega)) (by rw [hp, hfix, h1]; exact fits_f64 (by omega)),
      hp, hfix, h1, mul_one, decide_eq_true h]
    rfl
  · rw [h]
    decide +kernel
  · rw [Int.sign_eq_one_of_pos h, show (1 : Int) = ((1 : ℕ) : Int) from rfl,
      ofInt_nat 1 (fits_f64 (by omega)),
      mul_flt _ _ (fits_f64 (by omega)) (fits_f64 (by omega)) (by rw [hp, hfix, h1]; exact fits_f64 (by omega)),
      hp, hfix, h1, mul_one, decide_eq_false (by omega)]
    rfl

theorem I256.twoStep_le_pow (c : Cfg) (x : I256) :
    twoStep 53 128 ((x.toInt c).natAbs / 2 ^ 128) ((x.toInt c).natAbs % 2 ^ 128) ≤ 2 ^ 256 := by
  have := U256.twoStep_le_pow c (x.unsigned_abs c)
  rwa [I256.toNat_unsigned_abs] at this

/-! ### C35 -/

/-- C35: `U256::as_f32` is correctly rounded to nearest, ties to even, and is infinite exactly from the middle
between the largest finite `f32` and `2^128` on; the result is never negative (no `-0.0`). -/
theorem C35_u256_as_f32 (c : Cfg) (x : U256) :
    (x.toNat c < 2 ^ 128 - 2 ^ 103 → f32.NearestEven (x.toNat c) (x.as_f32 c))
    ∧ (2 ^ 128 - 2 ^ 103 ≤ x.toNat c → x.as_f32 c = f32.inf)
    ∧ f32.neg (x.as_f32 c) = false := by
  have h2 := (x.low c).isLt
  have hv := U256.toNat_eq c x
  unfold U256.as_f32
  rw [U256.into_words_eq]
  dsimp only
  by_cases hh : x.high c = 0
  · rw [if_pos hh]
    have hlow : x.toNat c = (x.low c).toNat := by rw [hh] at hv; simpa using hv
    rw [hlow]
    by_cases hf : f32.Fits (x.low c).toNat
    · have hf' := (fits_f32 _).1 hf
      rw [ofInt_nat _ hf]
      exact ⟨fun _ => nearest_flt hf, fun h => absurd h (by omega), neg_flt hf _⟩
    · have hf' := fun h => hf ((fits_f32 _).2 h)
      have e : f32.ofInt (x.low c).toNat = f32.inf := by
        unfold FloatTy.ofInt FloatTy.inf
        rw [show decide (((x.low c).toNat : Int) < 0) = false from decide_eq_false (by omega), Int.natAbs_natCast,
          roundMag_overflow hf]
      rw [e]
      exact ⟨fun h => absurd h hf', fun _ => rfl, by decide⟩
  · rw [if_neg hh]
    have : (x.high c).toNat ≠ 0 := fun h => hh (BitVec.eq_of_toNat_eq h)
    exact ⟨fun h => absurd h (by omega), fun _ => rfl, by decide⟩

example : (U256.ofNat dbg (2 ^ 24 + 1)).as_f32 dbg = f32.ofInt (2 ^ 24) ∧ (2 : ℕ) ^ 24 + 1 < 2 ^ 128 - 2 ^ 103
    ∧ (U256.ofNat rel (2 ^ 24 + 3)).as_f32 rel = f32.ofInt (2 ^ 24 + 4)
    ∧ (U256.ofNat rel (2 ^ 128 - 2 ^ 103)).as_f32 rel = f32.inf
    ∧ (U256.ofNat rel (2 ^ 128 - 2 ^ 103 - 1)).as_f32 rel = f32.make false 0x7f7fffff := by decide +kernel

/-- C35: `U256::as_f64` is always finite and non-negative, and no `f64` lies strictly between it and the value. It is
not always the nearest: see `C35_as_f64_not_nearest`. -/
theorem C35_u256_as_f64_partial (c : Cfg) (x : U256) :
    f64.Faithful (x.toNat c) (x.as_f64 c) ∧ f64.neg (x.as_f64 c) = false := by
  have hle := U256.twoStep_le_pow c x
  have hx := U256.toNat_lt c x
  refine ⟨faithful_of_nat ?_ (U256.val_as_f64 c x) ?_ ?_, ?_⟩
  · rw [U256.as_f64_eq]; exact isFinite_flt (fits_f64 (by omega)) _
  · intro f hf h
    exact le_twoStep (p := 53) (by omega) (by omega) hf (by omega)
  · intro f hf h
    exact twoStep_le (p := 53) (by omega) (by omega) hf (by omega)
  · rw [U256.as_f64_eq]; exact neg_flt (fits_f64 (by omega)) _

example : (U256.ofNat dbg (2 ^ 200 + 2 ^ 150)).as_f64 dbg = f64.ofInt (2 ^ 200 + 2 ^ 150)
    ∧ (U256.MAX).as_f64 rel = f64.ofInt (2 ^ 256) := by decide +kernel

/-- C35: `I256::as_f64`, likewise; the sign bit is that of the value. -/
theorem C35_i256_as_f64_partial (c : Cfg) (x : I256) :
    f64.Faithful (x.toInt c) (x.as_f64 c) ∧ f64.neg (x.as_f64 c) = decide (x.toInt c < 0) := by
  have hle := I256.twoStep_le_pow c x
  have hfit := fits_f64 (n := twoStep 53 128 ((x.toInt c).natAbs / 2 ^ 128) ((x.toInt c).natAbs % 2 ^ 128)) (by omega)
  have hfix : rn f64.p (twoStep 53 128 ((x.toInt c).natAbs / 2 ^ 128) ((x.toInt c).natAbs % 2 ^ 128))
      = twoStep 53 128 ((x.toInt c).natAbs / 2 ^ 128) ((x.toInt c).natAbs % 2 ^ 128) :=
    rn_fix (p := 53) (by omega) (rn_rep (by omega) _)
  rw [I256.as_f64_eq]
  refine ⟨?_, neg_flt hfit _⟩
  have hpos : f64.Faithful ((x.toInt c).natAbs : ℕ)
      (f64.flt false (twoStep 53 128 ((x.toInt c).natAbs / 2 ^ 128) ((x.toInt c).natAbs % 2 ^ 128))) := by
    refine faithful_of_nat (isFinite_flt hfit _) (by rw [val_flt hfit, hfix]; rfl) ?_ ?_
    · intro f hf h
      exact le_twoStep (p := 53) (by omega) (by omega) hf (by omega)
    · intro f hf h
      exact twoStep_le (p := 53) (by omega) (by omega) hf (by omega)
  by_cases h : x.toInt c < 0
  · rw [decide_eq_true h]
    have e : ((x.toInt c : ℤ) : ℚ) = -(((x.toInt c).natAbs : ℕ) : ℚ) := by
      have : x.toInt c = -((x.toInt c).natAbs : ℤ) := by omega
      rw [this]; push_cast; simp
    rw [e]
    refine faithful_opposite hpos (isFinite_flt hfit _) ?_
    rw [val_flt hfit, val_flt hfit]; rfl
  · rw [decide_eq_false h]
    have e : ((x.toInt c : ℤ) : ℚ) = (((x.toInt c).natAbs : ℕ) : ℚ) := by
      have : x.toInt c = ((x.toInt c).natAbs : ℤ) := by omega
      rw [this]; simp
    rw [e]; exact hpos

example : (I256.ofInt dbg (-(2 ^ 200 + 2 ^ 150))).as_f64 dbg = f64.ofInt (-(2 ^ 200 + 2 ^ 150))
    ∧ (I256.MIN rel).as_f64 rel = f64.ofInt (-2 ^ 255) ∧ (I256.ZERO).as_f64 rel = 0 := by decide +kernel

/-- C35: `I256::as_f32` is finite and no `f32` lies strictly between it and the value, up to the point where the two
roundings carry it to `±∞`: half an `f64` digit below the middle between the largest finite `f32` and `2^128`. -/
theorem C35_i256_as_f32_partial (c : Cfg) (x : I256) :
    ((x.toInt c).natAbs < 2 ^ 128 - 2 ^ 103 - 2 ^ 74 → f32.Faithful (x.toInt c) (x.as_f32 c))
    ∧ (2 ^ 128 - 2 ^ 103 - 2 ^ 74 ≤ (x.toInt c).natAbs →
        x.as_f32 c = f32.make (decide (x.toInt c < 0)) f32.infBits)
    ∧ f32.neg (x.as_f32 c) = decide (x.toInt c < 0) := by
  have hle := I256.twoStep_le_pow c x
  have hfit := fits_f64 (n := twoStep 53 128 ((x.toInt c).natAbs / 2 ^ 128) ((x.toInt c).natAbs % 2 ^ 128)) (by omega)
  have hfix : rn f64.p (twoStep 53 128 ((x.toInt c).natAbs / 2 ^ 128) ((x.toInt c).natAbs % 2 ^ 128))
      = twoStep 53 128 ((x.toInt c).natAbs / 2 ^ 128) ((x.toInt c).natAbs % 2 ^ 128) :=
    rn_fix (p := 53) (by omega) (rn_rep (by omega) _)
  unfold I256.as_f32
  rw [I256.as_f64_eq, convert_flt _ hfit, hfix]
  -- where the first rounding reaches the overflow threshold of the second
  have hthr : twoStep 53 128 ((x.toInt c).natAbs / 2 ^ 128) ((x.toInt c).natAbs % 2 ^ 128) < 2 ^ 128 - 2 ^ 103 ↔
      (x.toInt c).natAbs < 2 ^ 128 - 2 ^ 103 - 2 ^ 74 := by
    generalize (x.toInt c).natAbs = n
    have hrT : Rep 53 (2 ^ 128 - 2 ^ 103) := by
      have := rep_of (p := 53) (by omega) (m := 2 ^ 53 - 2 ^ 28) 75 (by omega)
      rwa [show (2 ^ 53 - 2 ^ 28) * 2 ^ 75 = 2 ^ 128 - 2 ^ 103 from rfl] at this
    have hrL : Rep 53 (2 ^ 128 - 2 ^ 103 - 2 ^ 75) := by
      have := rep_of (p := 53) (by omega) (m := 2 ^ 53 - 2 ^ 28 - 1) 75 (by omega)
      rwa [show (2 ^ 53 - 2 ^ 28 - 1) * 2 ^ 75 = 2 ^ 128 - 2 ^ 103 - 2 ^ 75 from rfl] at this
    rcases Nat.lt_or_ge n (2 ^ 128) with hn | hn
    · have e : twoStep 53 128 (n / 2 ^ 128) (n % 2 ^ 128) = rn 53 n := by
        unfold twoStep
        rw [Nat.div_eq_of_lt hn, Nat.mod_eq_of_lt hn, rn_fix (p := 53) (by omega) (rep_of_le (by omega) (Nat.zero_le _)),
          Nat.zero_mul, Nat.zero_add, rn_fix (p := 53) (by omega) (rn_rep (by omega) _)]
      rw [e]
      have nT := rn_nearest (p := 53) (by omega) n hrT
      have nL := rn_nearest (p := 53) (by omega) n hrL
      constructor
      · intro h
        by_contra hc
        rcases Nat.lt_or_ge n (2 ^ 128 - 2 ^ 103) with h1 | h1
        · -- `n` lies between the middle and the threshold
          have h3 : 2 ^ 128 - 2 ^ 103 - 2 ^ 75 ≤ rn 53 n := le_rn (by omega) hrL (by omega)
          -- the value is a multiple of `2^75`
          obtain ⟨g, hg, he⟩ := rep_big (p := 53) (by omega) (rn_rep (by omega) n) (k := 74) (by omega)
          have h4 : rn 53 n = 2 ^ 128 - 2 ^ 103 - 2 ^ 75 := by omega
          have h5 := nT.1
          rw [h4, abs_of_nonpos (by omega), abs_of_nonneg (by omega)] at h5
          have h6 := nT.2 (by omega) (by rw [h4, abs_of_nonpos (by omega), abs_of_nonneg (by omega)]; omega)
          have h7 := even_bits (p := 53) (by omega) (b := roundUnits 53 n 1) (k := 74)
            (by show _ ≤ rn 53 n; omega) (by show rn 53 n < _; omega)
          have h8 : magUnits 53 (roundUnits 53 n 1) = 2 ^ 128 - 2 ^ 103 - 2 ^ 75 := h4
          rw [h8] at h7
          omega
        · have := le_rn (p := 53) (by omega) hrT h1
          omega
      · intro h
        have h1 : rn 53 n ≤ 2 ^ 128 - 2 ^ 103 := rn_le (by omega) hrT (by omega)
        by_contra hc
        have h2 : rn 53 n = 2 ^ 128 - 2 ^ 103 := by omega
        have h5 := nL.1
        rw [h2, abs_of_nonneg (by omega)] at h5
        rcases Nat.lt_or_ge n (2 ^ 128 - 2 ^ 103 - 2 ^ 75) with h9 | h9
        · rw [abs_of_nonneg (by omega)] at h5; omega
        · rw [abs_of_nonpos (by omega)] at h5; omega
    · have h2 := le_twoStep (p := 53) (k := 128) (hi := n / 2 ^ 128) (lo := n % 2 ^ 128) (by omega) (by omega)
        (rep_pow (by omega) 128) (by omega)
      constructor <;> intro h <;> omega
  generalize hS : twoStep 53 128 ((x.toInt c).natAbs / 2 ^ 128) ((x.toInt c).natAbs % 2 ^ 128) = S at *
  by_cases hf : f32.Fits S
  · have hf' := (fits_f32 S).1 hf
    rw [make_roundMag hf]
    refine ⟨fun h => ?_, fun h => absurd (hthr.1 hf') (by omega), neg_flt hf _⟩
    have hpos : f32.Faithful ((x.toInt c).natAbs : ℕ) (f32.flt false S) := by
      have up : ∀ f, Rep 24 f → Rep 53 f := fun f hr => by
        obtain ⟨m, e, hm, rfl⟩ := rep_form (by omega) hr
        exact rep_of (by omega) _ (by omega)
      refine faithful_of_nat (R := rn 24 S) (isFinite_flt hf _) (by rw [val_flt hf]; rfl) ?_ ?_
      · intro f hr h
        have := le_twoStep (p := 53) (k := 128) (hi := (x.toInt c).natAbs / 2 ^ 128)
          (lo := (x.toInt c).natAbs % 2 ^ 128) (by omega) (by omega) (up f hr) (by omega)
        rw [hS] at this
        exact le_rn (by decide) hr this
      · intro f hr h
        have := twoStep_le (p := 53) (k := 128) (hi := (x.toInt c).natAbs / 2 ^ 128)
          (lo := (x.toInt c).natAbs % 2 ^ 128) (by omega) (by omega) (up f hr) (by omega)
        rw [hS] at this
        exact rn_le (by decide) hr this
    by_cases h : x.toInt c < 0
    · rw [decide_eq_true h]
      have e : ((x.toInt c : ℤ) : ℚ) = -(((x.toInt c).natAbs : ℕ) : ℚ) := by
        have : x.toInt c = -((x.toInt c).natAbs : ℤ) := by omega
        rw [this]; push_cast; simp
      rw [e]
      refine faithful_opposite hpos (isFinite_flt hf _) ?_
      rw [val_flt hf, val_flt hf]; rfl
    · rw [decide_eq_false h]
      have e : ((x.toInt c : ℤ) : ℚ) = (((x.toInt c).natAbs : ℕ) : ℚ) := by
        have : x.toInt c = ((x.toInt c).natAbs : ℤ) := by omega
        rw [this]; simp
      rw [e]; exact hpos
  · rw [roundMag_overflow hf]
    refine ⟨fun h => absurd ((fits_f32 S).2 (hthr.2 h)) hf, fun _ => rfl, neg_make _ _ (infBits_lt _)⟩

example : (I256.ofInt dbg (2 ^ 128 - 2 ^ 103 - 2 ^ 74 - 1)).as_f32 dbg = f32.make false (f32.infBits - 1)
    ∧ (I256.ofInt rel (-(2 ^ 128 - 2 ^ 103 - 2 ^ 74))).as_f32 rel = f32.make true f32.infBits
    ∧ (I256.ofInt rel (-(2 ^ 100 + 2 ^ 80))).as_f32 rel = f32.ofInt (-(2 ^ 100 + 2 ^ 80)) := by decide +kernel

/-- C35: a value that is a float is converted to it. (A value with at most 24, respectively 53, significant bits
within range is a float.) -/
theorem C35_exact (c : Cfg) (x : U256) (s : I256) :
    (∀ y : f32.Val, f32.isFinite y = true → f32.val y = x.toNat c → f32.val (x.as_f32 c) = x.toNat c)
    ∧ (∀ y : f64.Val, f64.isFinite y = true → f64.val y = x.toNat c → f64.val (x.as_f64 c) = x.toNat c)
    ∧ (∀ y : f32.Val, f32.isFinite y = true → f32.val y = s.toInt c → f32.val (s.as_f32 c) = s.toInt c)
    ∧ (∀ y : f64.Val, f64.isFinite y = true → f64.val y = s.toInt c → f64.val (s.as_f64 c) = s.toInt c) := by
  -- the largest finite `f32`
  have hmax : ∀ y : f32.Val, f32.isFinite y = true → |f32.val y| ≤ 2 ^ 128 - 2 ^ 104 := by
    intro y hy
    have h1 := (isFinite_iff _ y).1 hy
    have h2 : magUnits 24 (f32.mag y) ≤ magUnits 24 (f32.infBits - 1) := (magUnits_le_iff (by omega)).2 (by omega)
    rw [show magUnits 24 (f32.infBits - 1) = (2 ^ 128 - 2 ^ 104) * 2 ^ 149 by decide +kernel] at h2
    have h3 : (magUnits 24 (f32.mag y) : ℚ) / 2 ^ 149 ≤ 2 ^ 128 - 2 ^ 104 := by
      rw [div_le_iff₀ (by positivity)]
      have : (magUnits 24 (f32.mag y) : ℚ) ≤ ((2 ^ 128 - 2 ^ 104) * 2 ^ 149 : ℕ) := by exact_mod_cast h2
      refine this.trans (le_of_eq ?_)
      norm_num
    have h0 : (0 : ℚ) ≤ (magUnits 24 (f32.mag y) : ℚ) / 2 ^ 149 := by positivity
    rw [val_eq]
    have hp : f32.p = 24 := rfl
    have hk : f32.K = 149 := rfl
    rw [hp, hk]
    split
    · rw [abs_neg, abs_of_nonneg h0]; exact h3
    · rw [abs_of_nonneg h0]; exact h3
  have use : ∀ {t : FloatTy} {q : ℚ} {r : t.Val}, t.Faithful q r → ∀ y : t.Val, t.isFinite y = true → t.val y = q →
      t.val r = q := by
    intro t q r h y hy hv
    have := h.2 y hy
    rw [hv] at this
    exact le_antisymm (this.2 le_rfl) (this.1 le_rfl)
  refine ⟨fun y hy hv => ?_, fun y hy hv => use (C35_u256_as_f64_partial c x).1 y hy hv, fun y hy hv => ?_,
    fun y hy hv => use (C35_i256_as_f64_partial c s).1 y hy hv⟩
  · have hb := hmax y hy
    rw [hv, abs_of_nonneg (by positivity)] at hb
    have hb' : x.toNat c < 2 ^ 128 - 2 ^ 103 := by
      have : (x.toNat c : ℚ) < ((2 ^ 128 - 2 ^ 103 : ℕ) : ℚ) := lt_of_le_of_lt hb (by norm_num)
      exact_mod_cast this
    exact use (faithful_of_nearest ((C35_u256_as_f32 c x).1 hb')) y hy hv
  · have hb := hmax y hy
    rw [hv] at hb
    have hb' : (s.toInt c).natAbs < 2 ^ 128 - 2 ^ 103 - 2 ^ 74 := by
      have : (((s.toInt c).natAbs : ℕ) : ℚ) < ((2 ^ 128 - 2 ^ 103 - 2 ^ 74 : ℕ) : ℚ) := by
        rw [Nat.cast_natAbs, Int.cast_abs]
        exact lt_of_le_of_lt hb (by norm_num)
      exact_mod_cast this
    exact use ((C35_i256_as_f32_partial c s).1 hb') y hy hv

example : f64.isFinite (f64.ofInt (2 ^ 255 - 2 ^ 202)) = true
    ∧ (I256.ofInt dbg (2 ^ 255 - 2 ^ 202)).as_f64 dbg = f64.ofInt (2 ^ 255 - 2 ^ 202) := by decide +kernel

/-- C35: the conversions are monotone (`f32` up to the overflow threshold; beyond it the result is infinite). -/
theorem C35_monotone (c : Cfg) (x y : U256) (h : x.toNat c ≤ y.toNat c) :
    f64.val (x.as_f64 c) ≤ f64.val (y.as_f64 c)
    ∧ (y.toNat c < 2 ^ 128 - 2 ^ 103 → f32.val (x.as_f32 c) ≤ f32.val (y.as_f32 c)) := by
  constructor
  · rw [U256.val_as_f64, U256.val_as_f64]
    have := twoStep_mono (p := 53) (k := 128) (hi := x.toNat c / 2 ^ 128) (lo := x.toNat c % 2 ^ 128)
      (hi' := y.toNat c / 2 ^ 128) (lo' := y.toNat c % 2 ^ 128) (by omega) (by omega) (by omega) (by omega)
    exact_mod_cast this
  · intro hy
    have hv : ∀ z : U256, z.toNat c < 2 ^ 128 - 2 ^ 103 → f32.val (z.as_f32 c) = (rn 24 (z.toNat c) : ℕ) := by
      intro z hz
      have hf := (fits_f32 _).2 hz
      have h2 := (z.low c).isLt
      have hv := U256.toNat_eq c z
      have hh : z.high c = 0 := BitVec.eq_of_toNat_eq (show (z.high c).toNat = 0 by omega)
      have hl : z.toNat c = (z.low c).toNat := by rw [hh] at hv; simpa using hv
      unfold U256.as_f32
      rw [U256.into_words_eq]
      dsimp only
      rw [if_pos hh, ← hl, ofInt_nat _ hf, val_flt hf]
      rfl
    rw [hv x (by omega), hv y hy]
    have := rn_mono (p := 24) (by omega) h
    exact_mod_cast this

example : (U256.ofNat dbg (2 ^ 54 * 2 ^ 128 - 1)).toNat dbg ≤ (U256.ofNat dbg (2 ^ 54 * 2 ^ 128 + 1)).toNat dbg := by decide

/-- C35: the signed conversion is monotone too. -/
theorem C35_monotone_signed (c : Cfg) (x y : I256) (h : x.toInt c ≤ y.toInt c) :
    f64.val (x.as_f64 c) ≤ f64.val (y.as_f64 c) := by
  have hv : ∀ z : I256, f64.val (z.as_f64 c) =
      if z.toInt c < 0 then -((twoStep 53 128 ((z.toInt c).natAbs / 2 ^ 128) ((z.toInt c).natAbs % 2 ^ 128) : ℕ) : ℚ)
      else (twoStep 53 128 ((z.toInt c).natAbs / 2 ^ 128) ((z.toInt c).natAbs % 2 ^ 128) : ℕ) := by
    intro z
    have hle := I256.twoStep_le_pow c z
    have hfix : rn f64.p (twoStep 53 128 ((z.toInt c).natAbs / 2 ^ 128) ((z.toInt c).natAbs % 2 ^ 128))
        = twoStep 53 128 ((z.toInt c).natAbs / 2 ^ 128) ((z.toInt c).natAbs % 2 ^ 128) :=
      rn_fix (p := 53) (by omega) (rn_rep (by omega) _)
    rw [I256.as_f64_eq, val_flt (fits_f64 (by omega)), hfix]
    by_cases hz : z.toInt c < 0
    · rw [decide_eq_true hz, if_pos rfl, if_pos hz]
    · rw [decide_eq_false hz, if_neg hz]; rfl
  rw [hv, hv]
  have mono : ∀ n m : ℕ, n ≤ m →
      ((twoStep 53 128 (n / 2 ^ 128) (n % 2 ^ 128) : ℕ) : ℚ) ≤ (twoStep 53 128 (m / 2 ^ 128) (m % 2 ^ 128) : ℕ) := by
    intro n m hnm
    have := twoStep_mono (p := 53) (k := 128) (hi := n / 2 ^ 128) (lo := n % 2 ^ 128)
      (hi' := m / 2 ^ 128) (lo' := m % 2 ^ 128) (by omega) (by omega) (by omega) (by omega)
    exact_mod_cast this
  split
  · split
    · exact neg_le_neg (mono _ _ (by omega))
    · have h1 : (0 : ℚ) ≤ (twoStep 53 128 ((x.toInt c).natAbs / 2 ^ 128) ((x.toInt c).natAbs % 2 ^ 128) : ℕ) :=
        Nat.cast_nonneg _
      have h2 : (0 : ℚ) ≤ (twoStep 53 128 ((y.toInt c).natAbs / 2 ^ 128) ((y.toInt c).natAbs % 2 ^ 128) : ℕ) :=
        Nat.cast_nonneg _
      linarith
  · rw [if_neg (by omega)]
    exact mono _ _ (by omega)

example : (I256.MIN dbg).toInt dbg ≤ (I256.ofInt dbg (-2 ^ 200)).toInt dbg
    ∧ (I256.ofInt dbg (-2 ^ 200)).as_f64 dbg = f64.ofInt (-2 ^ 200) := by decide +kernel

/-- C35, refuted in part: `U256::as_f64` and `I256::as_f64` do not always return the nearest `f64`, because the halves
are rounded before they are added. `(2^53 + 1) * 2^128 + 2^127` is above the middle between `2^53 * 2^128` and
`(2^53 + 2) * 2^128` but is converted to the lower one. -/
theorem C35_as_f64_not_nearest (c : Cfg) :
    ¬ f64.NearestEven ((2 ^ 53 + 1) * 2 ^ 128 + 2 ^ 127 : ℕ) ((U256.ofNat c ((2 ^ 53 + 1) * 2 ^ 128 + 2 ^ 127)).as_f64 c)
    ∧ ¬ f64.NearestEven ((2 ^ 53 + 1) * 2 ^ 128 + 2 ^ 127 : ℕ)
        ((I256.ofInt c ((2 ^ 53 + 1) * 2 ^ 128 + 2 ^ 127)).as_f64 c) := by
  have e : ∀ z : ℕ, z = (2 ^ 53 + 1) * 2 ^ 128 + 2 ^ 127 → f64.flt false (twoStep 53 128 (z / 2 ^ 128) (z % 2 ^ 128))
      = f64.make false 0x4b40000000000000 := by
    intro z hz; subst hz; decide +kernel
  have hu : (U256.ofNat c ((2 ^ 53 + 1) * 2 ^ 128 + 2 ^ 127)).as_f64 c = f64.make false 0x4b40000000000000 := by
    rw [U256.as_f64_eq]
    exact e _ (by rw [U256.toNat_ofNat_of_lt c (by norm_num)])
  have hi : (I256.ofInt c ((2 ^ 53 + 1) * 2 ^ 128 + 2 ^ 127)).as_f64 c = f64.make false 0x4b40000000000000 := by
    rw [I256.as_f64_eq]
    have h1 : (I256.ofInt c ((2 ^ 53 + 1) * 2 ^ 128 + 2 ^ 127)).toInt c = (2 ^ 53 + 1) * 2 ^ 128 + 2 ^ 127 :=
      I256.toInt_ofInt_of_in c (by unfold InI256; norm_num)
    rw [h1]
    exact e _ rfl
  rw [hu, hi, and_self]
  intro h
  have h2 := (h.2 (f64.make false 0x4b40000000000001) (by decide)).1
  rw [val_make _ _ (by decide), val_make _ _ (by decide)] at h2
  simp only [Bool.false_eq_true, if_false] at h2
  rw [show magUnits f64.p 0x4b40000000000000 = 2 ^ 53 * 2 ^ 128 * 2 ^ 1074 by decide +kernel,
    show magUnits f64.p 0x4b40000000000001 = (2 ^ 53 + 2) * 2 ^ 128 * 2 ^ 1074 by decide +kernel] at h2
  have hk : f64.K = 1074 := rfl
  rw [hk] at h2
  push_cast at h2
  have h0 : (2 : ℚ) ^ 1074 ≠ 0 := by positivity
  rw [mul_div_cancel_right₀ _ h0, mul_div_cancel_right₀ _ h0] at h2
  norm_num [abs_of_nonpos, abs_of_nonneg] at h2

/-- C35, refuted in part: `I256::as_f32` rounds twice (to `f64`, then to `f32`) and does not always return the nearest
`f32`: `2^60 + 2^36 + 1` is above the middle between `2^60` and `2^60 + 2^37` but is converted to `2^60`. -/
theorem C35_i256_as_f32_not_nearest (c : Cfg) :
    ¬ f32.NearestEven (2 ^ 60 + 2 ^ 36 + 1 : ℕ) ((I256.ofInt c (2 ^ 60 + 2 ^ 36 + 1)).as_f32 c) := by
  have hi : (I256.ofInt c (2 ^ 60 + 2 ^ 36 + 1)).as_f32 c = f32.make false 0x5d800000 := by
    unfold I256.as_f32
    rw [I256.as_f64_eq]
    have h1 : (I256.ofInt c (2 ^ 60 + 2 ^ 36 + 1)).toInt c = 2 ^ 60 + 2 ^ 36 + 1 :=
      I256.toInt_ofInt_of_in c (by unfold InI256; norm_num)
    rw [h1]
    decide +kernel
  rw [hi]
  intro h
  have h2 := (h.2 (f32.make false 0x5d800001) (by decide)).1
  rw [val_make _ _ (by decide), val_make _ _ (by decide)] at h2
  simp only [Bool.false_eq_true, if_false] at h2
  rw [show magUnits f32.p 0x5d800000 = 2 ^ 60 * 2 ^ 149 by decide +kernel,
    show magUnits f32.p 0x5d800001 = (2 ^ 60 + 2 ^ 37) * 2 ^ 149 by decide +kernel] at h2
  have hk : f32.K = 149 := rfl
  rw [hk] at h2
  push_cast at h2
  norm_num [abs_of_nonpos, abs_of_nonneg] at h2

end Ethnum
