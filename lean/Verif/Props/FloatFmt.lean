import Verif.Props.Float

/-
C48 exponent formatting and the `From` conversions into floating point types.

The digits of a float are the standard library's: the claims are for any formatting of `f64`.
-/

namespace Ethnum
open FloatTy

/-- C48: `{:e}` and `{:E}` on `U256` show a non-negative `f64` with no other `f64` strictly between it and the value,
in the way the standard library shows that float. -/
theorem C48_u256_exp (c : Cfg) (F : F64Fmt) (x : U256) (f : Formatter) :
    ∃ v : f64.Val, f64.Faithful (x.toNat c) v ∧ f64.neg v = false
      ∧ x.lower_exp c F f = F.lower v f ∧ x.upper_exp c F f = F.upper v f :=
  ⟨x.as_f64 c, (C35_u256_as_f64_partial c x).1, (C35_u256_as_f64_partial c x).2, rfl, rfl⟩

example : (U256.ofNat dbg 1000).lower_exp dbg ⟨fun v _ => if v = f64.ofInt 1000 then ['1', 'e', '3'] else [], fun _ _ => []⟩
    .default = ['1', 'e', '3'] := by decide +kernel

/-- C48: likewise on `I256`; the float shown has the sign of the value. -/
theorem C48_i256_exp (c : Cfg) (F : F64Fmt) (x : I256) (f : Formatter) :
    ∃ v : f64.Val, f64.Faithful (x.toInt c) v ∧ f64.neg v = decide (x.toInt c < 0)
      ∧ x.lower_exp c F f = F.lower v f ∧ x.upper_exp c F f = F.upper v f :=
  ⟨x.as_f64 c, (C35_i256_as_f64_partial c x).1, (C35_i256_as_f64_partial c x).2, rfl, rfl⟩

example : (I256.ofInt rel (-1000)).upper_exp rel
    ⟨fun _ _ => [], fun v _ => if v = f64.ofInt (-1000) then ['-', '1', 'E', '3'] else []⟩
    .default = ['-', '1', 'E', '3'] := by decide +kernel

/-- A finite float is determined by its value and sign bit. -/
theorem FloatTy.val_inj {t : FloatTy} {a b : t.Val} (hn : t.neg a = t.neg b) (h : t.val a = t.val b) : a = b := by
  rw [val_eq, val_eq, hn] at h
  have hk : (2 : ℚ) ^ t.K ≠ 0 := by positivity
  have h' : magUnits t.p (t.mag a) = magUnits t.p (t.mag b) := by
    split at h
    · rw [neg_inj, div_left_inj' hk] at h; exact_mod_cast h
    · rw [div_left_inj' hk] at h; exact_mod_cast h
  have h2 := magUnits_inj (two_le_p t) h'
  rw [← make_neg_mag t a, ← make_neg_mag t b, hn, h2]

/-- C48: a value that is an `f64` (for instance any up to `2^53`) is shown as that float. -/
theorem C48_exact (c : Cfg) (F : F64Fmt) (x : U256) (s : I256) (f : Formatter) (y : f64.Val)
    (hy : f64.isFinite y = true) :
    (f64.val y = x.toNat c → f64.neg y = false → x.lower_exp c F f = F.lower y f ∧ x.upper_exp c F f = F.upper y f)
    ∧ (f64.val y = s.toInt c → f64.neg y = decide (s.toInt c < 0) →
        s.lower_exp c F f = F.lower y f ∧ s.upper_exp c F f = F.upper y f) := by
  constructor
  · intro h hn
    have e : x.as_f64 c = y := FloatTy.val_inj ((C35_u256_as_f64_partial c x).2.trans hn.symm)
      (((C35_exact c x s).2.1 y hy h).trans h.symm)
    unfold U256.lower_exp U256.upper_exp
    rw [e]; exact ⟨rfl, rfl⟩
  · intro h hn
    have e : s.as_f64 c = y := FloatTy.val_inj ((C35_i256_as_f64_partial c s).2.trans hn.symm)
      (((C35_exact c x s).2.2.2 y hy h).trans h.symm)
    unfold I256.lower_exp I256.upper_exp
    rw [e]; exact ⟨rfl, rfl⟩

example : f64.isFinite (f64.ofInt (-42)) = true ∧ f64.neg (f64.ofInt (-42)) = true
    ∧ (I256.ofInt dbg (-42)).as_f64 dbg = f64.ofInt (-42) := by decide +kernel

/-- C48: the two types show the same text for the same number. -/
theorem C48_types_agree (c : Cfg) (F : F64Fmt) (x : U256) (s : I256) (f : Formatter)
    (h : (x.toNat c : ℤ) = s.toInt c) :
    x.lower_exp c F f = s.lower_exp c F f ∧ x.upper_exp c F f = s.upper_exp c F f := by
  have e : x.as_f64 c = s.as_f64 c := by
    rw [U256.as_f64_eq, I256.as_f64_eq, ← h, Int.natAbs_natCast, decide_eq_false (by omega)]
  unfold U256.lower_exp U256.upper_exp I256.lower_exp I256.upper_exp
  rw [e]; exact ⟨rfl, rfl⟩

example : ((U256.ofNat dbg (2 ^ 254 + 1)).toNat dbg : ℤ) = (I256.ofInt dbg (2 ^ 254 + 1)).toInt dbg := by decide

/-- C48, refuted in part: unlike the primitive integers, which show all their digits, different values are shown
alike, whatever the formatting of floats is. -/
theorem C48_not_injective (c : Cfg) (F : F64Fmt) (f : Formatter) :
    (U256.ofNat c (2 ^ 53)).lower_exp c F f = (U256.ofNat c (2 ^ 53 + 1)).lower_exp c F f
    ∧ (I256.ofInt c (-2 ^ 53)).upper_exp c F f = (I256.ofInt c (-(2 ^ 53 + 1))).upper_exp c F f
    ∧ (U256.ofNat c (2 ^ 53)).toNat c ≠ (U256.ofNat c (2 ^ 53 + 1)).toNat c
    ∧ (I256.ofInt c (-2 ^ 53)).toInt c ≠ (I256.ofInt c (-(2 ^ 53 + 1))).toInt c := by
  unfold U256.lower_exp I256.upper_exp
  rw [U256.as_f64_eq, U256.as_f64_eq, I256.as_f64_eq, I256.as_f64_eq,
    U256.toNat_ofNat_of_lt c (by norm_num), U256.toNat_ofNat_of_lt c (by norm_num),
    I256.toInt_ofInt_of_in c (by unfold InI256; norm_num), I256.toInt_ofInt_of_in c (by unfold InI256; norm_num)]
  have h1 : f64.flt false (twoStep 53 128 (2 ^ 53 / 2 ^ 128) (2 ^ 53 % 2 ^ 128))
      = f64.flt false (twoStep 53 128 ((2 ^ 53 + 1) / 2 ^ 128) ((2 ^ 53 + 1) % 2 ^ 128)) := by decide +kernel
  have h2 : f64.flt (decide ((-2 ^ 53 : ℤ) < 0)) (twoStep 53 128 ((-2 ^ 53 : ℤ).natAbs / 2 ^ 128) ((-2 ^ 53 : ℤ).natAbs % 2 ^ 128))
      = f64.flt (decide ((-(2 ^ 53 + 1) : ℤ) < 0))
        (twoStep 53 128 ((-(2 ^ 53 + 1) : ℤ).natAbs / 2 ^ 128) ((-(2 ^ 53 + 1) : ℤ).natAbs % 2 ^ 128)) := by decide +kernel
  rw [h1, h2]
  exact ⟨rfl, rfl, by norm_num, by norm_num⟩

/-- Below `2^128` there is a single rounding. -/
theorem flt_twoStep_low {n : ℕ} {s : Bool} (h : n < 2 ^ 128) :
    f64.flt s (twoStep 53 128 (n / 2 ^ 128) (n % 2 ^ 128)) = f64.flt s n := by
  rw [Nat.div_eq_of_lt h, Nat.mod_eq_of_lt h]
  unfold twoStep
  rw [rn_fix (p := 53) (by omega) (rep_of_le (by omega) (Nat.zero_le _)), Nat.zero_mul, Nat.zero_add]
  exact (flt_rn s (rn 53 n)).trans (flt_rn s n)

/-- A faithful `f64` of a natural number below `2^257` is within one part in `2^52` of it. -/
theorem faithful_error {n : ℕ} {v : f64.Val} (hn : n < 2 ^ 257) (h : f64.Faithful n v) :
    |f64.val v - n| * 2 ^ 52 ≤ n := by
  have flt_val : ∀ m e : ℕ, m ≤ 2 ^ 53 → m * 2 ^ e ≤ 2 ^ 258 →
      ∃ y : f64.Val, f64.isFinite y = true ∧ f64.val y = ((m * 2 ^ e : ℕ) : ℚ) := by
    intro m e hm hle
    have hfit := fits_f64 hle
    refine ⟨f64.flt false (m * 2 ^ e), isFinite_flt hfit _, ?_⟩
    have hfix : rn f64.p (m * 2 ^ e) = m * 2 ^ e := rn_fix (p := 53) (by omega) (rep_of (by omega) e hm)
    rw [val_flt hfit, hfix]
    rfl
  -- the digit in the last place
  obtain ⟨e, he1, he2, he3⟩ : ∃ e, n < 2 ^ 53 * 2 ^ e ∧ (e = 0 ∨ 2 ^ 52 * 2 ^ e ≤ n) ∧ e ≤ 204 := by
    have h1 := size_lt n
    by_cases hs : size n ≤ 53
    · exact ⟨0, lt_of_lt_of_le h1 (by rw [pow_zero, mul_one]; exact Nat.pow_le_pow_right (by omega) hs), .inl rfl,
        by omega⟩
    · have h0 : n ≠ 0 := by rintro rfl; exact hs (by decide)
      have h2 := size_le h0
      have h3 : size n ≤ 257 := size_le_of_lt hn
      refine ⟨size n - 53, ?_, .inr ?_, by omega⟩
      · rw [← pow_add]; rwa [show 53 + (size n - 53) = size n by omega]
      · rw [← pow_add]; rwa [show 52 + (size n - 53) = size n - 1 by omega]
  have hpos : 0 < 2 ^ e := by positivity
  have hm : n / 2 ^ e < 2 ^ 53 := (Nat.div_lt_iff_lt_mul hpos).2 he1
  have hd := Nat.div_add_mod n (2 ^ e)
  have hr := Nat.mod_lt n hpos
  have h204 : 2 ^ e ≤ 2 ^ 204 := Nat.pow_le_pow_right (by omega) he3
  have hle1 : n / 2 ^ e * 2 ^ e ≤ n := Nat.div_mul_le_self _ _
  have hle2 : n < (n / 2 ^ e + 1) * 2 ^ e := by rw [add_mul, one_mul, mul_comm]; omega
  obtain ⟨y1, hf1, hv1⟩ := flt_val (n / 2 ^ e) e hm.le (by omega)
  obtain ⟨y2, hf2, hv2⟩ := flt_val (n / 2 ^ e + 1) e hm (by rw [add_mul, one_mul]; omega)
  have hl := (h.2 y1 hf1).1 (by rw [hv1]; exact_mod_cast hle1)
  have hu := (h.2 y2 hf2).2 (by rw [hv2]; exact_mod_cast hle2.le)
  rw [hv1] at hl
  rw [hv2] at hu
  have hle1' : ((n / 2 ^ e * 2 ^ e : ℕ) : ℚ) ≤ n := by exact_mod_cast hle1
  have hle2' : (n : ℚ) ≤ ((n / 2 ^ e + 1) * 2 ^ e : ℕ) := by exact_mod_cast hle2.le
  have hgap : (((n / 2 ^ e + 1) * 2 ^ e : ℕ) : ℚ) = ((n / 2 ^ e * 2 ^ e : ℕ) : ℚ) + ((2 ^ e : ℕ) : ℚ) := by
    rw [add_mul, one_mul]; push_cast; ring
  have herr : |f64.val v - n| ≤ ((2 ^ e : ℕ) : ℚ) := by
    rw [abs_le]; constructor <;> linarith
  rcases he2 with rfl | he2
  · -- exact
    rw [pow_zero, Nat.div_one, mul_one] at hv1
    have hl' := (h.2 y1 hf1).1 (by rw [hv1])
    have hu' := (h.2 y1 hf1).2 (by rw [hv1])
    rw [hv1] at hl' hu'
    have : f64.val v = n := le_antisymm hu' hl'
    rw [this]; simp
  · have he2' : ((2 ^ 52 * 2 ^ e : ℕ) : ℚ) ≤ n := by exact_mod_cast he2
    rw [Nat.cast_mul] at he2'
    calc |f64.val v - (n : ℚ)| * 2 ^ 52 ≤ ((2 ^ e : ℕ) : ℚ) * 2 ^ 52 := by
          exact mul_le_mul_of_nonneg_right herr (by positivity)
      _ ≤ (n : ℚ) := by rw [mul_comm]; exact_mod_cast he2'

/-- C35: the result of `as_f64` is off by at most one part in `2^52`, for every value of both types. -/
theorem C35_relative_error (c : Cfg) (x : U256) (s : I256) :
    |f64.val (x.as_f64 c) - x.toNat c| * 2 ^ 52 ≤ x.toNat c
    ∧ |f64.val (s.as_f64 c) - s.toInt c| * 2 ^ 52 ≤ |(s.toInt c : ℚ)| := by
  refine ⟨faithful_error (by have := U256.toNat_lt c x; omega) (C35_u256_as_f64_partial c x).1, ?_⟩
  have h := (C35_i256_as_f64_partial c s).1
  have hb1 := I256.le_toInt c s
  have hb2 := I256.toInt_lt c s
  by_cases hn : s.toInt c < 0
  · obtain ⟨y, hy, hv⟩ := exists_opposite f64 (s.as_f64 c) h.1
    have hq : (-(s.toInt c : ℚ)) = (((s.toInt c).natAbs : ℕ) : ℚ) := by
      have : s.toInt c = -((s.toInt c).natAbs : ℤ) := by omega
      rw [this]; push_cast; simp
    have hf : f64.Faithful (((s.toInt c).natAbs : ℕ) : ℚ) y := by
      rw [← hq]; exact faithful_opposite h hy hv
    have h2 := faithful_error (by omega) hf
    rw [hv, ← hq] at h2
    have hn' : (s.toInt c : ℚ) < 0 := by exact_mod_cast hn
    rw [abs_of_neg hn']
    rwa [show -f64.val (s.as_f64 c) - -(s.toInt c : ℚ) = -(f64.val (s.as_f64 c) - s.toInt c) by ring, abs_neg] at h2
  · have hq : (s.toInt c : ℚ) = (((s.toInt c).natAbs : ℕ) : ℚ) := by
      have : s.toInt c = ((s.toInt c).natAbs : ℤ) := by omega
      rw [this]; simp
    rw [hq] at h ⊢
    have h2 := faithful_error (by omega) h
    rwa [Nat.abs_cast]

example : (U256.ofNat dbg ((2 ^ 53 + 2) * 2 ^ 128 - 1)).as_f64 dbg = f64.ofInt (2 ^ 53 * 2 ^ 128) := by decide +kernel

/-! ### Order, infinities included -/

theorem FloatTy.roundMag_mono {t : FloatTy} {n m : ℕ} (h : n ≤ m) : t.roundMag n 1 ≤ t.roundMag m 1 := by
  unfold roundMag
  have : roundUnits t.p (n * 2 ^ t.K) 1 ≤ roundUnits t.p (m * 2 ^ t.K) 1 := by
    rw [← magUnits_le_iff (two_le_p t), rn_scale (two_le_p t), rn_scale (two_le_p t)]
    exact Nat.mul_le_mul_right _ (rn_mono (two_le_p t) h)
  omega

/-- Comparison of rounded integers given by sign and magnitude. -/
theorem FloatTy.ge_make {t : FloatTy} {a b : ℤ} {n m : ℕ}
    (hab : a ≤ b) (hpos : 0 ≤ a → n ≤ m) (hneg : b < 0 → m ≤ n) :
    t.ge (t.make (decide (b < 0)) (t.roundMag m 1)) (t.make (decide (a < 0)) (t.roundMag n 1)) = true := by
  have hi := infBits_lt t
  have hle : ∀ k, t.roundMag k 1 ≤ t.infBits := fun k => Nat.min_le_right _ _
  have h1 := hle n
  have h2 := hle m
  unfold ge isNaN key
  rw [neg_make t _ (by omega), neg_make t _ (by omega), mag_make t _ (by omega), mag_make t _ (by omega)]
  simp only [decide_eq_true_eq, Bool.and_eq_true, Bool.not_eq_true', decide_eq_false_iff_not, not_lt]
  refine ⟨⟨h2, h1⟩, ?_⟩
  by_cases ha : a < 0
  · rw [if_pos ha]
    by_cases hb : b < 0
    · rw [if_pos hb]
      have := FloatTy.roundMag_mono (t := t) (hneg hb)
      omega
    · rw [if_neg hb]; omega
  · rw [if_neg ha, if_neg (by omega)]
    have := FloatTy.roundMag_mono (t := t) (hpos (by omega))
    omega

/-- C35: the conversions respect the order, in the sense of the comparison `>=` of floats, infinite results included. -/
theorem C35_order (c : Cfg) (x y : U256) (a b : I256) :
    (x.toNat c ≤ y.toNat c → f64.ge (y.as_f64 c) (x.as_f64 c) = true ∧ f32.ge (y.as_f32 c) (x.as_f32 c) = true)
    ∧ (a.toInt c ≤ b.toInt c → f64.ge (b.as_f64 c) (a.as_f64 c) = true ∧ f32.ge (b.as_f32 c) (a.as_f32 c) = true) := by
  have mono : ∀ n m : ℕ, n ≤ m →
      twoStep 53 128 (n / 2 ^ 128) (n % 2 ^ 128) ≤ twoStep 53 128 (m / 2 ^ 128) (m % 2 ^ 128) := fun n m h =>
    twoStep_mono (p := 53) (k := 128) (by omega) (by omega) (by omega) (by omega)
  constructor
  · intro h
    constructor
    · have h1 := U256.twoStep_le_pow c x
      have h2 := U256.twoStep_le_pow c y
      rw [U256.as_f64_eq, U256.as_f64_eq, ← make_roundMag (fits_f64 (by omega)), ← make_roundMag (fits_f64 (by omega))]
      have := FloatTy.ge_make (t := .f64) (a := 0) (b := 0) le_rfl (fun _ => mono _ _ h) (fun h => absurd h (by omega))
      exact this
    · have e : ∀ z : U256, z.as_f32 c = f32.make false (f32.roundMag (z.toNat c) 1) := by
        intro z
        have hl := (z.low c).isLt
        have hv := U256.toNat_eq c z
        unfold U256.as_f32
        rw [U256.into_words_eq]
        dsimp only
        by_cases hh : z.high c = 0
        · have hlow : z.toNat c = (z.low c).toNat := by rw [hh] at hv; simpa using hv
          rw [if_pos hh, hlow]
          unfold FloatTy.ofInt
          rw [decide_eq_false (by omega), Int.natAbs_natCast]
        · have : (z.high c).toNat ≠ 0 := fun h => hh (BitVec.eq_of_toNat_eq h)
          rw [if_neg hh, roundMag_overflow (by rw [fits_f32]; omega)]
          rfl
      rw [e, e]
      have := FloatTy.ge_make (t := .f32) (a := 0) (b := 0) le_rfl (fun _ => h) (fun h => absurd h (by omega))
      exact this
  · intro h
    have h1 := I256.twoStep_le_pow c a
    have h2 := I256.twoStep_le_pow c b
    constructor
    · rw [I256.as_f64_eq, I256.as_f64_eq, ← make_roundMag (fits_f64 (by omega)), ← make_roundMag (fits_f64 (by omega))]
      exact FloatTy.ge_make h (fun _ => mono _ _ (by omega)) (fun _ => mono _ _ (by omega))
    · have e : ∀ z : I256, z.as_f32 c = f32.make (decide (z.toInt c < 0)) (f32.roundMag
          (twoStep 53 128 ((z.toInt c).natAbs / 2 ^ 128) ((z.toInt c).natAbs % 2 ^ 128)) 1) := by
        intro z
        have h3 := I256.twoStep_le_pow c z
        have hfix : rn f64.p (twoStep 53 128 ((z.toInt c).natAbs / 2 ^ 128) ((z.toInt c).natAbs % 2 ^ 128))
            = twoStep 53 128 ((z.toInt c).natAbs / 2 ^ 128) ((z.toInt c).natAbs % 2 ^ 128) :=
          rn_fix (p := 53) (by omega) (rn_rep (by omega) _)
        unfold I256.as_f32
        rw [I256.as_f64_eq, convert_flt _ (fits_f64 (by omega)), hfix]
      rw [e, e]
      exact FloatTy.ge_make h (fun _ => mono _ _ (by omega)) (fun _ => mono _ _ (by omega))

example : (I256.MIN dbg).toInt dbg ≤ (I256.ofInt dbg (-2 ^ 100)).toInt dbg
    ∧ f32.ge ((I256.MIN dbg).as_f32 dbg) ((I256.ofInt dbg (-2 ^ 100)).as_f32 dbg) = false
    ∧ f64.ge ((U256.ofNat rel 7).as_f64 rel) ((U256.ofNat rel 8).as_f64 rel) = false := by decide +kernel

/-- C48: `f32::from` and `f64::from` on `U256`: the `f32` nearest to the value, or infinity from half-way past the
largest `f32`; an `f64` with no other `f64` strictly between it and the value, the nearest one below `2^128`. -/
theorem C48_u256_from (c : Cfg) (x : U256) :
    (x.toNat c < 2 ^ 128 - 2 ^ 103 → f32.NearestEven (x.toNat c) (x.into_f32 c))
    ∧ (2 ^ 128 - 2 ^ 103 ≤ x.toNat c → x.into_f32 c = f32.inf)
    ∧ f64.Faithful (x.toNat c) (x.into_f64 c)
    ∧ (x.toNat c < 2 ^ 128 → f64.NearestEven (x.toNat c) (x.into_f64 c)) := by
  refine ⟨(C35_u256_as_f32 c x).1, (C35_u256_as_f32 c x).2.1, (C35_u256_as_f64_partial c x).1, fun h => ?_⟩
  unfold U256.into_f64
  rw [U256.as_f64_eq, flt_twoStep_low h]
  exact nearest_flt (fits_f64 (by omega))

example : (2 : ℕ) ^ 53 + 3 < 2 ^ 128 ∧ (U256.ofNat dbg (2 ^ 53 + 3)).into_f64 dbg = f64.ofInt (2 ^ 53 + 4)
    ∧ (U256.ofNat rel (2 ^ 24 + 3)).into_f32 rel = f32.ofInt (2 ^ 24 + 4)
    ∧ (U256.MAX).into_f32 rel = f32.inf := by decide +kernel

/-- C48: `f32::from` and `f64::from` on `I256`: no float lies strictly between the result and the value, up to where
`f32` overflows to an infinity of the same sign; the `f64` is the nearest one below `2^128` in magnitude. -/
theorem C48_i256_from (c : Cfg) (x : I256) :
    ((x.toInt c).natAbs < 2 ^ 128 - 2 ^ 103 - 2 ^ 74 → f32.Faithful (x.toInt c) (x.into_f32 c))
    ∧ (2 ^ 128 - 2 ^ 103 - 2 ^ 74 ≤ (x.toInt c).natAbs →
        x.into_f32 c = f32.make (decide (x.toInt c < 0)) f32.infBits)
    ∧ f64.Faithful (x.toInt c) (x.into_f64 c)
    ∧ ((x.toInt c).natAbs < 2 ^ 128 → f64.NearestEven (x.toInt c) (x.into_f64 c)) := by
  refine ⟨(C35_i256_as_f32_partial c x).1, (C35_i256_as_f32_partial c x).2.1, (C35_i256_as_f64_partial c x).1,
    fun h => ?_⟩
  unfold I256.into_f64
  rw [I256.as_f64_eq, flt_twoStep_low h]
  have hfit : f64.Fits (x.toInt c).natAbs := fits_f64 (by omega)
  have hpos := nearest_flt (t := .f64) hfit
  by_cases hn : x.toInt c < 0
  · rw [decide_eq_true hn]
    have e : ((x.toInt c : ℤ) : ℚ) = -(((x.toInt c).natAbs : ℕ) : ℚ) := by
      have : x.toInt c = -((x.toInt c).natAbs : ℤ) := by omega
      rw [this]; push_cast; simp
    rw [e]
    exact nearest_opposite hpos (by rw [mag_flt hfit, mag_flt hfit])
      (by rw [val_flt hfit, val_flt hfit]; rfl)
  · rw [decide_eq_false hn]
    have e : ((x.toInt c : ℤ) : ℚ) = (((x.toInt c).natAbs : ℕ) : ℚ) := by
      have : x.toInt c = ((x.toInt c).natAbs : ℤ) := by omega
      rw [this]; simp
    rw [e]; exact hpos

example : (I256.ofInt dbg (-(2 ^ 53 + 3))).into_f64 dbg = f64.ofInt (-(2 ^ 53 + 4))
    ∧ (I256.ofInt rel (-(2 ^ 24 + 3))).into_f32 rel = f32.ofInt (-(2 ^ 24 + 4))
    ∧ (I256.MIN rel).into_f32 rel = f32.make true f32.infBits := by decide +kernel

end Ethnum
