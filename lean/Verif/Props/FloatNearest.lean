import Verif.Props.Float

/-
C35: when the conversions to floating point that round more than once do return the nearest float.
-/

namespace Ethnum
open FloatTy

/-- A natural number that is the magnitude of a float is representable. -/
theorem FloatTy.rep_of_val {t : FloatTy} {y : t.Val} {n : Nat} (h : |t.val y| = n) : Rep t.p n := by
  have hp := two_le_p t
  have hK : (0 : ℚ) < 2 ^ t.K := by positivity
  have h0 : (0 : ℚ) ≤ (magUnits t.p (t.mag y) : ℚ) / 2 ^ t.K := by positivity
  have h1 : (magUnits t.p (t.mag y) : ℚ) / 2 ^ t.K = n := by
    rw [← h, val_eq]
    split
    · rw [abs_neg, abs_of_nonneg h0]
    · rw [abs_of_nonneg h0]
  have h2 : magUnits t.p (t.mag y) = n * 2 ^ t.K := by
    rw [div_eq_iff hK.ne'] at h1
    exact_mod_cast h1
  have h3 := rn_scale hp n t.K
  have h4 : Rep t.p (n * 2 ^ t.K) := ⟨_, h2⟩
  have h5 : rn t.p (n * 2 ^ t.K) = n * 2 ^ t.K := rn_fix hp h4
  have h6 : rn t.p n * 2 ^ t.K = n * 2 ^ t.K := h3.symm.trans h5
  have h7 : rn t.p n = n := Nat.eq_of_mul_eq_mul_right (Nat.two_pow_pos _) h6
  rw [← h7]
  exact rn_rep hp n

/-- The two roundings and the sum are one rounding when the parts are exact, or there is one part only. -/
theorem twoStep_eq_rn {p k n : Nat} (hp : 2 ≤ p) (h : n < 2 ^ k ∨ Rep p (n / 2 ^ k) ∧ Rep p (n % 2 ^ k)) :
    twoStep p k (n / 2 ^ k) (n % 2 ^ k) = rn p n := by
  unfold twoStep
  rcases h with h | ⟨h1, h2⟩
  · rw [Nat.div_eq_of_lt h, Nat.mod_eq_of_lt h, rn_fix hp (rep_of_le hp (Nat.zero_le _)), Nat.zero_mul, Nat.zero_add,
      rn_fix hp (rn_rep hp _)]
  · rw [rn_fix hp h1, rn_fix hp h2, Nat.div_add_mod']

/-- A rounded magnitude with a sign is nearest to the signed number. -/
theorem FloatTy.nearest_signed {t : FloatTy} (z : Int) (h : t.Fits z.natAbs) :
    t.NearestEven z (t.flt (decide (z < 0)) z.natAbs) := by
  have hpos := nearest_flt h
  by_cases hz : z < 0
  · rw [decide_eq_true hz]
    have e : (z : ℚ) = -((z.natAbs : ℕ) : ℚ) := by
      have : z = -(z.natAbs : ℤ) := by omega
      rw [this]; push_cast; simp
    rw [e]
    refine nearest_opposite hpos (by rw [mag_flt h, mag_flt h]) ?_
    rw [val_flt h, val_flt h]; rfl
  · rw [decide_eq_false hz]
    have e : (z : ℚ) = ((z.natAbs : ℕ) : ℚ) := by
      have : z = (z.natAbs : ℤ) := by omega
      rw [this]; simp
    rw [e]; exact hpos

/-- C35: `as_f64` is correctly rounded for every value below `2^128` in magnitude, and for every value whose magnitude
has a high and a low half of 128 bits that are both `f64` values. The second covers all values whose halves have
at most 53 significant bits each. Outside of these cases it may be the second nearest, by `C35_as_f64_not_nearest`. -/
theorem C35_as_f64_nearest (c : Cfg) (x : U256) (s : I256) :
    (x.toNat c < 2 ^ 128
        ∨ (∃ y : f64.Val, f64.val y = (x.toNat c / 2 ^ 128 : ℕ)) ∧ (∃ y : f64.Val, f64.val y = (x.toNat c % 2 ^ 128 : ℕ))
      → f64.NearestEven (x.toNat c) (x.as_f64 c))
    ∧ ((s.toInt c).natAbs < 2 ^ 128
        ∨ (∃ y : f64.Val, f64.val y = ((s.toInt c).natAbs / 2 ^ 128 : ℕ))
          ∧ (∃ y : f64.Val, f64.val y = ((s.toInt c).natAbs % 2 ^ 128 : ℕ))
      → f64.NearestEven (s.toInt c) (s.as_f64 c)) := by
  have key : ∀ n : Nat, n < 2 ^ 128 ∨ (∃ y : f64.Val, f64.val y = (n / 2 ^ 128 : ℕ))
      ∧ (∃ y : f64.Val, f64.val y = (n % 2 ^ 128 : ℕ)) → twoStep 53 128 (n / 2 ^ 128) (n % 2 ^ 128) = rn 53 n := by
    rintro n (h | ⟨⟨y, hy⟩, y', hy'⟩)
    · exact twoStep_eq_rn (by omega) (Or.inl h)
    · refine twoStep_eq_rn (by omega) (Or.inr ⟨rep_of_val (t := f64) (y := y) ?_, rep_of_val (t := f64) (y := y') ?_⟩)
      · rw [hy, abs_of_nonneg (by positivity)]
      · rw [hy', abs_of_nonneg (by positivity)]
  constructor
  · intro h
    rw [U256.as_f64_eq, key _ h, show (53 : ℕ) = f64.p from rfl, flt_rn]
    exact nearest_flt (fits_f64 (by have := U256.toNat_lt c x; omega))
  · intro h
    have hb : (s.toInt c).natAbs ≤ 2 ^ 255 := by have := I256.le_toInt c s; have := I256.toInt_lt c s; omega
    rw [I256.as_f64_eq, key _ h, show (53 : ℕ) = f64.p from rfl, flt_rn]
    exact nearest_signed _ (fits_f64 (by omega))

-- the halves of `3·2^200 + 2^100` are `3·2^72` and `2^100`
example : (∃ y : f64.Val, f64.val y = ((3 * 2 ^ 200 + 2 ^ 100) / 2 ^ 128 : ℕ))
    ∧ (∃ y : f64.Val, f64.val y = ((3 * 2 ^ 200 + 2 ^ 100) % 2 ^ 128 : ℕ)) := by
  have r : ∀ m e : ℕ, m ≤ 2 ^ 53 → e ≤ 128 → ∃ y : f64.Val, f64.val y = (m * 2 ^ e : ℕ) := by
    intro m e hm he
    have hle : m * 2 ^ e ≤ 2 ^ 53 * 2 ^ 128 := Nat.mul_le_mul hm (Nat.pow_le_pow_right (by omega) he)
    refine ⟨f64.flt false (m * 2 ^ e), ?_⟩
    rw [val_flt (fits_f64 (by omega)), show f64.p = 53 from rfl, rn_fix (by omega) (rep_of (by omega) e hm)]
    rfl
  exact ⟨by simpa using r 3 72 (by omega) (by omega), by simpa using r 1 100 (by omega) (by omega)⟩

example : (U256.ofNat dbg (2 ^ 53 + 1)).as_f64 dbg = f64.ofInt (2 ^ 53)
    ∧ (U256.ofNat rel (2 ^ 53 + 3)).as_f64 rel = f64.ofInt (2 ^ 53 + 4)
    ∧ (I256.ofInt rel (-(2 ^ 127 + 2 ^ 74 + 1))).as_f64 rel = f64.ofInt (-(2 ^ 127 + 2 ^ 75)) := by decide +kernel

/-- C35: `I256::as_f32` is correctly rounded for every value that is itself an `f64`: all of magnitude up to `2^53`, and
all with at most 53 significant bits below `2^128 - 2^103`. -/
theorem C35_i256_as_f32_nearest (c : Cfg) (s : I256) (h : (s.toInt c).natAbs < 2 ^ 128 - 2 ^ 103)
    (hy : (s.toInt c).natAbs ≤ 2 ^ 53 ∨ ∃ y : f64.Val, f64.val y = s.toInt c) :
    f32.NearestEven (s.toInt c) (s.as_f32 c) := by
  have hrep : Rep 53 (s.toInt c).natAbs := by
    rcases hy with hy | ⟨y, hy⟩
    · exact rep_of_le (by omega) hy
    · refine rep_of_val (t := f64) (y := y) ?_
      rw [hy, Nat.cast_natAbs, Int.cast_abs]
  have e : twoStep 53 128 ((s.toInt c).natAbs / 2 ^ 128) ((s.toInt c).natAbs % 2 ^ 128) = (s.toInt c).natAbs := by
    rw [twoStep_eq_rn (by omega) (Or.inl (by omega)), rn_fix (by omega) hrep]
  have hfit : f32.Fits (s.toInt c).natAbs := (fits_f32 _).2 h
  unfold I256.as_f32
  rw [I256.as_f64_eq, e, convert_flt _ (fits_f64 (by omega)), show f64.p = 53 from rfl, rn_fix (by omega) hrep,
    make_roundMag hfit]
  exact nearest_signed _ hfit

example : (I256.ofInt dbg (2 ^ 24 + 1)).as_f32 dbg = f32.ofInt (2 ^ 24)
    ∧ (I256.ofInt rel (-(2 ^ 24 + 3))).as_f32 rel = f32.ofInt (-(2 ^ 24 + 4))
    ∧ (I256.ofInt rel (-(2 ^ 53))).as_f32 rel = f32.ofInt (-(2 ^ 53)) := by decide +kernel

/-! ### The exact result outside of these cases -/

/-- A value that is not negative is its magnitude. -/
theorem FloatTy.val_of_nonneg {t : FloatTy} {x : t.Val} (h : 0 ≤ t.val x) :
    t.val x = (magUnits t.p (t.mag x) : ℚ) / 2 ^ t.K := by
  have h0 : (0 : ℚ) ≤ (magUnits t.p (t.mag x) : ℚ) / 2 ^ t.K := by positivity
  rw [val_eq] at h ⊢
  split at h
  · rw [if_pos ‹_›]; linarith
  · rw [if_neg ‹_›]

/-- Two floats that are both nearest to `q` by the rule cannot be different when neither is negative. -/
theorem FloatTy.nearest_unique_nonneg {t : FloatTy} {q : ℚ} {r r' : t.Val} (h : t.NearestEven q r)
    (h' : t.NearestEven q r') (h0 : 0 ≤ t.val r) (hlt : t.val r < t.val r') : False := by
  have hp := two_le_p t
  have hK : (0 : ℚ) < 2 ^ t.K := by positivity
  have e1 := h.2 r' h'.1
  have e2 := h'.2 r h.1
  have he : |t.val r - q| = |t.val r' - q| := le_antisymm e1.1 e2.1
  have hq : t.val r + t.val r' = 2 * q := by
    rcases abs_eq_abs.1 he with h | h
    · exact absurd (by linarith : t.val r = t.val r') hlt.ne
    · linarith
  have v1 := val_of_nonneg h0
  have v2 := val_of_nonneg (h0.trans hlt.le)
  have p1 := e1.2 he hlt.ne'
  have p2 := e2.2 he.symm hlt.ne
  have hm : t.mag r < t.mag r' := by
    by_contra hc
    have := (magUnits_le_iff hp).2 (Nat.le_of_not_lt hc)
    have : (magUnits t.p (t.mag r') : ℚ) ≤ magUnits t.p (t.mag r) := by exact_mod_cast this
    have : (magUnits t.p (t.mag r') : ℚ) / 2 ^ t.K ≤ (magUnits t.p (t.mag r) : ℚ) / 2 ^ t.K :=
      div_le_div_of_nonneg_right this hK.le
    linarith
  have hm' : t.mag r + 1 < t.mag r' := by omega
  have hfin := (isFinite_iff t r').1 h'.1
  have hi := infBits_lt t
  have hb : t.mag r + 1 < 2 ^ (t.bits - 1) := by omega
  have vy := val_make t false hb
  rw [if_neg (by simp)] at vy
  have g1 : t.val r < t.val (t.make false (t.mag r + 1)) := by
    rw [v1, vy]
    refine div_lt_div_of_pos_right ?_ hK
    exact_mod_cast magUnits_lt hp (Nat.lt_succ_self _)
  have g2 : t.val (t.make false (t.mag r + 1)) < t.val r' := by
    rw [v2, vy]
    refine div_lt_div_of_pos_right ?_ hK
    exact_mod_cast magUnits_lt hp hm'
  have := (h.2 (t.make false (t.mag r + 1)) (by rw [isFinite_iff, mag_make t false hb]; omega)).1
  rw [abs_of_nonpos (by linarith)] at this
  rcases abs_cases (t.val (t.make false (t.mag r + 1)) - q) with ⟨e, _⟩ | ⟨e, _⟩ <;> rw [e] at this <;> linarith

theorem FloatTy.nearest_neg {t : FloatTy} {q : ℚ} {r : t.Val} (h : t.NearestEven q r) :
    ∃ r', t.NearestEven (-q) r' ∧ t.val r' = -t.val r := by
  have hm := mag_lt t r
  have hv : t.val (t.make (!t.neg r) (t.mag r)) = -t.val r := by
    rw [val_make t _ hm, val_eq]
    cases t.neg r <;> simp
  exact ⟨_, nearest_opposite h (mag_make t _ hm) hv, hv⟩

theorem FloatTy.nearest_not_lt {t : FloatTy} {q : ℚ} {r r' : t.Val} (h : t.NearestEven q r)
    (h' : t.NearestEven q r') : ¬ t.val r < t.val r' := by
  intro hlt
  by_cases h0 : 0 ≤ t.val r
  · exact nearest_unique_nonneg h h' h0 hlt
  · by_cases h1 : t.val r' ≤ 0
    · obtain ⟨x, hx, vx⟩ := nearest_neg h
      obtain ⟨x', hx', vx'⟩ := nearest_neg h'
      exact nearest_unique_nonneg hx' hx (by linarith) (by linarith)
    · have hi : 0 < t.infBits := by cases t <;> decide
      have hb : 0 < 2 ^ (t.bits - 1) := Nat.two_pow_pos _
      have vy := val_make t false hb
      rw [if_neg (by simp), show magUnits t.p 0 = 0 by simp [magUnits]] at vy
      have vy : t.val (t.make false 0) = 0 := by rw [vy]; simp
      have a := (h.2 (t.make false 0) (by rw [isFinite_iff, mag_make t false hb]; exact hi)).1
      have b := (h'.2 (t.make false 0) (by rw [isFinite_iff, mag_make t false hb]; exact hi)).1
      rw [vy] at a b
      push Not at h0 h1
      rcases abs_cases (t.val r - q) with ⟨e1, _⟩ | ⟨e1, _⟩ <;> rcases abs_cases (t.val r' - q) with ⟨e2, _⟩ | ⟨e2, _⟩ <;>
        rcases abs_cases (0 - q) with ⟨e3, _⟩ | ⟨e3, _⟩ <;> rw [e1, e3] at a <;> rw [e2, e3] at b <;> linarith

/-- C35: "the nearest float, ties to even" names one number, so the theorems below determine the results. -/
theorem C35_nearest_unique (t : FloatTy) (q : ℚ) (r r' : t.Val) (h : t.NearestEven q r) (h' : t.NearestEven q r') :
    t.val r = t.val r' :=
  le_antisymm (not_lt.1 (nearest_not_lt h' h)) (not_lt.1 (nearest_not_lt h h'))

-- both zeros are nearest to zero
example : f32.NearestEven ((0 : ℕ) : ℚ) (f32.flt false 0) ∧ f32.flt false 0 ≠ f32.flt true 0 :=
  ⟨nearest_flt ((fits_f32 0).2 (by omega)), by decide +kernel⟩

/-- C35: `as_f64` of any value: the two halves of the magnitude are rounded to the nearest `f64`, then their sum is
rounded again. With `C35_nearest_unique` this says which number is returned for every input, also where it is not the
nearest (`C35_as_f64_not_nearest`). -/
theorem C35_as_f64_steps (c : Cfg) (x : U256) (s : I256) :
    (∃ h l : f64.Val, f64.NearestEven (x.toNat c / 2 ^ 128 : ℕ) h ∧ f64.NearestEven (x.toNat c % 2 ^ 128 : ℕ) l
      ∧ f64.NearestEven (f64.val h * 2 ^ 128 + f64.val l) (x.as_f64 c))
    ∧ (∃ h l : f64.Val, f64.NearestEven ((s.toInt c).natAbs / 2 ^ 128 : ℕ) h
      ∧ f64.NearestEven ((s.toInt c).natAbs % 2 ^ 128 : ℕ) l
      ∧ f64.NearestEven ((s.toInt c).sign * (f64.val h * 2 ^ 128 + f64.val l)) (s.as_f64 c)) := by
  have key : ∀ n : Nat, n < 2 ^ 256 → ∃ h l : f64.Val, f64.NearestEven (n / 2 ^ 128 : ℕ) h
      ∧ f64.NearestEven (n % 2 ^ 128 : ℕ) l
      ∧ f64.val h * 2 ^ 128 + f64.val l = (rn 53 (n / 2 ^ 128) * 2 ^ 128 + rn 53 (n % 2 ^ 128) : ℕ)
      ∧ f64.Fits (rn 53 (n / 2 ^ 128) * 2 ^ 128 + rn 53 (n % 2 ^ 128))
      ∧ f64.flt false (twoStep 53 128 (n / 2 ^ 128) (n % 2 ^ 128))
        = f64.flt false (rn 53 (n / 2 ^ 128) * 2 ^ 128 + rn 53 (n % 2 ^ 128)) := by
    intro n hn
    have hp2 : 2 ≤ 53 := by omega
    have b1 : n / 2 ^ 128 ≤ 2 ^ 128 := by omega
    have b2 : n % 2 ^ 128 ≤ 2 ^ 128 := by omega
    generalize n / 2 ^ 128 = a at *
    generalize n % 2 ^ 128 = b at *
    have r1 : rn 53 a ≤ 2 ^ 128 := rn_le hp2 (rep_pow hp2 128) b1
    have r2 : rn 53 b ≤ 2 ^ 128 := rn_le hp2 (rep_pow hp2 128) b2
    refine ⟨f64.flt false a, f64.flt false b, nearest_flt (fits_f64 (by omega)), nearest_flt (fits_f64 (by omega)), ?_,
      fits_f64 (by omega), ?_⟩
    · rw [val_flt (fits_f64 (by omega)), val_flt (fits_f64 (by omega))]
      rw [if_neg (by simp), if_neg (by simp), show f64.p = 53 from rfl]
      push_cast; rfl
    · unfold twoStep; exact flt_rn false _
  constructor
  · obtain ⟨h, l, hh, hl, e, hf, ef⟩ := key _ (U256.toNat_lt c x)
    refine ⟨h, l, hh, hl, ?_⟩
    rw [e, U256.as_f64_eq, ef]
    exact nearest_flt hf
  · have hb : (s.toInt c).natAbs < 2 ^ 256 := by have := I256.le_toInt c s; have := I256.toInt_lt c s; omega
    obtain ⟨h, l, hh, hl, e, hf, ef⟩ := key _ hb
    refine ⟨h, l, hh, hl, ?_⟩
    rw [e, I256.as_f64_eq]
    generalize hN : rn 53 ((s.toInt c).natAbs / 2 ^ 128) * 2 ^ 128 + rn 53 ((s.toInt c).natAbs % 2 ^ 128) = N at *
    have ef' : ∀ b, f64.flt b (twoStep 53 128 ((s.toInt c).natAbs / 2 ^ 128) ((s.toInt c).natAbs % 2 ^ 128)) = f64.flt b N := by
      intro b; unfold twoStep; rw [hN]; exact flt_rn b _
    rw [ef']
    rcases lt_trichotomy (s.toInt c) 0 with hz | hz | hz
    · rw [Int.sign_eq_neg_one_of_neg hz, decide_eq_true hz]
      have : (((-1 : ℤ) : ℚ)) * (N : ℚ) = -(N : ℚ) := by push_cast; ring
      rw [this]
      refine nearest_opposite (nearest_flt hf) (by rw [mag_flt hf, mag_flt hf]) ?_
      rw [val_flt hf, val_flt hf]; rfl
    · rw [hz] at hN ⊢
      have : N = 0 := by
        rw [← hN]
        have hz : rn 53 0 = 0 := rn_fix (by omega) (rep_of_le (by omega) (Nat.zero_le _))
        simp [hz]
      subst this
      have := nearest_flt hf
      simpa using this
    · rw [Int.sign_eq_one_of_pos hz, decide_eq_false (by omega)]
      simpa using nearest_flt hf

-- the three roundings of a value that is not correctly rounded
example : (U256.ofNat dbg ((2 ^ 53 + 1) * 2 ^ 128 + 2 ^ 127)).as_f64 dbg
    = f64.add (f64.mul (f64.ofInt (2 ^ 53 + 1)) (f64.ofInt (2 ^ 128))) (f64.ofInt (2 ^ 127)) := by decide +kernel

/-- C35: `I256::as_f32` of any value that does not become infinite is the nearest `f32` to the result of `as_f64`. -/
theorem C35_i256_as_f32_steps (c : Cfg) (s : I256) (h : (s.toInt c).natAbs < 2 ^ 128 - 2 ^ 103 - 2 ^ 74) :
    f32.NearestEven (f64.val (s.as_f64 c)) (s.as_f32 c) := by
  have hfin := ((C35_i256_as_f32_partial c s).1 h).1
  have hle := I256.twoStep_le_pow c s
  unfold I256.as_f32 at hfin ⊢
  rw [I256.as_f64_eq] at hfin ⊢
  have hrep : Rep 53 (twoStep 53 128 ((s.toInt c).natAbs / 2 ^ 128) ((s.toInt c).natAbs % 2 ^ 128)) := rn_rep (by omega) _
  generalize twoStep 53 128 ((s.toInt c).natAbs / 2 ^ 128) ((s.toInt c).natAbs % 2 ^ 128) = N at *
  have hfit : f64.Fits N := fits_f64 (by omega)
  have hrn : rn f64.p N = N := rn_fix (p := 53) (by omega) hrep
  rw [convert_flt _ hfit, hrn] at hfin ⊢
  have hf : f32.Fits N := by
    by_contra hc
    rw [roundMag_overflow hc, isFinite_iff, mag_make f32 _ (infBits_lt f32)] at hfin
    exact absurd hfin (lt_irrefl _)
  rw [make_roundMag hf, val_flt hfit, hrn]
  cases decide (s.toInt c < 0)
  · exact nearest_flt hf
  · refine nearest_opposite (nearest_flt hf) (by rw [mag_flt hf, mag_flt hf]) ?_
    rw [val_flt hf, val_flt hf]; rfl

-- the double rounding of `C35_i256_as_f32_not_nearest`: first to `2^60 + 2^36`, a tie, then to even
example : (I256.ofInt dbg (2 ^ 60 + 2 ^ 36 + 1)).as_f64 dbg = f64.ofInt (2 ^ 60 + 2 ^ 36)
    ∧ (I256.ofInt dbg (2 ^ 60 + 2 ^ 36 + 1)).as_f32 dbg = f32.ofInt (2 ^ 60)
    ∧ f32.ofInt (2 ^ 60 + 2 ^ 36 + 1) ≠ f32.ofInt (2 ^ 60) := by decide +kernel

end Ethnum
