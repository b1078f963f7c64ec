import Verif.Props.FloatNearest
import Verif.Props.FloatFmt
import Verif.Props.Fmt
import Verif.Proofs.Exp

/-
C73 the text of scientific notation.

The digits of a double are the standard library's. The claims are for any printer of doubles that keeps what the standard
library promises of its own (`StdExp`, Verif/SpecExp.lean).
-/

namespace Ethnum
open FloatTy

/-! ### The promise can be kept -/

theorem signText_congr (f : Formatter) {p q : Prop} [Decidable p] [Decidable q] (h : p ↔ q) : signText f p = signText f q := by
  unfold signText
  by_cases hp : p
  · rw [if_pos hp, if_pos (h.1 hp)]
  · rw [if_neg hp, if_neg (fun hq => hp (h.2 hq))]

theorem ShowsSci.congr {f : Formatter} {p q : Prop} [Decidable p] [Decidable q] {e : Char} {D : ℕ} {k : ℤ} {t : List Char}
    (h : p ↔ q) (hs : ShowsSci f p e D k t) : ShowsSci f q e D k t := by
  unfold ShowsSci at *
  rwa [← signText_congr f h]

/-- The magnitude of a double -/
theorem magnitude (v : f64.Val) (hf : f64.isFinite v = true) :
    f64.neg (f64.make false (f64.mag v)) = false ∧ f64.mag (f64.make false (f64.mag v)) = f64.mag v
    ∧ f64.isFinite (f64.make false (f64.mag v)) = true ∧ f64.val (f64.make false (f64.mag v)) = |f64.val v| := by
  have hm := mag_lt f64 v
  have a := neg_make f64 false hm
  have b := mag_make f64 false hm
  refine ⟨a, b, by rw [isFinite_iff, b, ← isFinite_iff]; exact hf, ?_⟩
  have h0 : (0 : ℚ) ≤ magUnits f64.p (f64.mag v) / 2 ^ f64.K := div_nonneg (Nat.cast_nonneg _) (pow_nonneg (by norm_num) _)
  rw [val_eq, val_eq f64 v, a, b]
  cases f64.neg v
  · simp only [Bool.false_eq_true, if_false]; rw [abs_of_nonneg h0]
  · simp only [Bool.false_eq_true, if_false, if_true]; rw [abs_neg, abs_of_nonneg h0]

/-- C73: there is a printer that keeps the promise, with every precision and without one. -/
theorem C73_promise (prec : Option ℕ) : ∃ F : F64Fmt, StdExp prec F := by
  classical
  have hex : ∀ v : f64.Val, ∃ (ds : List Char) (x : ℤ), f64.isFinite v = true →
      (f64.val v = 0 → ds = List.replicate (prec.getD 0 + 1) '0' ∧ x = 0)
      ∧ (1 ≤ |f64.val v| → |f64.val v| ≤ 2 ^ 256 → ∃ (D : ℕ) (k : ℤ), ds = Nat.toDigits 10 D ∧ x = k + digitCount D - 1
        ∧ match prec with
          | none => Shortest (f64.make false (f64.mag v)) D k
          | some p => RoundedTo p |f64.val v| D k) := by
    intro v
    by_cases h0 : f64.val v = 0
    · refine ⟨_, 0, fun _ => ⟨fun _ => ⟨rfl, rfl⟩, fun h1 => ?_⟩⟩
      rw [h0, abs_zero] at h1; norm_num at h1
    by_cases hf : f64.isFinite v = true
    · by_cases h1 : 1 ≤ |f64.val v| ∧ |f64.val v| ≤ 2 ^ 256
      · obtain ⟨m1, m2, m3, m4⟩ := magnitude v hf
        have : ∃ (D : ℕ) (k : ℤ), match prec with
          | none => Shortest (f64.make false (f64.mag v)) D k
          | some p => RoundedTo p |f64.val v| D k := by
          have hle : f64.val (f64.make false (f64.mag v)) ≤ 2 ^ 257 := by
            rw [m4]; exact h1.2.trans (pow_le_pow_right₀ (by norm_num) (by norm_num))
          cases prec with
          | none => exact exists_shortest m3 m1 (by rw [m4]; exact h1.1) hle
          | some p => exact exists_rounded p (lt_of_lt_of_le one_pos h1.1)
        obtain ⟨D, k, h⟩ := this
        exact ⟨_, _, fun _ => ⟨fun hc => absurd hc h0, fun _ _ => ⟨D, k, rfl, rfl, h⟩⟩⟩
      · exact ⟨[], 0, fun _ => ⟨fun hc => absurd hc h0, fun a b => absurd ⟨a, b⟩ h1⟩⟩
    · exact ⟨[], 0, fun h => absurd h hf⟩
  choose ds x h using hex
  have lay : ∀ (f : Formatter) (v : f64.Val) (t : List Char),
      Layout f (signText f (f64.neg v = true)) t (f.pad_integral (decide (¬ f64.neg v = true)) [] t) := by
    intro f v t
    have := layout_pad_integral f (f64.neg v = true) [] t
    rwa [ite_self, List.append_nil] at this
  refine ⟨⟨fun v f => f.pad_integral (decide (¬ f64.neg v = true)) [] (sciText 'e' (ds v) (x v)),
    fun v f => f.pad_integral (decide (¬ f64.neg v = true)) [] (sciText 'E' (ds v) (x v))⟩, fun v f hf => ⟨fun h0 => ?_, fun h1 h2 => ?_⟩⟩
  · obtain ⟨e1, e2⟩ := (h v hf).1 h0
    rw [← e1, ← e2]
    exact ⟨lay _ _ _, lay _ _ _⟩
  · obtain ⟨D, k, e1, e2, h3⟩ := (h v hf).2 h1 h2
    refine ⟨D, k, ?_, ?_, h3⟩
    · unfold ShowsSci; rw [← e1, ← e2]; exact lay _ _ _
    · unfold ShowsSci; rw [← e1, ← e2]; exact lay _ _ _

/-! ### What is printed -/

/-- The doubles of nonzero integers -/
theorem range_of_faithful {n : ℕ} {w : f64.Val} (h0 : n ≠ 0) (hn : n ≤ 2 ^ 256) (h : f64.Faithful n w) :
    1 ≤ f64.val w ∧ f64.val w ≤ 2 ^ 256 := by
  have point : ∀ e : ℕ, e ≤ 256 → ∃ y : f64.Val, f64.isFinite y = true ∧ f64.val y = 2 ^ e := by
    intro e he
    have hfit : f64.Fits (2 ^ e) := fits_f64 (Nat.pow_le_pow_right (by decide) (by omega))
    refine ⟨f64.flt false (2 ^ e), isFinite_flt hfit _, ?_⟩
    have hfix : rn f64.p (2 ^ e) = 2 ^ e := rn_fix (p := 53) (by omega) (rep_pow (by omega) e)
    rw [val_flt hfit, hfix]
    simp
  obtain ⟨y1, f1, v1⟩ := point 0 (by omega)
  obtain ⟨y2, f2, v2⟩ := point 256 (by omega)
  have a := (h.2 y1 f1).1 (by rw [v1, pow_zero]; exact_mod_cast (show 1 ≤ n by omega))
  have b := (h.2 y2 f2).2 (by rw [v2]; exact_mod_cast hn)
  rw [v1, pow_zero] at a
  rw [v2] at b
  exact ⟨a, b⟩

/-- For both types: the magnitude `n` of a value and the magnitude of its double -/
structure Magnitude (v : f64.Val) (neg : Bool) (n : ℕ) : Prop where
  finite : f64.isFinite v = true
  sign : f64.neg v = neg
  le : n ≤ 2 ^ 256
  faithful : f64.Faithful n (f64.make false (f64.mag v))
  nearest : n < 2 ^ 128 → f64.NearestEven n (f64.make false (f64.mag v))

theorem magnitude_u256 (c : Cfg) (x : U256) : Magnitude (x.as_f64 c) false (x.toNat c) := by
  have h := C35_u256_as_f64_partial c x
  have e : f64.make false (f64.mag (x.as_f64 c)) = x.as_f64 c := by
    have := make_neg_mag f64 (x.as_f64 c)
    rwa [h.2] at this
  exact ⟨h.1.1, h.2, (U256.toNat_lt c x).le, by rw [e]; exact h.1, fun hx => by rw [e]; exact (C35_as_f64_nearest c x I256.ZERO).1 (.inl hx)⟩

theorem magnitude_i256 (c : Cfg) (s : I256) : Magnitude (s.as_f64 c) (decide (s.toInt c < 0)) (s.toInt c).natAbs := by
  have h := C35_i256_as_f64_partial c s
  have hb1 := I256.le_toInt c s
  have hb2 := I256.toInt_lt c s
  have hle : (s.toInt c).natAbs ≤ 2 ^ 256 := by omega
  by_cases hn : s.toInt c < 0
  · have h2 : f64.neg (s.as_f64 c) = true := by rw [h.2]; exact decide_eq_true hn
    obtain ⟨m1, m2, m3, m4⟩ := magnitude (s.as_f64 c) h.1.1
    have hval : f64.val (f64.make false (f64.mag (s.as_f64 c))) = -f64.val (s.as_f64 c) := by
      rw [val_eq, val_eq f64 (s.as_f64 c), m1, m2, h2]
      simp
    have hq : (((s.toInt c).natAbs : ℕ) : ℚ) = -(s.toInt c : ℚ) := by
      have : s.toInt c = -((s.toInt c).natAbs : ℤ) := by omega
      rw [this]; push_cast; simp
    refine ⟨h.1.1, h.2, hle, ?_, fun hx => ?_⟩
    · rw [hq]; exact faithful_opposite h.1 m3 hval
    · rw [hq]; exact nearest_opposite ((C35_as_f64_nearest c U256.ZERO s).2 (.inl hx)) m2 hval
  · have h2 : f64.neg (s.as_f64 c) = false := by rw [h.2]; exact decide_eq_false hn
    have e : f64.make false (f64.mag (s.as_f64 c)) = s.as_f64 c := by
      have := make_neg_mag f64 (s.as_f64 c)
      rwa [h2] at this
    have hq : (((s.toInt c).natAbs : ℕ) : ℚ) = (s.toInt c : ℚ) := by
      have : s.toInt c = ((s.toInt c).natAbs : ℤ) := by omega
      rw [this]; simp
    refine ⟨h.1.1, h.2, hle, ?_, fun hx => ?_⟩
    · rw [e, hq]; exact h.1
    · rw [e, hq]; exact (C35_as_f64_nearest c U256.ZERO s).2 (.inl hx)

theorem Magnitude.shows {v : f64.Val} {neg : Bool} {n : ℕ} (m : Magnitude v neg n) (h0 : n ≠ 0) {prec : Option ℕ} {F : F64Fmt}
    (hF : StdExp prec F) (f : Formatter) : ∃ (D : ℕ) (k : ℤ), ShowsSci f (neg = true) 'e' D k (F.lower v f)
      ∧ ShowsSci f (neg = true) 'E' D k (F.upper v f)
      ∧ match prec with
        | none => Shortest (f64.make false (f64.mag v)) D k
        | some p => RoundedTo p (f64.val (f64.make false (f64.mag v))) D k := by
  obtain ⟨r1, r2⟩ := range_of_faithful h0 m.le m.faithful
  obtain ⟨_, _, _, m4⟩ := magnitude v m.finite
  obtain ⟨D, k, h1, h2, h3⟩ := (hF v f m.finite).2 (by rw [← m4]; exact r1) (by rw [← m4]; exact r2)
  have e : f64.neg v = true ↔ neg = true := by rw [m.sign]
  refine ⟨D, k, h1.congr e, h2.congr e, ?_⟩
  cases prec with
  | none => exact h3
  | some p => dsimp only at h3 ⊢; rw [m4]; exact h3

theorem Magnitude.range {v : f64.Val} {neg : Bool} {n : ℕ} (m : Magnitude v neg n) (h0 : n ≠ 0) :
    f64.neg (f64.make false (f64.mag v)) = false ∧ 1 ≤ f64.val (f64.make false (f64.mag v))
      ∧ f64.val (f64.make false (f64.mag v)) ≤ 2 ^ 257 := by
  obtain ⟨r1, r2⟩ := range_of_faithful h0 m.le m.faithful
  exact ⟨(magnitude v m.finite).1, r1, r2.trans (pow_le_pow_right₀ (by norm_num) (by norm_num))⟩

theorem Magnitude.error {v : f64.Val} {neg : Bool} {n : ℕ} (m : Magnitude v neg n) (h0 : n ≠ 0) {q : ℚ}
    (h : f64.NearestEven q (f64.make false (f64.mag v))) : |q - n| * 2 ^ 51 ≤ n := by
  obtain ⟨r1, r2, r3⟩ := m.range h0
  have e1 := read_error r1 r2 r3 h
  have hn : n < 2 ^ 257 := lt_of_le_of_lt m.le (pow_lt_of (by decide))
  have e2 := faithful_error hn m.faithful
  generalize f64.val (f64.make false (f64.mag v)) = w at *
  have h3 : |q - n| ≤ |q - w| + |w - n| := abs_sub_le _ _ _
  have h4 : w ≤ 2 * n := by
    have := le_abs_self (w - n)
    have hn0 : (0 : ℚ) ≤ n := Nat.cast_nonneg n
    linarith
  linarith

/-- C73: zero is printed as `0e0`, with as many zeros after the point as the precision asks for. -/
theorem C73_zero (c : Cfg) (prec : Option ℕ) (F : F64Fmt) (hF : StdExp prec F) (x : U256) (s : I256) (f : Formatter) :
    (x.toNat c = 0 →
      Layout f (signText f False) (sciText 'e' (List.replicate (prec.getD 0 + 1) '0') 0) (x.lower_exp c F f)
      ∧ Layout f (signText f False) (sciText 'E' (List.replicate (prec.getD 0 + 1) '0') 0) (x.upper_exp c F f))
    ∧ (s.toInt c = 0 →
      Layout f (signText f False) (sciText 'e' (List.replicate (prec.getD 0 + 1) '0') 0) (s.lower_exp c F f)
      ∧ Layout f (signText f False) (sciText 'E' (List.replicate (prec.getD 0 + 1) '0') 0) (s.upper_exp c F f)) := by
  have zero : f64.isFinite (f64.make false 0) = true ∧ f64.val (f64.make false 0) = 0 := by
    refine ⟨by decide +kernel, ?_⟩
    have : f64.units (f64.make false 0) = 0 := by decide +kernel
    unfold FloatTy.val
    rw [this]; simp
  have e := C35_exact c x s
  constructor
  · intro h
    have hv := e.2.1 _ zero.1 (by rw [zero.2, h]; simp)
    have hp := C35_u256_as_f64_partial c x
    have := (hF (x.as_f64 c) f hp.1.1).1 (by rw [hv, h]; simp)
    rwa [signText_congr f (q := False) (by rw [hp.2]; simp)] at this
  · intro h
    have hv := e.2.2.2 _ zero.1 (by rw [zero.2, h]; simp)
    have hp := C35_i256_as_f64_partial c s
    have := (hF (s.as_f64 c) f hp.1.1).1 (by rw [hv, h]; simp)
    rwa [signText_congr f (q := False) (by rw [hp.2, h]; simp)] at this

example : sciText 'e' (List.replicate 1 '0') 0 = "0e0".toList ∧ sciText 'E' (List.replicate (2 + 1) '0') 0 = "0.00E0".toList := by decide

/-- C73: `{:e}` and `{:E}` on `U256` print a decimal of at most seventeen digits, the last one not zero, that is read back as the
double of `as_f64` and is off by at most one part in `2^51`. -/
theorem C73_u256 (c : Cfg) (F : F64Fmt) (hF : StdExp none F) (x : U256) (hx : x.toNat c ≠ 0) (f : Formatter) :
    ∃ (D : ℕ) (k : ℤ), ShowsSci f False 'e' D k (x.lower_exp c F f) ∧ ShowsSci f False 'E' D k (x.upper_exp c F f)
      ∧ f64.NearestEven (D * 10 ^ k) (x.as_f64 c) ∧ |(D * 10 ^ k : ℚ) - x.toNat c| * 2 ^ 51 ≤ x.toNat c
      ∧ digitCount D ≤ 17 ∧ D % 10 ≠ 0 := by
  have m := magnitude_u256 c x
  obtain ⟨r1, r2, r3⟩ := m.range hx
  obtain ⟨D, k, h1, h2, h3⟩ := m.shows hx hF f
  dsimp only at h3
  have e : f64.make false (f64.mag (x.as_f64 c)) = x.as_f64 c := by
    have := make_neg_mag f64 (x.as_f64 c)
    rwa [m.sign] at this
  exact ⟨D, k, h1.congr (by simp), h2.congr (by simp), by have := h3.back; rwa [e] at this, m.error hx h3.back, h3.length r1 r2 r3,
    h3.last (h3.ne_zero r1 r2 r3)⟩

/-- C73: likewise on `I256`; the decimal is that of the magnitude, and the sign is printed before it. -/
theorem C73_i256 (c : Cfg) (F : F64Fmt) (hF : StdExp none F) (s : I256) (hs : s.toInt c ≠ 0) (f : Formatter) :
    ∃ (D : ℕ) (k : ℤ), ShowsSci f (s.toInt c < 0) 'e' D k (s.lower_exp c F f) ∧ ShowsSci f (s.toInt c < 0) 'E' D k (s.upper_exp c F f)
      ∧ f64.NearestEven ((s.toInt c).sign * (D * 10 ^ k)) (s.as_f64 c)
      ∧ |(D * 10 ^ k : ℚ) - (s.toInt c).natAbs| * 2 ^ 51 ≤ (s.toInt c).natAbs
      ∧ digitCount D ≤ 17 ∧ D % 10 ≠ 0 := by
  have m := magnitude_i256 c s
  have hx : (s.toInt c).natAbs ≠ 0 := by omega
  obtain ⟨r1, r2, r3⟩ := m.range hx
  obtain ⟨D, k, h1, h2, h3⟩ := m.shows hx hF f
  dsimp only at h3
  refine ⟨D, k, h1.congr (by simp), h2.congr (by simp), ?_, m.error hx h3.back, h3.length r1 r2 r3, h3.last (h3.ne_zero r1 r2 r3)⟩
  have hb := h3.back
  have hm := make_neg_mag f64 (s.as_f64 c)
  rw [m.sign] at hm
  by_cases hn : s.toInt c < 0
  · rw [Int.sign_eq_neg_one_of_neg hn, Int.cast_neg, Int.cast_one, neg_one_mul]
    obtain ⟨_, m2, _, m4⟩ := magnitude (s.as_f64 c) m.finite
    refine nearest_opposite hb m2.symm ?_
    have h0 : f64.val (s.as_f64 c) ≤ 0 := by
      rw [val_eq, m.sign, decide_eq_true hn]
      simp only [if_true]
      have : (0 : ℚ) ≤ magUnits f64.p (f64.mag (s.as_f64 c)) / 2 ^ f64.K := div_nonneg (Nat.cast_nonneg _) (pow_nonneg (by norm_num) _)
      linarith
    rw [m4, abs_of_nonpos h0]; ring
  · rw [decide_eq_false hn] at hm
    rw [Int.sign_eq_one_of_pos (by omega), Int.cast_one, one_mul, ← hm]
    rw [hm]; rw [hm] at hb; exact hb

/-- C73 (`_partial`: the claim is for every value; from `2^128` on it fails, see `C73_misprinted`): a value below `2^128` with at most
fifteen significant digits is printed exactly. -/
theorem C73_digits_partial (c : Cfg) (F : F64Fmt) (hF : StdExp none F) (x : U256) (s : I256) (f : Formatter) (D k : ℕ) (hD : D < 10 ^ 15)
    (hl : D % 10 ≠ 0) (hlt : D * 10 ^ k < 2 ^ 128) :
    (x.toNat c = D * 10 ^ k → ShowsSci f False 'e' D k (x.lower_exp c F f) ∧ ShowsSci f False 'E' D k (x.upper_exp c F f))
    ∧ ((s.toInt c).natAbs = D * 10 ^ k →
        ShowsSci f (s.toInt c < 0) 'e' D k (s.lower_exp c F f) ∧ ShowsSci f (s.toInt c < 0) 'E' D k (s.upper_exp c F f)) := by
  have h0 : D * 10 ^ k ≠ 0 := Nat.mul_ne_zero (by omega) (by positivity)
  have core : ∀ {v : f64.Val} {neg : Bool}, Magnitude v neg (D * 10 ^ k) →
      ShowsSci f (neg = true) 'e' D k (F.lower v f) ∧ ShowsSci f (neg = true) 'E' D k (F.upper v f) := by
    intro v neg m
    obtain ⟨r1, r2, r3⟩ := m.range h0
    obtain ⟨D', k', h1, h2, h3⟩ := m.shows h0 hF f
    dsimp only at h3
    have hr := m.nearest hlt
    obtain ⟨rfl, rfl⟩ := h3.unique r1 r2 r3 hD hl (k₀ := (k : ℤ)) (by rw [zpow_natCast]; exact_mod_cast hr)
    exact ⟨h1, h2⟩
  constructor
  · intro h
    have := core (h ▸ magnitude_u256 c x)
    exact ⟨this.1.congr (by simp), this.2.congr (by simp)⟩
  · intro h
    have := core (h ▸ magnitude_i256 c s)
    exact ⟨this.1.congr (by simp), this.2.congr (by simp)⟩

/-- C73: so is every value below `2^53`. -/
theorem C73_small (c : Cfg) (F : F64Fmt) (hF : StdExp none F) (x : U256) (s : I256) (f : Formatter) (D k : ℕ)
    (hl : D % 10 ≠ 0) (hlt : D * 10 ^ k < 2 ^ 53) :
    (x.toNat c = D * 10 ^ k → ShowsSci f False 'e' D k (x.lower_exp c F f) ∧ ShowsSci f False 'E' D k (x.upper_exp c F f))
    ∧ ((s.toInt c).natAbs = D * 10 ^ k →
        ShowsSci f (s.toInt c < 0) 'e' D k (s.lower_exp c F f) ∧ ShowsSci f (s.toInt c < 0) 'E' D k (s.upper_exp c F f)) := by
  have h0 : D * 10 ^ k ≠ 0 := Nat.mul_ne_zero (by omega) (by positivity)
  have core : ∀ {v : f64.Val} {neg : Bool}, Magnitude v neg (D * 10 ^ k) →
      ShowsSci f (neg = true) 'e' D k (F.lower v f) ∧ ShowsSci f (neg = true) 'E' D k (F.upper v f) := by
    intro v neg m
    obtain ⟨r1, r2, r3⟩ := m.range h0
    obtain ⟨D', k', h1, h2, h3⟩ := m.shows h0 hF f
    dsimp only at h3
    have hv : f64.val (f64.make false (f64.mag v)) = (D * 10 ^ k : ℕ) := by
      have hfit : f64.Fits (D * 10 ^ k) := fits_f64 (by omega)
      have hfix : rn f64.p (D * 10 ^ k) = D * 10 ^ k := rn_fix (p := 53) (by omega) (rep_of_le (by omega) hlt.le)
      have hy : f64.val (f64.flt false (D * 10 ^ k)) = (D * 10 ^ k : ℕ) := by rw [val_flt hfit, hfix]; rfl
      have := m.faithful.2 _ (isFinite_flt hfit false)
      rw [hy] at this
      exact le_antisymm (this.2 (le_refl _)) (this.1 (le_refl _))
    obtain ⟨rfl, rfl⟩ := h3.small r1 hlt (by omega) hv hl rfl
    exact ⟨h1, h2⟩
  constructor
  · intro h
    have := core (h ▸ magnitude_u256 c x)
    exact ⟨this.1.congr (by simp), this.2.congr (by simp)⟩
  · intro h
    have := core (h ▸ magnitude_i256 c s)
    exact ⟨this.1.congr (by simp), this.2.congr (by simp)⟩

/-- C73: with a precision `p`, the double of `as_f64` is printed rounded to `p` digits after the first, ties to even, and a value that
is a double is itself rounded so. The decimal is off by at most half a unit of its last digit and one part in `2^52`. -/
theorem C73_precision (c : Cfg) (p : ℕ) (F : F64Fmt) (hF : StdExp (some p) F) (x : U256) (hx : x.toNat c ≠ 0) (f : Formatter) :
    ∃ (D : ℕ) (k : ℤ), ShowsSci f False 'e' D k (x.lower_exp c F f) ∧ ShowsSci f False 'E' D k (x.upper_exp c F f)
      ∧ RoundedTo p (f64.val (x.as_f64 c)) D k
      ∧ ((∃ y : f64.Val, f64.isFinite y = true ∧ f64.val y = x.toNat c) → RoundedTo p (x.toNat c) D k)
      ∧ |(D * 10 ^ k : ℚ) - x.toNat c| ≤ f64.val (x.as_f64 c) / (2 * 10 ^ p) + x.toNat c / 2 ^ 52 := by
  have m := magnitude_u256 c x
  obtain ⟨D, k, h1, h2, h3⟩ := m.shows hx hF f
  dsimp only at h3
  have e : f64.make false (f64.mag (x.as_f64 c)) = x.as_f64 c := by
    have := make_neg_mag f64 (x.as_f64 c)
    rwa [m.sign] at this
  rw [e] at h3
  refine ⟨D, k, h1.congr (by simp), h2.congr (by simp), h3, fun ⟨y, hy, hv⟩ => ?_, ?_⟩
  · have := (C35_exact c x I256.ZERO).2.1 y hy hv
    rwa [this] at h3
  · have a := h3.error
    have b := (C35_relative_error c x I256.ZERO).1
    rw [← le_div_iff₀ (by positivity)] at a b
    exact (abs_sub_le _ (f64.val (x.as_f64 c)) _).trans (add_le_add a b)

/-- C73: likewise on `I256`, for the magnitude. -/
theorem C73_precision_signed (c : Cfg) (p : ℕ) (F : F64Fmt) (hF : StdExp (some p) F) (s : I256) (hs : s.toInt c ≠ 0) (f : Formatter) :
    ∃ (D : ℕ) (k : ℤ), ShowsSci f (s.toInt c < 0) 'e' D k (s.lower_exp c F f) ∧ ShowsSci f (s.toInt c < 0) 'E' D k (s.upper_exp c F f)
      ∧ RoundedTo p |f64.val (s.as_f64 c)| D k
      ∧ ((∃ y : f64.Val, f64.isFinite y = true ∧ f64.val y = s.toInt c) → RoundedTo p |(s.toInt c : ℚ)| D k) := by
  have m := magnitude_i256 c s
  have hx : (s.toInt c).natAbs ≠ 0 := by omega
  obtain ⟨D, k, h1, h2, h3⟩ := m.shows hx hF f
  dsimp only at h3
  rw [(magnitude (s.as_f64 c) m.finite).2.2.2] at h3
  refine ⟨D, k, h1.congr (by simp), h2.congr (by simp), h3, fun ⟨y, hy, hv⟩ => ?_⟩
  have := (C35_exact c U256.ZERO s).2.2.2 y hy hv
  rwa [this] at h3

/-- One digit after the point: 1250 is a double, and a tie that goes to the even digit. -/
example : RoundedTo 1 (1250 : ℚ) 12 2 := by
  refine ⟨by decide, 12, 2, ?_, ?_, ?_, fun _ => rfl, rfl⟩
  · norm_num
  · norm_num
  · rw [abs_le]; norm_num

/-- What there is to see of `ShowsSci` with the plain `{:e}` -/
theorem ShowsSci.text {neg : Prop} [Decidable neg] {e : Char} {D : ℕ} {k : ℤ} {t : List Char} (h : ShowsSci .default neg e D k t) :
    t = (if neg then ['-'] else []) ++ sciText e (Nat.toDigits 10 D) (k + digitCount D - 1) := by
  obtain ⟨l, z, r, rfl, h1, -⟩ := h
  have h1' : l + z + r = 0 := by
    rw [h1]
    show 0 - _ = 0
    omega
  obtain ⟨rfl, rfl, rfl⟩ : l = 0 ∧ z = 0 ∧ r = 0 := ⟨by omega, by omega, by omega⟩
  have : signText Formatter.default neg = if neg then ['-'] else [] := by
    unfold signText
    rw [show Formatter.default.sign_plus = false by decide]
    simp
  rw [this]
  simp

/-- C73, exactly which values with at most fifteen significant digits are printed with their digits: those that `as_f64` rounds to the
nearest double. -/
theorem C73_digits_iff (c : Cfg) (F : F64Fmt) (hF : StdExp none F) (x : U256) (s : I256) (D k : ℕ) (hD : D < 10 ^ 15) (hl : D % 10 ≠ 0) :
    (x.toNat c = D * 10 ^ k →
      (x.lower_exp c F .default = sciText 'e' (Nat.toDigits 10 D) (k + digitCount D - 1) ↔ f64.NearestEven (x.toNat c) (x.as_f64 c))
      ∧ (x.upper_exp c F .default = sciText 'E' (Nat.toDigits 10 D) (k + digitCount D - 1) ↔ f64.NearestEven (x.toNat c) (x.as_f64 c)))
    ∧ ((s.toInt c).natAbs = D * 10 ^ k →
      (s.lower_exp c F .default = (if s.toInt c < 0 then ['-'] else []) ++ sciText 'e' (Nat.toDigits 10 D) (k + digitCount D - 1)
        ↔ f64.NearestEven (s.toInt c) (s.as_f64 c))
      ∧ (s.upper_exp c F .default = (if s.toInt c < 0 then ['-'] else []) ++ sciText 'E' (Nat.toDigits 10 D) (k + digitCount D - 1)
        ↔ f64.NearestEven (s.toInt c) (s.as_f64 c))) := by
  have h0 : D * 10 ^ k ≠ 0 := Nat.mul_ne_zero (by omega) (by positivity)
  have core : ∀ {v : f64.Val} {neg : Bool}, Magnitude v neg (D * 10 ^ k) →
      (F.lower v .default = (if neg = true then ['-'] else []) ++ sciText 'e' (Nat.toDigits 10 D) (k + digitCount D - 1)
        ↔ f64.NearestEven (D * 10 ^ k : ℕ) (f64.make false (f64.mag v)))
      ∧ (F.upper v .default = (if neg = true then ['-'] else []) ++ sciText 'E' (Nat.toDigits 10 D) (k + digitCount D - 1)
        ↔ f64.NearestEven (D * 10 ^ k : ℕ) (f64.make false (f64.mag v))) := by
    intro v neg m
    obtain ⟨r1, r2, r3⟩ := m.range h0
    obtain ⟨D', k', h1, h2, h3⟩ := m.shows h0 hF .default
    dsimp only at h3
    have back : f64.NearestEven (D * 10 ^ k : ℕ) (f64.make false (f64.mag v)) ↔ D' = D ∧ k' = (k : ℤ) := by
      constructor
      · intro hr
        exact h3.unique r1 r2 r3 hD hl (k₀ := (k : ℤ)) (by rw [zpow_natCast]; exact_mod_cast hr)
      · rintro ⟨rfl, rfl⟩
        have := h3.back
        rw [zpow_natCast] at this
        exact_mod_cast this
    rw [back, h1.text, h2.text]
    refine ⟨⟨fun h => sciText_inj (.inl rfl) (List.append_cancel_left h), ?_⟩, ⟨fun h => sciText_inj (.inr rfl) (List.append_cancel_left h), ?_⟩⟩
    all_goals rintro ⟨rfl, rfl⟩; rfl
  constructor
  · intro h
    have m := magnitude_u256 c x
    have e : f64.make false (f64.mag (x.as_f64 c)) = x.as_f64 c := by
      have := make_neg_mag f64 (x.as_f64 c)
      rwa [m.sign] at this
    have := core (h ▸ m)
    rw [e] at this
    rw [h]
    exact this
  · intro h
    have m := magnitude_i256 c s
    have key : f64.NearestEven (D * 10 ^ k : ℕ) (f64.make false (f64.mag (s.as_f64 c))) ↔ f64.NearestEven (s.toInt c) (s.as_f64 c) := by
      obtain ⟨m1, m2, m3, m4⟩ := magnitude (s.as_f64 c) m.finite
      by_cases hn : s.toInt c < 0
      · have h2 : f64.neg (s.as_f64 c) = true := by rw [m.sign]; exact decide_eq_true hn
        have hval : f64.val (f64.make false (f64.mag (s.as_f64 c))) = -f64.val (s.as_f64 c) := by
          rw [val_eq, val_eq f64 (s.as_f64 c), m1, m2, h2]
          simp
        have hq : ((D * 10 ^ k : ℕ) : ℚ) = -(s.toInt c : ℚ) := by
          rw [← h]
          have : s.toInt c = -((s.toInt c).natAbs : ℤ) := by omega
          rw [this]; push_cast; simp
        constructor
        · intro hr
          have := nearest_opposite hr m2.symm (by rw [hval, neg_neg])
          rwa [hq, neg_neg] at this
        · intro hr
          have := nearest_opposite hr m2 hval
          rwa [← hq] at this
      · have h2 : f64.neg (s.as_f64 c) = false := by rw [m.sign]; exact decide_eq_false hn
        have e : f64.make false (f64.mag (s.as_f64 c)) = s.as_f64 c := by
          have := make_neg_mag f64 (s.as_f64 c)
          rwa [h2] at this
        have hq : ((D * 10 ^ k : ℕ) : ℚ) = (s.toInt c : ℚ) := by
          rw [← h]
          have : s.toInt c = ((s.toInt c).natAbs : ℤ) := by omega
          rw [this]; simp
        rw [e, hq]
    have := core (h ▸ m)
    rw [key] at this
    unfold I256.lower_exp I256.upper_exp
    simpa only [decide_eq_true_eq] using this

/-- C73 on an example: every printer that keeps the promise prints 1.5 ether, in wei, as `1.5e18`, and a debt of it as `-1.5E18`. -/
example (F : F64Fmt) (hF : StdExp none F) : (U256.ofNat dbg (15 * 10 ^ 17)).lower_exp dbg F .default = "1.5e18".toList
    ∧ (I256.ofInt rel (-15 * 10 ^ 17)).upper_exp rel F .default = "-1.5E18".toList := by
  constructor
  · have h := ((C73_digits_partial dbg F hF (U256.ofNat dbg (15 * 10 ^ 17)) I256.ZERO .default 15 17 (by decide) (by decide) (by decide)).1
      (by decide +kernel)).1.text
    rw [h]; decide +kernel
  · have h := ((C73_digits_partial rel F hF U256.ZERO (I256.ofInt rel (-15 * 10 ^ 17)) .default 15 17 (by decide) (by decide) (by decide)).2
      (by decide +kernel)).2.text
    rw [h]; decide +kernel

/-- `C73_digits_iff` beyond `2^128`: `10^40` is converted to the nearest double, so every printer that keeps the promise prints it as `1e40`. -/
example (F : F64Fmt) (hF : StdExp none F) : (U256.ofNat rel (10 ^ 40)).lower_exp rel F .default = "1e40".toList := by
  have e : (U256.ofNat rel (10 ^ 40)).toNat rel = 1 * 10 ^ 40 := by decide +kernel
  have hfit : f64.Fits (1 * 10 ^ 40) := fits_f64 (le_trans (by decide +kernel : 1 * 10 ^ 40 ≤ 2 ^ 200) (Nat.pow_le_pow_right (by decide) (by decide)))
  have h := (((C73_digits_iff rel F hF (U256.ofNat rel (10 ^ 40)) I256.ZERO 1 40 (by decide) (by decide)).1 e).1).2 (by
    rw [e, show (U256.ofNat rel (10 ^ 40)).as_f64 rel = f64.flt false (1 * 10 ^ 40) by decide +kernel]
    exact nearest_flt hfit)
  rw [h]; decide +kernel

/-- C73: of the powers of ten, all but `10^39` are printed as a one and their exponent. -/
theorem C73_powers (c : Cfg) (F : F64Fmt) (hF : StdExp none F) (x : U256) (k : ℕ) (hx : x.toNat c = 10 ^ k) :
    x.lower_exp c F .default = '1' :: 'e' :: (toString (k : ℤ)).toList ↔ k ≠ 39 := by
  have hk : k < 78 := by
    by_contra hc
    have h1 : 10 ^ 78 ≤ x.toNat c := by rw [hx]; exact Nat.pow_le_pow_right (by decide) (by omega)
    have h2 := U256.toNat_lt c x
    exact absurd (lt_of_le_of_lt h1 h2) (by decide +kernel)
  have hx' : x.toNat c = 1 * 10 ^ k := by rw [hx, one_mul]
  have h := (((C73_digits_iff c F hF x I256.ZERO 1 k (by decide) (by decide)).1 hx').1)
  rw [show sciText 'e' (Nat.toDigits 10 1) (k + digitCount 1 - 1) = '1' :: 'e' :: (toString (k : ℤ)).toList by
    rw [show digitCount 1 = 1 by decide, show (k : ℤ) + (1 : ℕ) - 1 = k by omega]; rfl] at h
  rw [h, U256.as_f64_eq, hx]
  have hfit : f64.Fits (10 ^ k) := fits_f64 (le_trans (hx ▸ (U256.toNat_lt c x).le) (Nat.pow_le_pow_right (by decide) (by decide)))
  have hn := nearest_flt hfit
  constructor
  · rintro hr rfl
    -- the two doubles differ
    have h2 := C35_nearest_unique f64 _ _ _ hr hn
    rw [val_flt (fits_f64 (le_trans (by decide +kernel : _ ≤ 2 ^ 200) (Nat.pow_le_pow_right (by decide) (by decide)))), val_flt hfit] at h2
    simp only [Bool.false_eq_true, if_false] at h2
    have h3 : rn 53 (twoStep 53 128 (10 ^ 39 / 2 ^ 128) (10 ^ 39 % 2 ^ 128)) = rn 53 (10 ^ 39) := by exact_mod_cast h2
    exact absurd h3 (by decide +kernel)
  · intro he
    have table : ∀ k : Fin 78, k.val ≠ 39 →
        f64.flt false (twoStep 53 128 (10 ^ k.val / 2 ^ 128) (10 ^ k.val % 2 ^ 128)) = f64.flt false (10 ^ k.val) := by decide +kernel
    rw [table ⟨k, hk⟩ he]
    exact hn

example : (U256.ofNat dll (10 ^ 77)).toNat dll = 10 ^ 77 ∧ (U256.ofNat rel 1).toNat rel = 10 ^ 0 := by decide +kernel

/-- The largest value that `C73_small` covers -/
example (F : F64Fmt) (hF : StdExp none F) :
    (U256.ofNat rel 9007199254740991).lower_exp rel F .default = "9.007199254740991e15".toList := by
  have h := ((C73_small rel F hF (U256.ofNat rel 9007199254740991) I256.ZERO .default 9007199254740991 0 (by decide) (by decide)).1
    (by decide +kernel)).1.text
  rw [h]; decide +kernel

/-- C73, refuted in part: the value `10^39`, one digit and 39 zeros, is printed as `1.0000000000000001e39`, because `as_f64` does not
return the nearest double (C35). -/
theorem C73_misprinted (c : Cfg) (F : F64Fmt) (hF : StdExp none F) :
    (U256.ofNat c (10 ^ 39)).lower_exp c F .default = "1.0000000000000001e39".toList
    ∧ (I256.ofInt c (-10 ^ 39)).upper_exp c F .default = "-1.0000000000000001E39".toList := by
  let V : ℕ := 10 ^ 39 + 90824893823431825424384
  -- the double and its neighbours
  have fl : ∀ n : ℕ, n ≤ 2 ^ 258 → rn 53 n = n → f64.isFinite (f64.flt false n) = true ∧ f64.val (f64.flt false n) = n := by
    intro n hn h
    have hfit := fits_f64 hn
    have h' : rn f64.p n = n := h
    exact ⟨isFinite_flt hfit _, by rw [val_flt hfit, h']; rfl⟩
  have b258 : (10 : ℕ) ^ 40 ≤ 2 ^ 258 := by decide +kernel
  obtain ⟨_, hv⟩ := fl V (le_trans (by decide) b258) (by decide +kernel)
  obtain ⟨hf1, hv1⟩ := fl (V - 2 ^ 77) (le_trans (by decide) b258) (by decide +kernel)
  obtain ⟨hf2, hv2⟩ := fl (V + 2 ^ 77) (le_trans (by decide) b258) (by decide +kernel)
  have digits : ∀ {D : ℕ} {k : ℤ}, Shortest (f64.flt false V) D k → D = 10 ^ 16 + 1 ∧ k = 23 := by
    intro D k h
    have n1 := (h.back.2 _ hf1).1
    have n2 := (h.back.2 _ hf2).1
    rw [hv, hv1] at n1
    rw [hv, hv2] at n2
    have hq1 : (10 ^ 39 : ℚ) < D * 10 ^ k := by
      by_contra hc
      have e1 : ((V - 2 ^ 77 : ℕ) : ℚ) = 10 ^ 39 - 60290833628396821413888 := by norm_num [V]
      have e2 : (V : ℚ) = 10 ^ 39 + 90824893823431825424384 := by norm_num [V]
      rw [e1, e2] at n1
      generalize (D * 10 ^ k : ℚ) = q at *
      rw [abs_of_nonneg (by linarith)] at n1
      rcases abs_cases ((10 : ℚ) ^ 39 - 60290833628396821413888 - q) with ⟨ha, _⟩ | ⟨ha, _⟩ <;> rw [ha] at n1 <;> linarith
    have hq2 : (D * 10 ^ k : ℚ) < 10 ^ 39 + 2 * 10 ^ 23 := by
      by_contra hc
      have e1 : ((V + 2 ^ 77 : ℕ) : ℚ) = 10 ^ 39 + 241940621275260472262656 := by norm_num [V]
      have e2 : (V : ℚ) = 10 ^ 39 + 90824893823431825424384 := by norm_num [V]
      rw [e1, e2] at n2
      generalize (D * 10 ^ k : ℚ) = q at *
      rw [abs_of_nonpos (by linarith)] at n2
      rcases abs_cases ((10 : ℚ) ^ 39 + 241940621275260472262656 - q) with ⟨ha, _⟩ | ⟨ha, _⟩ <;> rw [ha] at n2 <;> linarith
    have hD : D < 10 ^ 17 := by
      rw [← digitCount_le_iff (by omega)]
      have hr : f64.NearestEven ((10 ^ 16 + 1 : ℕ) * 10 ^ (23 : ℤ)) (f64.flt false V) := by
        have hfit : f64.Fits ((10 ^ 16 + 1) * 10 ^ 23) := fits_f64 (le_trans (by decide) b258)
        have := nearest_flt hfit
        rw [show f64.flt false ((10 ^ 16 + 1) * 10 ^ 23) = f64.flt false V by decide +kernel] at this
        exact_mod_cast this
      have := h.short _ _ hr
      rwa [show digitCount (10 ^ 16 + 1) = 17 by decide +kernel] at this
    have hD' : (D : ℚ) < 10 ^ 17 := by exact_mod_cast hD
    have hk1 : 23 ≤ k := by
      by_contra hc
      have : (10 : ℚ) ^ k ≤ 10 ^ (22 : ℤ) := zpow_le_zpow_right₀ (by norm_num) (by omega)
      have hp := zpow_ten_pos k
      have : (D * 10 ^ k : ℚ) ≤ 10 ^ 17 * 10 ^ (22 : ℤ) := by
        have : (0 : ℚ) ≤ D := Nat.cast_nonneg D
        nlinarith
      norm_num at this hq1
      linarith
    obtain ⟨j, rfl⟩ : ∃ j : ℕ, k = 23 + j := ⟨(k - 23).toNat, by omega⟩
    have e : (D * 10 ^ ((23 : ℤ) + j) : ℚ) = ((D * 10 ^ j * 10 ^ 23 : ℕ) : ℚ) := by
      rw [zpow_add₀ (by norm_num), zpow_natCast]
      push_cast
      norm_num
      ring
    rw [e] at hq1 hq2
    have a1 : 10 ^ 39 < D * 10 ^ j * 10 ^ 23 := by exact_mod_cast hq1
    have a2 : D * 10 ^ j * 10 ^ 23 < 10 ^ 39 + 2 * 10 ^ 23 := by exact_mod_cast hq2
    have a3 : D * 10 ^ j = 10 ^ 16 + 1 := by omega
    rcases j with _ | j
    · exact ⟨by simpa using a3, by simp⟩
    · rw [pow_succ, ← mul_assoc] at a3; omega
  constructor
  · have hx : (U256.ofNat c (10 ^ 39)).toNat c = 10 ^ 39 := U256.toNat_ofNat_of_lt c (by decide)
    have ev : (U256.ofNat c (10 ^ 39)).as_f64 c = f64.flt false V := by
      rw [U256.as_f64_eq, hx]; decide +kernel
    have m := magnitude_u256 c (U256.ofNat c (10 ^ 39))
    obtain ⟨D, k, h1, _, h3⟩ := m.shows (by rw [hx]; decide) hF .default
    dsimp only at h3
    rw [ev, show f64.make false (f64.mag (f64.flt false V)) = f64.flt false V by decide +kernel] at h3
    obtain ⟨rfl, rfl⟩ := digits h3
    have t := h1.text
    refine Eq.trans (show _ = F.lower _ _ from rfl) (t.trans ?_)
    decide +kernel
  · have hx : (I256.ofInt c (-10 ^ 39)).toInt c = -10 ^ 39 := I256.toInt_ofInt_of_in c (by unfold InI256; decide)
    have ev : (I256.ofInt c (-10 ^ 39)).as_f64 c = f64.flt true V := by
      rw [I256.as_f64_eq, hx]; decide +kernel
    have m := magnitude_i256 c (I256.ofInt c (-10 ^ 39))
    rw [hx] at m
    obtain ⟨D, k, _, h2, h3⟩ := m.shows (by decide) hF .default
    dsimp only at h3
    rw [ev, show f64.make false (f64.mag (f64.flt true V)) = f64.flt false V by decide +kernel] at h3
    obtain ⟨rfl, rfl⟩ := digits h3
    have t := h2.text
    refine Eq.trans (show _ = F.upper _ _ from rfl) (t.trans ?_)
    decide +kernel

end Ethnum
