import Verif.Proofs.Float

/-
Rounding of integers, and the two-step rounding of `as_f64`.
-/

namespace Ethnum.FloatTy

/-- `f` has at most `p` significant digits. -/
def Rep (p f : Nat) : Prop := ∃ b, magUnits p b = f

/-- The integer `z` rounded to `p` significant digits. -/
def rn (p z : Nat) : Nat := magUnits p (roundUnits p z 1)

theorem rep_form {p f : Nat} (hp : 2 ≤ p) (h : Rep p f) : ∃ m e, m < 2 ^ p ∧ f = m * 2 ^ e := by
  obtain ⟨b, hb⟩ := h
  obtain ⟨e, m, _, hm, _, hu⟩ := magUnits_form hp b
  exact ⟨m, e, hm, by rw [← hb, hu]⟩

theorem rep_of {p : Nat} (hp : 2 ≤ p) {m : Nat} (e : Nat) (hm : m ≤ 2 ^ p) : Rep p (m * 2 ^ e) := by
  induction e generalizing m with
  | zero => exact ⟨0 * 2 ^ (p - 1) + m, magUnits_encode hp hm (fun h => absurd h (by omega))⟩
  | succ e ih =>
    by_cases h : 2 ^ (p - 1) ≤ m
    · exact ⟨(e + 1) * 2 ^ (p - 1) + m, magUnits_encode hp hm (fun _ => h)⟩
    · have h2 := two_pow_pred hp
      have := ih (m := 2 * m) (by omega)
      rwa [show 2 * m * 2 ^ e = m * 2 ^ (e + 1) by rw [pow_succ]; ring] at this

section
variable {p : Nat} (hp : 2 ≤ p)
include hp

theorem rn_rep (z : Nat) : Rep p (rn p z) := ⟨_, rfl⟩

theorem rn_le {z f : Nat} (hf : Rep p f) (h : z ≤ f) : rn p z ≤ f := by
  obtain ⟨b, rfl⟩ := hf
  exact (magUnits_le_iff hp).2 (roundUnits_le hp (by omega) (by omega))

theorem le_rn {z f : Nat} (hf : Rep p f) (h : f ≤ z) : f ≤ rn p z := by
  obtain ⟨b, rfl⟩ := hf
  exact (magUnits_le_iff hp).2 (le_roundUnits hp (by omega) (by omega))

theorem rn_fix {f : Nat} (hf : Rep p f) : rn p f = f :=
  Nat.le_antisymm (rn_le hp hf le_rfl) (le_rn hp hf le_rfl)

theorem rn_nearest (z : Nat) {f : Nat} (hf : Rep p f) :
    |(rn p z : Int) - z| ≤ |(f : Int) - z|
    ∧ (f ≠ rn p z → |(rn p z : Int) - z| = |(f : Int) - z| → roundUnits p z 1 % 2 = 0) := by
  obtain ⟨b, rfl⟩ := hf
  have h := roundUnits_nearest (n := z) hp (show 0 < 1 by omega) b
  simp only [Nat.cast_one, mul_one] at h
  refine ⟨h.1, fun hne he => h.2 ?_ he⟩
  intro hb; exact hne (by rw [hb]; rfl)

theorem rn_mono {z z' : Nat} (h : z ≤ z') : rn p z ≤ rn p z' := by
  by_contra hc
  have h1 : rn p z' < z := by
    by_contra h1; exact hc (rn_le hp (rn_rep hp z') (by omega))
  have h2 : z' < rn p z := by
    by_contra h2; exact hc (le_rn hp (rn_rep hp z) (by omega))
  have n1 := (rn_nearest hp z (rn_rep hp z')).1
  have n2 := (rn_nearest hp z' (rn_rep hp z)).1
  rw [abs_of_nonneg (by omega), abs_of_nonpos (by omega)] at n1
  rw [abs_of_nonpos (by omega), abs_of_nonneg (by omega)] at n2
  have : z = z' := by omega
  subst this
  omega

theorem rep_of_le {z : Nat} (h : z ≤ 2 ^ p) : Rep p z := by
  have := rep_of hp 0 h
  rwa [pow_zero, mul_one] at this

theorem rep_mul_pow {z : Nat} (h : Rep p z) (k : Nat) : Rep p (z * 2 ^ k) := by
  obtain ⟨m, e, hm, rfl⟩ := rep_form hp h
  rw [Nat.mul_assoc, ← pow_add]
  exact rep_of hp _ hm.le

theorem rep_pow (k : Nat) : Rep p (2 ^ k) := by
  have := rep_mul_pow hp (rep_of_le hp (z := 1) Nat.one_le_two_pow) k
  rwa [one_mul] at this

/-- A number with no more digits than `2^(p+k)` is rounded at a multiple of `2^k` only if it has more digits. -/
theorem rep_big {f k : Nat} (hf : Rep p f) (h : 2 ^ (p + k) ≤ f) : ∃ g, Rep p g ∧ f = g * 2 ^ (k + 1) := by
  obtain ⟨m, e, hm, rfl⟩ := rep_form hp hf
  have he : k + 1 ≤ e := by
    by_contra hc
    have : m * 2 ^ e < 2 ^ p * 2 ^ k := by
      calc m * 2 ^ e < 2 ^ p * 2 ^ e := Nat.mul_lt_mul_of_pos_right hm (Nat.two_pow_pos _)
        _ ≤ 2 ^ p * 2 ^ k := Nat.mul_le_mul_left _ (Nat.pow_le_pow_right (by omega) (by omega))
    rw [pow_add] at h
    omega
  refine ⟨m * 2 ^ (e - (k + 1)), rep_of hp _ hm.le, ?_⟩
  rw [Nat.mul_assoc, ← pow_add, Nat.sub_add_cancel he]

/-- Rounding commutes with scaling by a power of two. -/
theorem rn_scale (z k : Nat) : magUnits p (roundUnits p (z * 2 ^ k) 1) = rn p z * 2 ^ k := by
  rcases Nat.lt_or_ge z (2 ^ p) with h | h
  · have hz := rep_of_le hp h.le
    rw [rn_fix hp hz]
    exact rn_fix hp (rep_mul_pow hp hz k)
  · unfold rn
    have hz : z ≠ 0 := by have := Nat.two_pow_pos p; omega
    have hs : size (z * 2 ^ k) = size z + k := by
      have h1 : size z = z.log2 + 1 := by unfold size; rw [if_neg hz]
      rw [h1, show z.log2 + 1 + k = (z.log2 + k) + 1 by omega]
      apply size_eq
      · rw [pow_add]; exact Nat.mul_le_mul_right _ (Nat.log2_self_le hz)
      · rw [show z.log2 + k + 1 = z.log2 + 1 + k by omega, pow_add]
        exact Nat.mul_lt_mul_of_pos_right Nat.lt_log2_self (Nat.two_pow_pos _)
    have hsz : p < size z := by
      by_contra hc
      have := size_lt z
      have := Nat.pow_le_pow_right (show 1 ≤ 2 by omega) (show size z ≤ p by omega)
      omega
    have he : expo p (z * 2 ^ k) 1 = expo p z 1 + k := by
      unfold expo; rw [Nat.div_one, Nat.div_one, hs]; omega
    rw [magUnits_round hp (by omega), magUnits_round hp (by omega), he, one_mul, one_mul, pow_add,
      rneDiv_mul_right _ _ _ (Nat.two_pow_pos _), Nat.mul_assoc]

/-- Rounding an already rounded number gives the same pattern. -/
theorem round_rn (z k : Nat) : roundUnits p (rn p z * 2 ^ k) 1 = roundUnits p (z * 2 ^ k) 1 := by
  have h := rn_scale hp z k
  have := roundUnits_fix hp (show 0 < 1 by omega) (roundUnits p (z * 2 ^ k) 1)
  rw [h, mul_one] at this
  exact this

/-- A float below an integer is below an integer float below it. -/
theorem exists_rep_ge {b k z : Nat} (h : magUnits p b ≤ z * 2 ^ k) :
    ∃ f, Rep p f ∧ f ≤ z ∧ magUnits p b ≤ f * 2 ^ k := by
  obtain ⟨e, m, _, hm, _, hu⟩ := magUnits_form hp b
  rw [hu] at h ⊢
  rcases Nat.lt_or_ge e k with he | he
  · have hD : 0 < 2 ^ (k - e) := Nat.two_pow_pos _
    have ek : 2 ^ k = 2 ^ (k - e) * 2 ^ e := by rw [← pow_add, Nat.sub_add_cancel he.le]
    rw [ek, ← Nat.mul_assoc] at h
    have h1 : m ≤ z * 2 ^ (k - e) := Nat.le_of_mul_le_mul_right h (Nat.two_pow_pos _)
    generalize 2 ^ (k - e) = D at *
    refine ⟨(m + (D - 1)) / D, rep_of_le hp ?_, ?_, ?_⟩
    · apply Nat.div_le_of_le_mul
      have : 2 ^ p ≤ D * 2 ^ p := Nat.le_mul_of_pos_left _ hD
      have h3 : D * 1 ≤ D * 2 ^ p := Nat.mul_le_mul_left _ Nat.one_le_two_pow
      rcases Nat.lt_or_ge 1 D with hd | hd
      · obtain ⟨D', rfl⟩ : ∃ D', D = D' + 1 := ⟨D - 1, by omega⟩
        have h4 : (D' + 1) * 2 ^ p = D' * 2 ^ p + 2 ^ p := by ring
        have h5 : D' * 1 ≤ D' * 2 ^ p := Nat.mul_le_mul_left _ Nat.one_le_two_pow
        omega
      · have : D = 1 := by omega
        subst this; omega
    · apply Nat.le_of_lt_succ
      rw [Nat.div_lt_iff_lt_mul hD, Nat.succ_mul]
      omega
    · rw [ek, ← Nat.mul_assoc]
      apply Nat.mul_le_mul_right
      have h1 := Nat.div_add_mod (m + (D - 1)) D
      have h2 := Nat.mod_lt (m + (D - 1)) hD
      rw [Nat.mul_comm] at h1
      omega
  · have ek : m * 2 ^ e = m * 2 ^ (e - k) * 2 ^ k := by
      rw [Nat.mul_assoc, ← pow_add, Nat.sub_add_cancel he]
    rw [ek] at h ⊢
    exact ⟨_, rep_of hp _ hm.le, Nat.le_of_mul_le_mul_right h (Nat.two_pow_pos _), le_rfl⟩

/-- A float above an integer is above an integer float above it. -/
theorem exists_rep_le {b k z : Nat} (h : z * 2 ^ k ≤ magUnits p b) :
    ∃ f, Rep p f ∧ z ≤ f ∧ f * 2 ^ k ≤ magUnits p b := by
  obtain ⟨e, m, _, hm, _, hu⟩ := magUnits_form hp b
  rw [hu] at h ⊢
  rcases Nat.lt_or_ge e k with he | he
  · have hD : 0 < 2 ^ (k - e) := Nat.two_pow_pos _
    have ek : 2 ^ k = 2 ^ (k - e) * 2 ^ e := by rw [← pow_add, Nat.sub_add_cancel he.le]
    rw [ek, ← Nat.mul_assoc] at h
    have h1 : z * 2 ^ (k - e) ≤ m := Nat.le_of_mul_le_mul_right h (Nat.two_pow_pos _)
    refine ⟨m / 2 ^ (k - e), rep_of_le hp ((Nat.div_le_self _ _).trans hm.le), (Nat.le_div_iff_mul_le hD).2 h1, ?_⟩
    rw [ek, ← Nat.mul_assoc]
    exact Nat.mul_le_mul_right _ (Nat.div_mul_le_self _ _)
  · have ek : m * 2 ^ e = m * 2 ^ (e - k) * 2 ^ k := by
      rw [Nat.mul_assoc, ← pow_add, Nat.sub_add_cancel he]
    rw [ek] at h ⊢
    exact ⟨_, rep_of hp _ hm.le, Nat.le_of_mul_le_mul_right h (Nat.two_pow_pos _), le_rfl⟩

/-- The part of a representable number below a multiple of `2^k` is representable. -/
theorem rep_low {f h k : Nat} (hf : Rep p f) (h1 : h * 2 ^ k ≤ f) (h2 : f < (h + 1) * 2 ^ k) :
    Rep p (f - h * 2 ^ k) := by
  obtain ⟨m, e, hm, rfl⟩ := rep_form hp hf
  rcases Nat.lt_or_ge e k with he | he
  · have ek : 2 ^ k = 2 ^ (k - e) * 2 ^ e := by rw [← pow_add, Nat.sub_add_cancel he.le]
    rw [ek, ← Nat.mul_assoc, ← Nat.sub_mul]
    exact rep_of hp _ (by omega)
  · have ek : m * 2 ^ e = m * 2 ^ (e - k) * 2 ^ k := by
      rw [Nat.mul_assoc, ← pow_add, Nat.sub_add_cancel he]
    rw [ek] at h1 h2 ⊢
    have h3 : h ≤ m * 2 ^ (e - k) := Nat.le_of_mul_le_mul_right h1 (Nat.two_pow_pos _)
    have h4 : m * 2 ^ (e - k) < h + 1 := Nat.lt_of_mul_lt_mul_right h2
    rw [show m * 2 ^ (e - k) = h by omega, Nat.sub_self]
    exact rep_of_le hp (Nat.zero_le _)

/-- Between `2^p` and `2^(p+1)`, the pattern is even exactly if half the number is. -/
theorem even_bits {b k : Nat} (h1 : 2 ^ p * 2 ^ k ≤ magUnits p b) (h2 : magUnits p b < 2 * 2 ^ p * 2 ^ k) :
    b % 2 = magUnits p b / 2 ^ (k + 1) % 2 := by
  obtain ⟨e, m, hb, hm, hP, hu⟩ := magUnits_form hp b
  have hpp := two_pow_pred hp
  have he : e = k + 1 := by
    rcases Nat.lt_trichotomy e (k + 1) with h | h | h
    · exfalso
      have : m * 2 ^ e < 2 ^ p * 2 ^ k :=
        calc m * 2 ^ e < 2 ^ p * 2 ^ e := Nat.mul_lt_mul_of_pos_right hm (Nat.two_pow_pos _)
          _ ≤ 2 ^ p * 2 ^ k := Nat.mul_le_mul_left _ (Nat.pow_le_pow_right (by omega) (by omega))
      omega
    · exact h
    · exfalso
      have h3 := hP (by omega)
      have : 2 * 2 ^ p * 2 ^ k ≤ m * 2 ^ e :=
        calc 2 * 2 ^ p * 2 ^ k = 2 ^ (p - 1) * 2 ^ (k + 2) := by rw [hpp, pow_add]; ring
          _ ≤ 2 ^ (p - 1) * 2 ^ e := Nat.mul_le_mul_left _ (Nat.pow_le_pow_right (by omega) (by omega))
          _ ≤ m * 2 ^ e := Nat.mul_le_mul_right _ h3
      omega
  rw [hu, he, Nat.mul_div_cancel _ (Nat.two_pow_pos _), hb]
  obtain ⟨j, hj⟩ : ∃ j, p - 1 = j + 1 := ⟨p - 2, by omega⟩
  rw [hj, pow_succ, ← Nat.mul_assoc, Nat.add_comm, Nat.add_mul_mod_self_right]

end

/-- Adding at most half a digit to `2 g` rounds up only at a tie, to an even `g + 1`. -/
theorem round_up {p g k l : Nat} (hp : 2 ≤ p) (hg : Rep p g) (hbg : 2 ^ p ≤ g * 2) (hl : l ≤ 2 ^ k)
    (h : g * 2 * 2 ^ k < rn p (g * 2 * 2 ^ k + l)) : g * 2 < 2 * 2 ^ p ∧ g % 2 = 1 := by
  have hk := Nat.two_pow_pos k
  have hf : Rep p (g * 2 * 2 ^ k) := by
    have := rep_mul_pow hp (rep_mul_pow hp hg 1) k
    rwa [pow_one] at this
  generalize hS : g * 2 * 2 ^ k + l = S at h
  have hfr : Rep p (rn p S) := rn_rep hp S
  have n1 := rn_nearest hp S hf
  have hbig0 : 2 ^ p * 2 ^ k ≤ g * 2 * 2 ^ k := Nat.mul_le_mul_right _ hbg
  have hbig : 2 ^ (p + k) ≤ rn p S := by rw [pow_add]; omega
  obtain ⟨g', hg', hS'⟩ := rep_big hp hfr hbig
  -- both are multiples of `2^(k+1)`
  have e1 : ∀ a, a * 2 ^ (k + 1) = 2 * a * 2 ^ k := fun a => by rw [pow_succ]; ring
  rw [e1] at hS'
  have hgg : g < g' := by
    by_contra hcc
    have : 2 * g' * 2 ^ k ≤ g * 2 * 2 ^ k := Nat.mul_le_mul_right _ (by omega)
    omega
  have hstep : g * 2 * 2 ^ k + 2 * 2 ^ k ≤ rn p S := by
    have : (g * 2 + 2) * 2 ^ k ≤ 2 * g' * 2 ^ k := Nat.mul_le_mul_right _ (by omega)
    rw [Nat.add_mul] at this
    omega
  have hd := n1.1
  rw [abs_of_nonneg (by omega), abs_of_nonpos (by omega)] at hd
  have hup : rn p S = g * 2 * 2 ^ k + 2 * 2 ^ k := by omega
  have heven := n1.2 (by omega) (by
    rw [abs_of_nonneg (by omega), abs_of_nonpos (by omega)]; omega)
  have hgs : g * 2 < 2 * 2 ^ p := by
    by_contra hcc
    have e3 : 2 ^ (p + (k + 1)) = 2 * 2 ^ p * 2 ^ k := by rw [pow_add, pow_succ]; ring
    have h5 : 2 * 2 ^ p * 2 ^ k ≤ g * 2 * 2 ^ k := Nat.mul_le_mul_right _ (by omega)
    have h3 : 2 ^ (p + (k + 1)) ≤ rn p S := by omega
    have h4 : 2 ^ (p + (k + 1)) ≤ g * 2 * 2 ^ k := by omega
    obtain ⟨a, _, ha⟩ := rep_big hp hfr h3
    obtain ⟨a', _, ha'⟩ := rep_big hp hf h4
    have e4 : ∀ a, a * 2 ^ (k + 1 + 1) = 4 * a * 2 ^ k := fun a => by rw [pow_succ, pow_succ]; ring
    rw [e4] at ha ha'
    have e5 : 4 * a = 4 * a' + 2 := by
      have : 4 * a * 2 ^ k = (4 * a' + 2) * 2 ^ k := by rw [Nat.add_mul]; omega
      exact Nat.eq_of_mul_eq_mul_right hk this
    omega
  refine ⟨hgs, ?_⟩
  by_contra hodd
  have hup2 : rn p S = (g * 2 + 2) * 2 ^ k := by rw [Nat.add_mul]; exact hup
  have hb1 := even_bits hp (b := roundUnits p S 1) (k := k)
    (by show _ ≤ rn p S
        rw [hup2]; exact Nat.mul_le_mul_right _ (by omega))
    (by show rn p S < _
        rw [hup2]
        apply Nat.mul_lt_mul_of_pos_right _ hk
        -- `g` is even, so `g * 2 + 2 < 2 * 2^p`
        have : 2 ^ p = 2 * 2 ^ (p - 1) := two_pow_pred hp
        omega)
  have hv1 : magUnits p (roundUnits p S 1) = (g + 1) * 2 ^ (k + 1) := by
    show rn p S = _
    rw [hup, e1]; ring
  rw [hv1, Nat.mul_div_cancel _ (Nat.two_pow_pos _)] at hb1
  omega

/-- An integer with one digit too many that is not representable is a tie, rounded to even. -/
theorem tie_even {p g z : Nat} (hp : 2 ≤ p) (hz : rn p z = g * 2) (hbg : 2 ^ p ≤ g * 2) (hgs : g * 2 < 2 * 2 ^ p)
    (hne : z ≠ g * 2) : g % 2 = 0 := by
  have heven : roundUnits p z 1 % 2 = 0 := by
    rcases Nat.lt_or_ge z (g * 2) with hlt | hge
    · have hrep : Rep p (g * 2 - 2) := by
        have := rep_of hp 1 (show g - 1 ≤ 2 ^ p by omega)
        rwa [pow_one, Nat.sub_mul] at this
      have hg1 : 2 ≤ g * 2 := by have := Nat.two_pow_pos p; omega
      have n2 := rn_nearest hp z hrep
      rw [hz] at n2
      have hd2 := n2.1
      rw [abs_of_nonneg (by omega)] at hd2
      have hhi : z = g * 2 - 1 := by
        rcases Nat.lt_or_ge z (g * 2 - 2) with h9 | h9
        · rw [abs_of_nonneg (by omega)] at hd2; omega
        · rw [abs_of_nonpos (by omega)] at hd2; omega
      exact n2.2 (by omega) (by rw [abs_of_nonneg (by omega), abs_of_nonpos (by omega)]; omega)
    · have hrep : Rep p (g * 2 + 2) := by
        have := rep_of hp 1 (show g + 1 ≤ 2 ^ p by omega)
        rwa [pow_one, Nat.add_mul] at this
      have n2 := rn_nearest hp z hrep
      rw [hz] at n2
      have hd2 := n2.1
      rw [abs_of_nonpos (by omega)] at hd2
      have hhi : z = g * 2 + 1 := by
        rcases Nat.lt_or_ge z (g * 2 + 2) with h9 | h9
        · rw [abs_of_nonneg (by omega)] at hd2; omega
        · rw [abs_of_nonpos (by omega)] at hd2; omega
      exact n2.2 (by omega) (by rw [abs_of_nonpos (by omega), abs_of_nonneg (by omega)]; omega)
  have hb2 := even_bits hp (b := roundUnits p z 1) (k := 0)
    (by rw [pow_zero, mul_one]; show _ ≤ rn p z; omega) (by rw [pow_zero, mul_one]; show rn p z < _; omega)
  have hv2 : magUnits p (roundUnits p z 1) = g * 2 := hz
  rw [hv2, Nat.zero_add, pow_one, Nat.mul_div_cancel _ (by omega)] at hb2
  omega

/-- The two halves rounded separately, put together, and rounded. -/
def twoStep (p k hi lo : Nat) : Nat := rn p (rn p hi * 2 ^ k + rn p lo)

theorem le_twoStep {p k hi lo f : Nat} (hp : 2 ≤ p) (hlo : lo < 2 ^ k) (hf : Rep p f) (h : f ≤ hi * 2 ^ k + lo) :
    f ≤ twoStep p k hi lo := by
  unfold twoStep
  have hk := Nat.two_pow_pos k
  apply le_rn hp hf
  rcases Nat.lt_or_ge hi (2 ^ p) with hh | hh
  · rw [rn_fix hp (rep_of_le hp hh.le)]
    rcases Nat.lt_or_ge f (hi * 2 ^ k) with h1 | h1
    · omega
    · have hr := rep_low hp hf h1 (by rw [Nat.succ_mul]; omega)
      have := le_rn hp hr (z := lo) (by omega)
      omega
  · rcases Nat.lt_or_ge f (2 ^ (p + k)) with h1 | h1
    · have h2 : 2 ^ p ≤ rn p hi := le_rn hp (rep_pow hp p) hh
      have h3 : 2 ^ p * 2 ^ k ≤ rn p hi * 2 ^ k := Nat.mul_le_mul_right _ h2
      rw [pow_add] at h1
      omega
    · obtain ⟨g, hg, rfl⟩ := rep_big hp hf h1
      have e : g * 2 ^ (k + 1) = g * 2 ^ 1 * 2 ^ k := by rw [pow_add]; ring
      rw [e] at h ⊢
      have h2 : g * 2 ^ 1 ≤ hi := by
        by_contra hc
        have : (hi + 1) * 2 ^ k ≤ g * 2 ^ 1 * 2 ^ k := Nat.mul_le_mul_right _ (by omega)
        rw [Nat.succ_mul] at this
        omega
      have h3 := le_rn hp (rep_mul_pow hp hg 1) h2
      have := Nat.mul_le_mul_right (2 ^ k) h3
      omega

theorem twoStep_le {p k hi lo f : Nat} (hp : 2 ≤ p) (hlo : lo < 2 ^ k) (hf : Rep p f) (h : hi * 2 ^ k + lo ≤ f) :
    twoStep p k hi lo ≤ f := by
  unfold twoStep
  have hk := Nat.two_pow_pos k
  have hl : rn p lo ≤ 2 ^ k := rn_le hp (rep_pow hp k) hlo.le
  rcases Nat.lt_or_ge hi (2 ^ p) with hh | hh
  · apply rn_le hp hf
    rw [rn_fix hp (rep_of_le hp hh.le)]
    rcases Nat.lt_or_ge f ((hi + 1) * 2 ^ k) with h1 | h1
    · have hr := rep_low hp hf (by omega) h1
      have := rn_le hp hr (z := lo) (by omega)
      omega
    · rw [Nat.succ_mul] at h1; omega
  · have h1 : 2 ^ (p + k) ≤ f := by
      rw [pow_add]
      have : 2 ^ p * 2 ^ k ≤ hi * 2 ^ k := Nat.mul_le_mul_right _ hh
      omega
    obtain ⟨g, hg, rfl⟩ := rep_big hp hf h1
    have e : g * 2 ^ (k + 1) = g * 2 ^ 1 * 2 ^ k := by rw [pow_add]; ring
    have hg2 := rep_mul_pow hp hg 1
    rw [e] at h h1 hf ⊢
    have hle : hi ≤ g * 2 ^ 1 := by
      by_contra hc
      have : (g * 2 ^ 1 + 1) * 2 ^ k ≤ hi * 2 ^ k := Nat.mul_le_mul_right _ (by omega)
      rw [Nat.succ_mul] at this
      omega
    have hrn := rn_le hp hg2 hle
    rcases Nat.lt_or_ge (rn p hi) (g * 2 ^ 1) with hlt | hge
    · apply rn_le hp hf
      have : (rn p hi + 1) * 2 ^ k ≤ g * 2 ^ 1 * 2 ^ k := Nat.mul_le_mul_right _ (by omega)
      rw [Nat.succ_mul] at this
      omega
    · have hH : rn p hi = g * 2 ^ 1 := by omega
      rcases Nat.eq_or_lt_of_le hle with heq | hlt
      · -- no room for a low part
        have hlo0 : lo = 0 := by rw [heq] at h; omega
        apply rn_le hp hf
        rw [hlo0, hH, rn_fix hp (rep_of_le hp (Nat.zero_le _))]
        omega
      · -- the high part was rounded up
        by_contra hc
        rw [hH, pow_one] at hc
        have hbg : 2 ^ p ≤ g * 2 := by rw [pow_one] at hlt; omega
        have h3 := round_up hp hg hbg hl (by omega)
        have h4 := tie_even hp (by rw [hH, pow_one]) hbg h3.1 (z := hi) (by rw [pow_one] at hlt; omega)
        omega

theorem twoStep_mono {p k hi lo hi' lo' : Nat} (hp : 2 ≤ p) (hlo : lo < 2 ^ k)
    (h : hi * 2 ^ k + lo ≤ hi' * 2 ^ k + lo') (hlo' : lo' < 2 ^ k) : twoStep p k hi lo ≤ twoStep p k hi' lo' := by
  have hk := Nat.two_pow_pos k
  have hl : rn p lo ≤ 2 ^ k := rn_le hp (rep_pow hp k) hlo.le
  have hhi : hi ≤ hi' := by
    by_contra hc
    have : (hi' + 1) * 2 ^ k ≤ hi * 2 ^ k := Nat.mul_le_mul_right _ (by omega)
    rw [Nat.succ_mul] at this
    omega
  unfold twoStep
  rcases Nat.eq_or_lt_of_le hhi with heq | hlt
  · subst heq
    exact rn_mono hp (Nat.add_le_add_left (rn_mono hp (by omega)) _)
  · have hm := rn_mono hp hhi
    -- enough that the high parts differ by at least one
    have step : rn p hi + 1 ≤ rn p hi' → rn p (rn p hi * 2 ^ k + rn p lo) ≤ rn p (rn p hi' * 2 ^ k + rn p lo') := by
      intro hs
      apply rn_mono hp
      have : (rn p hi + 1) * 2 ^ k ≤ rn p hi' * 2 ^ k := Nat.mul_le_mul_right _ hs
      rw [Nat.succ_mul] at this
      omega
    rcases Nat.lt_or_ge hi (2 ^ p) with hh | hh
    · apply step
      rw [rn_fix hp (rep_of_le hp hh.le)]
      exact le_rn hp (rep_of_le hp (by omega)) (by omega)
    · rcases Nat.eq_or_lt_of_le hm with he | hl'
      · have hHp : 2 ^ p ≤ rn p hi := le_rn hp (rep_pow hp p) hh
        obtain ⟨g, hg, hgH⟩ := rep_big hp (rn_rep hp hi) (k := 0) (by simpa using hHp)
        rw [Nat.zero_add, pow_one] at hgH
        rw [← he]
        have hf : Rep p (rn p hi * 2 ^ k) := rep_mul_pow hp (rn_rep hp hi) k
        have hlow := le_rn hp hf (Nat.le_add_right (rn p hi * 2 ^ k) (rn p lo'))
        refine le_trans ?_ hlow
        by_contra hc
        rw [hgH] at hc
        rw [hgH] at hHp
        have h3 := round_up hp hg hHp hl (by omega)
        by_cases h9 : hi = g * 2
        · have h4 := tie_even hp (by rw [← he, hgH]) hHp h3.1 (z := hi') (by omega)
          omega
        · have h4 := tie_even hp hgH hHp h3.1 h9
          omega
      · exact step hl'

end Ethnum.FloatTy
