import Verif.Float
import Verif.Proofs.Prim
import Mathlib.Tactic.Linarith
import Mathlib.Tactic.Ring
import Mathlib.Algebra.Order.Ring.Nat
import Mathlib.Algebra.Order.Ring.Int

/-
Rounding: lemmas about `size`, `rneDiv`, `magUnits`, `roundUnits`.
-/

namespace Ethnum.FloatTy

theorem size_lt (n : Nat) : n < 2 ^ size n := by
  unfold size
  split
  · rename_i h; subst h; decide
  · exact Nat.lt_log2_self

theorem size_le {n : Nat} (h : n ≠ 0) : 2 ^ (size n - 1) ≤ n := by
  unfold size
  rw [if_neg h, Nat.add_sub_cancel]
  exact Nat.log2_self_le h

theorem size_eq {n k : Nat} (h1 : 2 ^ k ≤ n) (h2 : n < 2 ^ (k + 1)) : size n = k + 1 := by
  have hn : n ≠ 0 := by have := Nat.two_pow_pos k; omega
  unfold size
  rw [if_neg hn, (Nat.log2_eq_iff hn).2 ⟨h1, h2⟩]

theorem size_le_of_lt {n k : Nat} (h : n < 2 ^ k) : size n ≤ k := by
  unfold size
  split
  · omega
  · rename_i hn
    have := (Nat.log2_lt hn).2 h
    omega

/-! ### `rneDiv` -/

section rne
variable {n d : Nat} (hd : 0 < d)
include hd

theorem rneDiv_cases : (rneDiv n d = n / d ∧ 2 * (n % d) ≤ d ∧ (2 * (n % d) = d → rneDiv n d % 2 = 0))
    ∨ (rneDiv n d = n / d + 1 ∧ d ≤ 2 * (n % d) ∧ (2 * (n % d) = d → rneDiv n d % 2 = 0)) := by
  unfold rneDiv
  split
  · rename_i h
    left
    rcases h with h | ⟨h, h'⟩
    · exact ⟨rfl, by omega, fun _ => by omega⟩
    · exact ⟨rfl, by omega, fun _ => h'⟩
  · rename_i h
    right
    exact ⟨rfl, by omega, fun _ => by omega⟩

theorem le_rneDiv {k : Nat} (h : k * d ≤ n) : k ≤ rneDiv n d := by
  have : k ≤ n / d := (Nat.le_div_iff_mul_le hd).2 h
  rcases rneDiv_cases (n := n) hd with ⟨e, _⟩ | ⟨e, _⟩ <;> omega

theorem rneDiv_le {k : Nat} (h : n ≤ k * d) : rneDiv n d ≤ k := by
  have h1 := Nat.div_add_mod n d
  have h2 := Nat.mod_lt n hd
  rcases rneDiv_cases (n := n) hd with ⟨e, _⟩ | ⟨e, h3, _⟩
  · rw [e]; exact Nat.div_le_of_le_mul (by rwa [Nat.mul_comm] at h)
  · rw [e]
    by_contra hc
    have : k * d ≤ n / d * d := Nat.mul_le_mul_right d (by omega)
    rw [Nat.mul_comm (n / d) d] at this
    omega

/-- Nearest integer. -/
theorem rneDiv_nearest (k : Int) :
    |(rneDiv n d : Int) * d - n| ≤ |k * d - n|
    ∧ (k ≠ rneDiv n d → |(rneDiv n d : Int) * d - n| = |k * d - n| → rneDiv n d % 2 = 0) := by
  have h1 := Nat.div_add_mod n d
  have h2 := Nat.mod_lt n hd
  generalize n / d = q at *
  generalize n % d = r at *
  have hq : rneDiv n d = q ∧ 2 * r ≤ d ∧ (2 * r = d → rneDiv n d % 2 = 0)
    ∨ rneDiv n d = q + 1 ∧ d ≤ 2 * r ∧ (2 * r = d → rneDiv n d % 2 = 0) := by
    have h := rneDiv_cases (n := n) hd
    have e1 : n / d = q := by
      rw [← h1, Nat.mul_add_div hd, Nat.div_eq_of_lt h2, Nat.add_zero]
    have e2 : n % d = r := by
      rw [← h1, Nat.mul_add_mod, Nat.mod_eq_of_lt h2]
    rw [e1, e2] at h; exact h
  have hn : (n : Int) = q * d + r := by rw [← h1]; push_cast; ring
  have hdz : (0 : Int) < d := by exact_mod_cast hd
  have hrz : (0 : Int) ≤ r := Int.natCast_nonneg r
  have hr2 : (r : Int) < d := by exact_mod_cast h2
  have key : ∀ j : Int, j * d - n = (j - q) * d - r := fun j => by rw [hn]; ring
  rw [key, key]
  -- distance of a multiple
  have far : ∀ j : Int, j ≠ 0 → j ≠ 1 → (d : Int) ≤ |j * d - r| ∧ (j < 0 → (d : Int) + r ≤ |j * d - r|)
      ∧ (1 < j → 2 * (d : Int) - r ≤ |j * d - r|) := by
    intro j hj0 hj1
    rcases lt_or_ge j 0 with h | h
    · have h3 : j * d ≤ -1 * d := mul_le_mul_of_nonneg_right (by omega) hdz.le
      rw [abs_of_neg (by linarith)]
      exact ⟨by linarith, fun _ => by linarith, fun h' => by omega⟩
    · have h3 : 2 * (d : Int) ≤ j * d := mul_le_mul_of_nonneg_right (by omega) hdz.le
      rw [abs_of_pos (by linarith)]
      exact ⟨by linarith, fun h' => by omega, fun _ => by linarith⟩
  rcases hq with ⟨e, hle, heven⟩ | ⟨e, hle, heven⟩
  · rw [e] at heven ⊢
    have hl : |((q : Int) - q) * d - r| = r := by
      rw [sub_self, zero_mul, zero_sub, abs_neg, abs_of_nonneg hrz]
    rw [hl]
    by_cases hk : k - q = 0
    · rw [hk]
      refine ⟨by simp [abs_of_nonneg hrz], fun hne => absurd (by omega) hne⟩
    · by_cases hk1 : k - q = 1
      · rw [hk1, one_mul, abs_of_pos (by linarith)]
        exact ⟨by omega, fun _ h => heven (by omega)⟩
      · have := far _ hk hk1
        refine ⟨by linarith [this.1], fun _ h => ?_⟩
        have := this.1
        omega
  · rw [e] at heven ⊢
    have hl : |(((q + 1 : Nat) : Int) - q) * d - r| = d - r := by
      rw [show (((q + 1 : Nat) : Int) - q) = 1 by push_cast; ring, one_mul, abs_of_pos (by linarith)]
    rw [hl]
    by_cases hk : k - q = 0
    · rw [hk, zero_mul, zero_sub, abs_neg, abs_of_nonneg hrz]
      exact ⟨by omega, fun _ h => heven (by omega)⟩
    · by_cases hk1 : k - q = 1
      · rw [hk1, one_mul, abs_of_pos (by linarith)]
        exact ⟨le_refl _, fun hne => absurd (by push_cast; omega) hne⟩
      · have := far _ hk hk1
        refine ⟨by linarith [this.1], fun _ h => ?_⟩
        have h3 := this.1
        have hr0 : (r : Int) = 0 := by omega
        omega

end rne

theorem rneDiv_mul_right (n d k : Nat) (hk : 0 < k) : rneDiv (n * k) (d * k) = rneDiv n d := by
  unfold rneDiv
  rw [Nat.mul_div_mul_right _ _ hk, Nat.mul_mod_mul_right]
  have h1 : 2 * (n % d * k) < d * k ↔ 2 * (n % d) < d := by
    rw [← Nat.mul_assoc]; exact Nat.mul_lt_mul_right hk
  have h2 : 2 * (n % d * k) = d * k ↔ 2 * (n % d) = d := by
    rw [← Nat.mul_assoc]; exact Nat.mul_left_inj (by omega)
  simp only [h1, h2]

theorem rneDiv_exact (k d : Nat) (hd : 0 < d) : rneDiv (k * d) d = k := by
  unfold rneDiv
  rw [Nat.mul_mod_left, Nat.mul_div_cancel _ hd, if_pos (Or.inl (by omega))]

/-! ### Exponent -/

section expo
variable {p n d : Nat} (hp : 2 ≤ p) (hd : 0 < d)
include hp hd

theorem lt_expo : n < d * 2 ^ (p + expo p n d) := by
  have h := size_lt (n / d)
  have : 2 ^ size (n / d) ≤ 2 ^ (p + expo p n d) := Nat.pow_le_pow_right (by omega) (by unfold expo; omega)
  have h2 : n / d < 2 ^ (p + expo p n d) := by omega
  rw [Nat.mul_comm]
  exact (Nat.div_lt_iff_lt_mul hd).1 h2

theorem expo_le (hq : 0 < expo p n d) : d * 2 ^ (p - 1 + expo p n d) ≤ n := by
  have h0 : n / d ≠ 0 := by
    intro h; unfold expo size at hq; rw [h] at hq; simp at hq
  have h := size_le h0
  have e : size (n / d) - 1 = p - 1 + expo p n d := by unfold expo at hq ⊢; omega
  rw [e] at h
  rw [Nat.mul_comm]
  exact (Nat.le_div_iff_mul_le hd).1 h

theorem round_le_pow : rneDiv n (d * 2 ^ expo p n d) ≤ 2 ^ p := by
  apply rneDiv_le (Nat.mul_pos hd (Nat.two_pow_pos _))
  have := lt_expo (n := n) hp hd
  rw [pow_add] at this
  have e : 2 ^ p * (d * 2 ^ expo p n d) = d * (2 ^ p * 2 ^ expo p n d) := by ring
  rw [e]; exact this.le

theorem le_round_pow (hq : 0 < expo p n d) : 2 ^ (p - 1) ≤ rneDiv n (d * 2 ^ expo p n d) := by
  apply le_rneDiv (Nat.mul_pos hd (Nat.two_pow_pos _))
  have := expo_le (n := n) hp hd hq
  rw [pow_add] at this
  have e : 2 ^ (p - 1) * (d * 2 ^ expo p n d) = d * (2 ^ (p - 1) * 2 ^ expo p n d) := by ring
  rw [e]; exact this

end expo

/-! ### `magUnits` -/

section mag
variable {p : Nat} (hp : 2 ≤ p)
include hp

theorem two_pow_pred : 2 ^ p = 2 * 2 ^ (p - 1) := by
  rw [← pow_succ']; congr 1; omega

theorem magUnits_encode {q m : Nat} (hm : m ≤ 2 ^ p) (hq : 0 < q → 2 ^ (p - 1) ≤ m) :
    magUnits p (q * 2 ^ (p - 1) + m) = m * 2 ^ q := by
  have h2 := two_pow_pred hp
  have hP : 0 < 2 ^ (p - 1) := Nat.two_pow_pos _
  unfold magUnits
  rw [h2] at hm
  generalize 2 ^ (p - 1) = P at *
  have hdiv : ∀ a, (q * P + a) / P = q + a / P := fun a => by
    rw [Nat.mul_comm, Nat.mul_add_div hP]
  have hmod : ∀ a, (q * P + a) % P = a % P := fun a => by
    rw [Nat.mul_comm, Nat.mul_add_mod]
  rw [hdiv, hmod]
  rcases Nat.lt_or_ge m P with h | h
  · have hq0 : q = 0 := by
      by_contra hc; have := hq (by omega); omega
    subst hq0
    rw [Nat.div_eq_of_lt h]; simp
  · rcases Nat.lt_or_ge m (2 * P) with h' | h'
    · have e1 : m / P = 1 := Nat.div_eq_of_lt_le (by omega) (by omega)
      have e2 : m % P = m - P := by
        rw [Nat.mod_eq_sub_mod h, Nat.mod_eq_of_lt (by omega)]
      rw [e1, e2, if_neg (by omega), Nat.add_sub_cancel, Nat.sub_add_cancel h]
    · have e : m = 2 * P := by omega
      subst e
      rw [Nat.mul_div_cancel _ hP, Nat.mul_mod_left, if_neg (by omega), Nat.zero_add, show q + 2 - 1 = q + 1 from rfl,
        pow_succ]
      ring

theorem magUnits_form (b : Nat) : ∃ e m, b = e * 2 ^ (p - 1) + m ∧ m < 2 ^ p ∧ (0 < e → 2 ^ (p - 1) ≤ m)
    ∧ magUnits p b = m * 2 ^ e := by
  have h2 := two_pow_pred hp
  have hP : 0 < 2 ^ (p - 1) := Nat.two_pow_pos _
  unfold magUnits
  rw [h2]
  generalize 2 ^ (p - 1) = P at *
  have h1 := Nat.div_add_mod b P
  have h3 := Nat.mod_lt b hP
  split
  · rename_i h
    rw [h] at h1
    refine ⟨0, b, by omega, by omega, fun h => absurd h (by omega), by simp⟩
  · rename_i h
    refine ⟨b / P - 1, b % P + P, ?_, by omega, fun _ => by omega, rfl⟩
    obtain ⟨k, hk⟩ : ∃ k, b / P = k + 1 := ⟨b / P - 1, (Nat.sub_add_cancel (Nat.pos_of_ne_zero h)).symm⟩
    rw [hk] at h1 ⊢
    rw [Nat.add_sub_cancel]
    rw [Nat.mul_add, Nat.mul_one, Nat.mul_comm P k] at h1
    omega

theorem magUnits_lt {b b' : Nat} (h : b < b') : magUnits p b < magUnits p b' := by
  obtain ⟨e, m, hb, hm, hP, hu⟩ := magUnits_form hp b
  obtain ⟨e', m', hb', hm', hP', hu'⟩ := magUnits_form hp b'
  rw [hu, hu']
  have h2 := two_pow_pred hp
  rcases Nat.lt_trichotomy e e' with he | he | he
  · have h3 := hP' (by omega)
    calc m * 2 ^ e < 2 ^ p * 2 ^ e := Nat.mul_lt_mul_of_pos_right hm (Nat.two_pow_pos _)
      _ = 2 ^ (p - 1) * 2 ^ (e + 1) := by rw [h2, pow_succ]; ring
      _ ≤ 2 ^ (p - 1) * 2 ^ e' := Nat.mul_le_mul_left _ (Nat.pow_le_pow_right (by omega) he)
      _ ≤ m' * 2 ^ e' := Nat.mul_le_mul_right _ h3
  · subst he
    exact Nat.mul_lt_mul_of_pos_right (by omega) (Nat.two_pow_pos _)
  · exfalso
    have h3 := hP (by omega)
    obtain ⟨k, hk⟩ : ∃ k, e = e' + 1 + k := ⟨e - e' - 1, by omega⟩
    rw [hb, hb', hk] at h
    have : (e' + 1 + k) * 2 ^ (p - 1) = e' * 2 ^ (p - 1) + 2 ^ (p - 1) + k * 2 ^ (p - 1) := by ring
    have := Nat.zero_le (k * 2 ^ (p - 1))
    omega

theorem magUnits_le_iff {b b' : Nat} : magUnits p b ≤ magUnits p b' ↔ b ≤ b' := by
  constructor
  · intro h
    by_contra hc
    have := magUnits_lt hp (show b' < b by omega)
    omega
  · intro h
    rcases Nat.lt_or_ge b b' with h' | h'
    · exact (magUnits_lt hp h').le
    · have : b = b' := by omega
      rw [this]

theorem magUnits_inj {b b' : Nat} (h : magUnits p b = magUnits p b') : b = b' :=
  Nat.le_antisymm ((magUnits_le_iff hp).1 h.le) ((magUnits_le_iff hp).1 h.ge)

end mag

/-! ### `roundUnits` -/

section round
variable {p n d : Nat} (hp : 2 ≤ p) (hd : 0 < d)
include hp hd

theorem magUnits_round : magUnits p (roundUnits p n d) = rneDiv n (d * 2 ^ expo p n d) * 2 ^ expo p n d :=
  magUnits_encode hp (round_le_pow hp hd) (le_round_pow hp hd)

theorem le_roundUnits {b : Nat} (h : magUnits p b * d ≤ n) : b ≤ roundUnits p n d := by
  rw [← magUnits_le_iff hp, magUnits_round hp hd]
  obtain ⟨e, m, hb, hm, hP, hu⟩ := magUnits_form hp b
  rw [hu] at h ⊢
  rcases Nat.lt_or_ge e (expo p n d) with he | he
  · have h1 := le_round_pow (n := n) hp hd (by omega)
    calc m * 2 ^ e ≤ 2 ^ p * 2 ^ e := Nat.mul_le_mul_right _ hm.le
      _ = 2 ^ (p - 1) * 2 ^ (e + 1) := by rw [two_pow_pred hp, pow_succ]; ring
      _ ≤ 2 ^ (p - 1) * 2 ^ expo p n d := Nat.mul_le_mul_left _ (Nat.pow_le_pow_right (by omega) he)
      _ ≤ _ := Nat.mul_le_mul_right _ h1
  · have e1 : m * 2 ^ e = m * 2 ^ (e - expo p n d) * 2 ^ expo p n d := by
      rw [Nat.mul_assoc, ← pow_add, Nat.sub_add_cancel he]
    rw [e1] at h ⊢
    apply Nat.mul_le_mul_right
    apply le_rneDiv (Nat.mul_pos hd (Nat.two_pow_pos _))
    rw [Nat.mul_comm d, ← Nat.mul_assoc]; exact h

theorem roundUnits_le {b : Nat} (h : n ≤ magUnits p b * d) : roundUnits p n d ≤ b := by
  rw [← magUnits_le_iff hp, magUnits_round hp hd]
  obtain ⟨e, m, hb, hm, hP, hu⟩ := magUnits_form hp b
  rw [hu] at h ⊢
  rcases Nat.lt_or_ge e (expo p n d) with he | he
  · exfalso
    have h1 := expo_le (n := n) hp hd (by omega)
    have h2 : m * 2 ^ e < 2 ^ (p - 1 + expo p n d) := by
      calc m * 2 ^ e < 2 ^ p * 2 ^ e := Nat.mul_lt_mul_of_pos_right hm (Nat.two_pow_pos _)
        _ = 2 ^ (p - 1) * 2 ^ (e + 1) := by rw [two_pow_pred hp, pow_succ]; ring
        _ ≤ 2 ^ (p - 1) * 2 ^ expo p n d := Nat.mul_le_mul_left _ (Nat.pow_le_pow_right (by omega) he)
        _ = _ := (pow_add _ _ _).symm
    have h3 : m * 2 ^ e * d < 2 ^ (p - 1 + expo p n d) * d := Nat.mul_lt_mul_of_pos_right h2 hd
    rw [Nat.mul_comm _ d, Nat.mul_comm _ d] at h3
    rw [Nat.mul_comm] at h
    omega
  · have e1 : m * 2 ^ e = m * 2 ^ (e - expo p n d) * 2 ^ expo p n d := by
      rw [Nat.mul_assoc, ← pow_add, Nat.sub_add_cancel he]
    rw [e1] at h ⊢
    apply Nat.mul_le_mul_right
    apply rneDiv_le (Nat.mul_pos hd (Nat.two_pow_pos _))
    rw [Nat.mul_comm d, ← Nat.mul_assoc]; exact h

theorem roundUnits_even_iff : roundUnits p n d % 2 = rneDiv n (d * 2 ^ expo p n d) % 2 := by
  unfold roundUnits
  obtain ⟨k, hk⟩ : ∃ k, p - 1 = k + 1 := ⟨p - 2, by omega⟩
  rw [hk, pow_succ, ← Nat.mul_assoc, Nat.add_comm, Nat.add_mul_mod_self_right]

/-- Rounding to nearest, ties to even. -/
theorem roundUnits_nearest (b : Nat) :
    |(magUnits p (roundUnits p n d) : Int) * d - n| ≤ |(magUnits p b : Int) * d - n|
    ∧ (b ≠ roundUnits p n d → |(magUnits p (roundUnits p n d) : Int) * d - n| = |(magUnits p b : Int) * d - n|
        → roundUnits p n d % 2 = 0) := by
  have hq := Nat.two_pow_pos (expo p n d)
  rw [roundUnits_even_iff hp hd]
  have hmr := magUnits_round (n := n) hp hd
  obtain ⟨e, m, hb, hm, hP, hu⟩ := magUnits_form hp b
  have hD : 0 < d * 2 ^ expo p n d := Nat.mul_pos hd hq
  have near := fun k => rneDiv_nearest (n := n) hD k
  have e0 : (magUnits p (roundUnits p n d) : Int) * d = (rneDiv n (d * 2 ^ expo p n d) : Int) * (d * 2 ^ expo p n d : Nat) := by
    rw [hmr]; push_cast; ring
  rcases Nat.lt_or_ge e (expo p n d) with he | he
  · have h1 := expo_le (n := n) hp hd (by omega)
    have h2 : m * 2 ^ e < 2 ^ (p - 1 + expo p n d) := by
      calc m * 2 ^ e < 2 ^ p * 2 ^ e := Nat.mul_lt_mul_of_pos_right hm (Nat.two_pow_pos _)
        _ = 2 ^ (p - 1) * 2 ^ (e + 1) := by rw [two_pow_pred hp, pow_succ]; ring
        _ ≤ 2 ^ (p - 1) * 2 ^ expo p n d := Nat.mul_le_mul_left _ (Nat.pow_le_pow_right (by omega) he)
        _ = _ := (pow_add _ _ _).symm
    have h3 := (near (2 ^ (p - 1) : Nat)).1
    rw [← e0] at h3
    have h4 : ((2 ^ (p - 1) : Nat) : Int) * (d * 2 ^ expo p n d : Nat) = ((d * 2 ^ (p - 1 + expo p n d) : Nat) : Int) := by
      rw [pow_add]; push_cast; ring
    rw [h4] at h3
    have h5 : m * 2 ^ e * d < d * 2 ^ (p - 1 + expo p n d) := by
      rw [Nat.mul_comm d]; exact Nat.mul_lt_mul_of_pos_right h2 hd
    have h6 : |(magUnits p b : Int) * d - n| = n - (m * 2 ^ e * d : Nat) := by
      rw [hu, abs_of_nonpos]
      · push_cast; ring
      · have : ((m * 2 ^ e * d : Nat) : Int) ≤ n := by exact_mod_cast (by omega)
        push_cast at this ⊢; linarith
    have h7 : |((d * 2 ^ (p - 1 + expo p n d) : Nat) : Int) - n| = n - (d * 2 ^ (p - 1 + expo p n d) : Nat) := by
      rw [abs_of_nonpos]
      · ring
      · have : ((d * 2 ^ (p - 1 + expo p n d) : Nat) : Int) ≤ n := by exact_mod_cast h1
        linarith
    rw [h6]; rw [h7] at h3
    have h8 : ((m * 2 ^ e * d : Nat) : Int) < (d * 2 ^ (p - 1 + expo p n d) : Nat) := by exact_mod_cast h5
    exact ⟨by linarith, fun _ h => by linarith⟩
  · have e1 : magUnits p b = m * 2 ^ (e - expo p n d) * 2 ^ expo p n d := by
      rw [hu, Nat.mul_assoc, ← pow_add, Nat.sub_add_cancel he]
    have e2 : (magUnits p b : Int) * d = ((m * 2 ^ (e - expo p n d) : Nat) : Int) * (d * 2 ^ expo p n d : Nat) := by
      rw [e1]; push_cast; ring
    rw [e0, e2]
    refine ⟨(near _).1, fun hne h => (near _).2 ?_ h⟩
    intro hc
    apply hne
    apply magUnits_inj hp
    rw [hmr, e1]
    congr 1
    exact_mod_cast hc

/-- Rounding depends on the quotient only. -/
theorem roundUnits_mul_right {k : Nat} (hk : 0 < k) : roundUnits p (n * k) (d * k) = roundUnits p n d := by
  unfold roundUnits expo
  rw [Nat.mul_div_mul_right _ _ hk]
  congr 1
  rw [show d * k * 2 ^ (size (n / d) - p) = d * 2 ^ (size (n / d) - p) * k by ring, rneDiv_mul_right _ _ _ hk]

/-- A representable number is rounded to itself. -/
theorem roundUnits_fix (b : Nat) : roundUnits p (magUnits p b * d) d = b :=
  Nat.le_antisymm (roundUnits_le hp hd le_rfl) (le_roundUnits hp hd le_rfl)

end round

end Ethnum.FloatTy
