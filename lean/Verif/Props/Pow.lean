import Verif.Proofs.Pow
import Verif.Props.Repr

/-
C16 and C17: exponentiation.
-/

namespace Ethnum

theorem InU256_natCast (n : Nat) : InU256 (n : Int) ↔ n < 2 ^ 256 := by unfold InU256; omega

/-- C16: no form diverges or is undefined; the panic of `pow` is the only one. -/
theorem C16_pow (c : Cfg) (a : U256) (e : U32) :
    a.wrapping_pow c e = .ok (U256.ofNat c (a.toNat c ^ e.toNat))
    ∧ a.overflowing_pow c e = .ok (U256.ofNat c (a.toNat c ^ e.toNat), decide (2 ^ 256 ≤ a.toNat c ^ e.toNat))
    ∧ a.checked_pow c e
      = .ok (if a.toNat c ^ e.toNat < 2 ^ 256 then some (U256.ofNat c (a.toNat c ^ e.toNat)) else none)
    ∧ a.saturating_pow c e = .ok (U256.ofNat c (min (a.toNat c ^ e.toNat) (2 ^ 256 - 1)))
    ∧ a.pow c e = (if c.debugAssertions = true ∧ 2 ^ 256 ≤ a.toNat c ^ e.toNat then .error (.panic .mulOverflow)
      else .ok (U256.ofNat c (a.toNat c ^ e.toNat))) := by
  have hc : a.checked_pow c e
      = .ok (if a.toNat c ^ e.toNat < 2 ^ 256 then some (U256.ofNat c (a.toNat c ^ e.toNat)) else none) := by
    rw [U256.checked_pow_eq, ← Nat.cast_pow, U256.ofInt_natCast]
    simp only [InU256_natCast]
  refine ⟨?_, ?_, hc, ?_, ?_⟩
  · rw [U256.wrapping_pow_eq, ← Nat.cast_pow, U256.ofInt_natCast]
  · rw [U256.overflowing_pow_eq, ← Nat.cast_pow, U256.ofInt_natCast]
    simp only [InU256_natCast, not_lt]
  · unfold U256.saturating_pow
    rw [hc, ok_bind]
    generalize a.toNat c ^ e.toNat = n
    by_cases h : n < 2 ^ 256
    · rw [if_pos h, Option.getD_some, Nat.min_eq_left (by omega)]; rfl
    · rw [if_neg h, Option.getD_none, Nat.min_eq_right (by omega), ← U256.MAX_eq c]; rfl
  · rw [U256.pow_eq, ← Nat.cast_pow, U256.ofInt_natCast]
    simp only [InU256_natCast, not_lt]

example : (U256.ofNat dbg 3).pow dbg 161 = .ok (U256.ofNat dbg (3 ^ 161))
    ∧ (U256.ofNat dbg 3).pow dbg 162 = .error (.panic .mulOverflow)
    ∧ (U256.ofNat rel 3).overflowing_pow rel 162 = .ok (U256.ofNat rel (3 ^ 162), true)
    ∧ (U256.ofNat rel 2).saturating_pow rel 256 = .ok U256.MAX := by decide +kernel

/-- C17. -/
theorem C17_pow (c : Cfg) (a : I256) (e : U32) :
    a.wrapping_pow c e = .ok (I256.ofInt c (a.toInt c ^ e.toNat))
    ∧ a.overflowing_pow c e = .ok (I256.ofInt c (a.toInt c ^ e.toNat), decide (¬ InI256 (a.toInt c ^ e.toNat)))
    ∧ a.checked_pow c e
      = .ok (if InI256 (a.toInt c ^ e.toNat) then some (I256.ofInt c (a.toInt c ^ e.toNat)) else none)
    ∧ a.saturating_pow c e = .ok (I256.ofInt c (clampI256 (a.toInt c ^ e.toNat)))
    ∧ a.pow c e = (if c.debugAssertions = true ∧ ¬ InI256 (a.toInt c ^ e.toNat) then .error (.panic .mulOverflow)
      else .ok (I256.ofInt c (a.toInt c ^ e.toNat))) := by
  refine ⟨I256.wrapping_pow_eq c a e, I256.overflowing_pow_eq c a e, I256.checked_pow_eq c a e, ?_,
    I256.pow_eq c a e⟩
  unfold I256.saturating_pow
  rw [I256.checked_pow_eq, ok_bind]
  have hsign : (a.lt_prim c 0 && decide (e % 2 = 1)) = true ↔ a.toInt c ^ e.toNat < 0 := by
    rw [Bool.and_eq_true, I256.lt_prim_eq, decide_eq_true_eq, decide_eq_true_eq, exp_mod_two, toInt_0]
    rw [← Nat.odd_iff]
    constructor
    · rintro ⟨h1, h2⟩; exact h2.pow_neg h1
    · intro h
      have h2 : Odd e.toNat := by
        by_contra h2
        rw [Nat.not_odd_iff_even] at h2
        exact absurd h (not_lt.2 (h2.pow_nonneg _))
      exact ⟨h2.pow_neg_iff.1 h, h2⟩
  by_cases h : InI256 (a.toInt c ^ e.toNat)
  · rw [if_pos h]
    generalize a.toInt c ^ e.toNat = v at *
    have : clampI256 v = v := by unfold clampI256; obtain ⟨h1, h2⟩ := h; omega
    rw [this]; rfl
  · rw [if_neg h]
    generalize a.toInt c ^ e.toNat = v at *
    unfold InI256 at h
    by_cases hn : v < 0
    · dsimp only
      rw [if_pos (hsign.2 hn), I256.MIN_eq]
      have : clampI256 v = -2 ^ 255 := by unfold clampI256; omega
      rw [this]; rfl
    · dsimp only
      rw [if_neg (fun hh => hn (hsign.1 hh)), I256.MAX_eq]
      have : clampI256 v = 2 ^ 255 - 1 := by unfold clampI256; omega
      rw [this]; rfl

example : (I256.ofInt dbg (-2)).pow dbg 255 = .ok (I256.MIN dbg)
    ∧ (I256.ofInt dbg 2).pow dbg 255 = .error (.panic .mulOverflow)
    ∧ (I256.ofInt rel (-3)).saturating_pow rel 163 = .ok (I256.MIN rel)
    ∧ (I256.ofInt rel (-2)).overflowing_pow rel 256 = .ok (I256.ZERO, true) := by decide +kernel

end Ethnum
