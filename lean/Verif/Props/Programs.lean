import Verif.SpecProg
import Verif.Props.Operators
import Verif.Props.Pow

/-
C51 computations of any size, by induction over expressions (Verif/SpecProg.lean).
-/

namespace Ethnum

theorem inU256_toNat (c : Cfg) (x : U256) : InU256 (x.toNat c) := ⟨by omega, by have := x.toNat_lt c; omega⟩

theorem inU256_div (c : Cfg) (x y : U256) : InU256 ((x.toNat c : Int).tdiv (y.toNat c)) := by
  have h1 := Nat.div_le_self (x.toNat c) (y.toNat c); have h2 := x.toNat_lt c
  show InU256 (Int.ofNat (x.toNat c / y.toNat c))
  generalize x.toNat c / y.toNat c = q at *
  exact ⟨Int.natCast_nonneg q, by show (q : Int) < _; omega⟩

/-! ### U256 -/

/-- C51: an expression of any size whose operations all stay in range has the exact value in every build. -/
theorem C51_u256_ops (c : Cfg) (ρ : Nat → U256) (e : Exp) (h : e.Fits InU256 (fun i => (ρ i).toNat c)) :
    ∃ x, U256.evalOps c ρ e = .ok x ∧ (x.toNat c : Int) = e.value (fun i => (ρ i).toNat c) := by
  induction e with
  | var i => exact ⟨ρ i, rfl, rfl⟩
  | add a b iha ihb =>
    obtain ⟨ha, hb, hP⟩ := h
    obtain ⟨x, hx, ex⟩ := iha ha
    obtain ⟨y, hy, ey⟩ := ihb hb
    simp only [U256.evalOps, hx, hy, ok_bind, Exp.value, ← ex, ← ey] at hP ⊢
    have hlt : x.toNat c + y.toNat c < 2 ^ 256 := by have := hP.2; omega
    refine ⟨_, by rw [(C25_u256 c x y).1, if_neg (by omega)], ?_⟩
    rw [U256.toNat_ofNat_of_lt c hlt]; omega
  | sub a b iha ihb =>
    obtain ⟨ha, hb, hP⟩ := h
    obtain ⟨x, hx, ex⟩ := iha ha
    obtain ⟨y, hy, ey⟩ := ihb hb
    simp only [U256.evalOps, hx, hy, ok_bind, Exp.value, ← ex, ← ey] at hP ⊢
    have hlt : ¬ x.toNat c < y.toNat c := by have := hP.1; omega
    refine ⟨_, by rw [(C25_u256 c x y).2.1, if_neg (by omega)], ?_⟩
    exact U256.toNat_ofInt_of_range c hP.1 hP.2
  | mul a b iha ihb =>
    obtain ⟨ha, hb, hP⟩ := h
    obtain ⟨x, hx, ex⟩ := iha ha
    obtain ⟨y, hy, ey⟩ := ihb hb
    simp only [U256.evalOps, hx, hy, ok_bind, Exp.value, ← ex, ← ey] at hP ⊢
    have hlt : x.toNat c * y.toNat c < 2 ^ 256 := by have := hP.2; exact_mod_cast this
    refine ⟨_, by rw [(C25_u256 c x y).2.2, if_neg (by omega)], ?_⟩
    rw [U256.toNat_ofNat_of_lt c hlt]; push_cast; rfl
  | div a b iha ihb =>
    obtain ⟨ha, hb, h0, hP⟩ := h
    obtain ⟨x, hx, ex⟩ := iha ha
    obtain ⟨y, hy, ey⟩ := ihb hb
    simp only [U256.evalOps, hx, hy, ok_bind, Exp.value, ← ex, ← ey] at h0 ⊢
    have h0 : y.toNat c ≠ 0 := by omega
    refine ⟨_, (C04_div c x y h0).1, ?_⟩
    rw [U256.toNat_ofNat_of_lt c (lt_of_le_of_lt (Nat.div_le_self _ _) (x.toNat_lt c))]
    rfl
  | rem a b iha ihb =>
    obtain ⟨ha, hb, h0, hP⟩ := h
    obtain ⟨x, hx, ex⟩ := iha ha
    obtain ⟨y, hy, ey⟩ := ihb hb
    simp only [U256.evalOps, hx, hy, ok_bind, Exp.value, ← ex, ← ey] at h0 ⊢
    have h0 : y.toNat c ≠ 0 := by omega
    refine ⟨_, (C04_rem c x y h0).1, ?_⟩
    rw [U256.toNat_ofNat_of_lt c (lt_of_le_of_lt (Nat.mod_le _ _) (x.toNat_lt c))]
    rfl
  | pow a k iha =>
    obtain ⟨ha, hP⟩ := h
    obtain ⟨x, hx, ex⟩ := iha ha
    simp only [U256.evalOps, hx, ok_bind, Exp.value, ← ex] at hP ⊢
    have hlt : x.toNat c ^ k.toNat < 2 ^ 256 := by have := hP.2; exact_mod_cast this
    refine ⟨_, by rw [(C16_pow c x k).2.2.2.2, if_neg (by omega)], ?_⟩
    rw [U256.toNat_ofNat_of_lt c hlt]; push_cast; rfl

/-- C51: with debug assertions, any other expression panics. -/
theorem C51_u256_ops_panics (c : Cfg) (hc : c.debugAssertions = true) (ρ : Nat → U256) (e : Exp)
    (h : ¬ e.Fits InU256 (fun i => (ρ i).toNat c)) : Panics (U256.evalOps c ρ e) := by
  have two : ∀ (a b : Exp) (f : U256 → U256 → Res U256),
      (¬ a.Fits InU256 (fun i => (ρ i).toNat c) → Panics (U256.evalOps c ρ a)) →
      (¬ b.Fits InU256 (fun i => (ρ i).toNat c) → Panics (U256.evalOps c ρ b)) →
      (∀ x y, (x.toNat c : Int) = a.value (fun i => (ρ i).toNat c) → (y.toNat c : Int) = b.value (fun i => (ρ i).toNat c) →
        a.Fits InU256 (fun i => (ρ i).toNat c) → b.Fits InU256 (fun i => (ρ i).toNat c) → Panics (f x y)) →
      Panics (do let x ← U256.evalOps c ρ a; let y ← U256.evalOps c ρ b; f x y) := by
    intro a b f iha ihb hf
    by_cases ha : a.Fits InU256 (fun i => (ρ i).toNat c)
    · obtain ⟨x, hx, ex⟩ := C51_u256_ops c ρ a ha
      by_cases hb : b.Fits InU256 (fun i => (ρ i).toNat c)
      · obtain ⟨y, hy, ey⟩ := C51_u256_ops c ρ b hb
        rw [hx, hy]; exact hf x y ex ey ha hb
      · obtain ⟨p, hp⟩ := ihb hb
        rw [hx, hp]; exact ⟨p, rfl⟩
    · obtain ⟨p, hp⟩ := iha ha
      rw [hp]; exact ⟨p, rfl⟩
  induction e with
  | var i => exact absurd trivial h
  | add a b iha ihb =>
    refine two a b _ iha ihb (fun x y ex ey ha hb => ⟨.addOverflow, ?_⟩)
    have hov : 2 ^ 256 ≤ x.toNat c + y.toNat c := ?_
    · rw [(C25_u256 c x y).1, if_pos ⟨hc, hov⟩]
    by_contra hh
    exact h ⟨ha, hb, by rw [← ex, ← ey]; exact ⟨by omega, by omega⟩⟩
  | sub a b iha ihb =>
    refine two a b _ iha ihb (fun x y ex ey ha hb => ⟨.subOverflow, ?_⟩)
    have hov : x.toNat c < y.toNat c := ?_
    · rw [(C25_u256 c x y).2.1, if_pos ⟨hc, hov⟩]
    by_contra hh
    have := x.toNat_lt c
    exact h ⟨ha, hb, by rw [← ex, ← ey]; exact ⟨by omega, by omega⟩⟩
  | mul a b iha ihb =>
    refine two a b _ iha ihb (fun x y ex ey ha hb => ⟨.mulOverflow, ?_⟩)
    have hov : 2 ^ 256 ≤ x.toNat c * y.toNat c := ?_
    · rw [(C25_u256 c x y).2.2, if_pos ⟨hc, hov⟩]
    by_contra hh
    exact h ⟨ha, hb, by rw [← ex, ← ey, ← Int.natCast_mul]; exact ⟨by omega, by omega⟩⟩
  | div a b iha ihb =>
    refine two a b _ iha ihb (fun x y ex ey ha hb => ?_)
    by_cases h0 : y.toNat c = 0
    · exact (C04_zero c x y h0).2.2.2.2.2.2.1
    · refine absurd ⟨ha, hb, by omega, ?_⟩ h
      rw [← ex, ← ey]
      exact inU256_div c x y
  | rem a b iha ihb =>
    refine two a b _ iha ihb (fun x y ex ey ha hb => ?_)
    by_cases h0 : y.toNat c = 0
    · exact (C04_zero c x y h0).2.2.2.2.2.2.2.1
    · refine absurd ⟨ha, hb, by omega, ?_⟩ h
      rw [← ex, ← ey]
      exact inU256_div c x y
  | pow a k iha =>
    by_cases ha : a.Fits InU256 (fun i => (ρ i).toNat c)
    · obtain ⟨x, hx, ex⟩ := C51_u256_ops c ρ a ha
      simp only [U256.evalOps, hx, ok_bind]
      refine ⟨.mulOverflow, ?_⟩
      have hov : 2 ^ 256 ≤ x.toNat c ^ k.toNat := ?_
      · rw [(C16_pow c x k).2.2.2.2, if_pos ⟨hc, hov⟩]
      by_contra hh
      exact h ⟨ha, by rw [← ex, ← Int.natCast_pow]; exact ⟨by omega, by omega⟩⟩
    · obtain ⟨p, hp⟩ := iha ha
      simp only [U256.evalOps, hp]; exact ⟨p, rfl⟩

/-- C51: the expression with the `checked_*` methods has a value exactly if all its operations stay in range, and then it
is the exact one. -/
theorem C51_u256_checked (c : Cfg) (ρ : Nat → U256) (e : Exp) :
    (e.Fits InU256 (fun i => (ρ i).toNat c) →
      ∃ x, U256.evalChecked c ρ e = .ok (some x) ∧ (x.toNat c : Int) = e.value (fun i => (ρ i).toNat c))
    ∧ (¬ e.Fits InU256 (fun i => (ρ i).toNat c) → U256.evalChecked c ρ e = .ok none) := by
  -- the common part of the binary operations: `R x y` says that the operation itself stays in range
  have two : ∀ (a b : Exp) (f : U256 → U256 → Res (Option U256)) (R : Int → Int → Prop) (v : Int → Int → Int),
      ((a.Fits InU256 (fun i => (ρ i).toNat c) →
        ∃ x, U256.evalChecked c ρ a = .ok (some x) ∧ (x.toNat c : Int) = a.value (fun i => (ρ i).toNat c))
      ∧ (¬ a.Fits InU256 (fun i => (ρ i).toNat c) → U256.evalChecked c ρ a = .ok none)) →
      ((b.Fits InU256 (fun i => (ρ i).toNat c) →
        ∃ x, U256.evalChecked c ρ b = .ok (some x) ∧ (x.toNat c : Int) = b.value (fun i => (ρ i).toNat c))
      ∧ (¬ b.Fits InU256 (fun i => (ρ i).toNat c) → U256.evalChecked c ρ b = .ok none)) →
      (∀ x y, (R (x.toNat c) (y.toNat c) → ∃ z, f x y = .ok (some z) ∧ (z.toNat c : Int) = v (x.toNat c) (y.toNat c))
        ∧ (¬ R (x.toNat c) (y.toNat c) → f x y = .ok none)) →
      ((a.Fits InU256 (fun i => (ρ i).toNat c) ∧ b.Fits InU256 (fun i => (ρ i).toNat c)
          ∧ R (a.value (fun i => (ρ i).toNat c)) (b.value (fun i => (ρ i).toNat c))) →
        ∃ z, (do
          let some x ← U256.evalChecked c ρ a | return none
          let some y ← U256.evalChecked c ρ b | return none
          f x y) = .ok (some z) ∧ (z.toNat c : Int) = v (a.value (fun i => (ρ i).toNat c)) (b.value (fun i => (ρ i).toNat c)))
      ∧ (¬ (a.Fits InU256 (fun i => (ρ i).toNat c) ∧ b.Fits InU256 (fun i => (ρ i).toNat c)
          ∧ R (a.value (fun i => (ρ i).toNat c)) (b.value (fun i => (ρ i).toNat c))) →
        (do
          let some x ← U256.evalChecked c ρ a | return none
          let some y ← U256.evalChecked c ρ b | return none
          f x y) = .ok none) := by
    intro a b f R v ha hb hf
    constructor
    · rintro ⟨h1, h2, h3⟩
      obtain ⟨x, hx, ex⟩ := ha.1 h1
      obtain ⟨y, hy, ey⟩ := hb.1 h2
      rw [← ex, ← ey] at h3 ⊢
      rw [hx, hy]
      exact (hf x y).1 h3
    · intro h
      by_cases h1 : a.Fits InU256 (fun i => (ρ i).toNat c)
      · obtain ⟨x, hx, ex⟩ := ha.1 h1
        by_cases h2 : b.Fits InU256 (fun i => (ρ i).toNat c)
        · obtain ⟨y, hy, ey⟩ := hb.1 h2
          rw [hx, hy]
          exact (hf x y).2 (fun hr => h ⟨h1, h2, by rw [← ex, ← ey]; exact hr⟩)
        · rw [hx, hb.2 h2]; rfl
      · rw [ha.2 h1]; rfl
  induction e with
  | var i => exact ⟨fun _ => ⟨ρ i, rfl, rfl⟩, fun h => absurd trivial h⟩
  | add a b iha ihb =>
    refine two a b (fun x y => .ok (x.checked_add c y)) (fun p q => InU256 (p + q)) (· + ·) iha ihb (fun x y => ?_)
    rw [(C02_checked c x y).1]
    refine ⟨fun h => ?_, fun h => by rw [if_neg (fun hh => h ⟨by omega, by omega⟩)]⟩
    have hlt : x.toNat c + y.toNat c < 2 ^ 256 := by have := h.2; omega
    exact ⟨_, by rw [if_pos hlt], by rw [U256.toNat_ofNat_of_lt c hlt]; push_cast; rfl⟩
  | sub a b iha ihb =>
    refine two a b (fun x y => .ok (x.checked_sub c y)) (fun p q => InU256 (p - q)) (· - ·) iha ihb (fun x y => ?_)
    rw [(C02_checked c x y).2]
    have hx := x.toNat_lt c
    refine ⟨fun h => ?_, fun h => by rw [if_neg (fun hh => h ⟨by omega, by omega⟩)]⟩
    have hle : y.toNat c ≤ x.toNat c := by have := h.1; omega
    exact ⟨_, by rw [if_pos hle], by rw [U256.toNat_ofNat_of_lt c (by omega)]; omega⟩
  | mul a b iha ihb =>
    refine two a b (fun x y => x.checked_mul c y) (fun p q => InU256 (p * q)) (· * ·) iha ihb (fun x y => ?_)
    rw [(C03_mul c x y).2.2.1]
    refine ⟨fun h => ?_, fun h => by rw [if_neg (fun hh => h ⟨by positivity, by exact_mod_cast hh⟩)]⟩
    have hlt : x.toNat c * y.toNat c < 2 ^ 256 := by have := h.2; exact_mod_cast this
    exact ⟨_, by rw [if_pos hlt], by rw [U256.toNat_ofNat_of_lt c hlt]; push_cast; rfl⟩
  | div a b iha ihb =>
    refine two a b (fun x y => x.checked_div c y) (fun p q => q ≠ 0 ∧ InU256 (p.tdiv q)) Int.tdiv iha ihb (fun x y => ?_)
    have h1 := Nat.div_le_self (x.toNat c) (y.toNat c); have h2 := x.toNat_lt c
    by_cases h0 : y.toNat c = 0
    · exact ⟨fun h => absurd (by omega) h.1, fun _ => (C04_zero c x y h0).1⟩
    · refine ⟨fun _ => ⟨_, (C04_div c x y h0).2.2.2.2.2.1, ?_⟩, fun h => absurd ⟨by omega, ?_⟩ h⟩
      · rw [U256.toNat_ofNat_of_lt c (by omega)]; rfl
      · exact inU256_div c x y
  | rem a b iha ihb =>
    refine two a b (fun x y => x.checked_rem c y) (fun p q => q ≠ 0 ∧ InU256 (p.tdiv q)) Int.tmod iha ihb (fun x y => ?_)
    have h1 := Nat.div_le_self (x.toNat c) (y.toNat c); have h2 := x.toNat_lt c
    have h3 := Nat.mod_le (x.toNat c) (y.toNat c)
    by_cases h0 : y.toNat c = 0
    · exact ⟨fun h => absurd (by omega) h.1, fun _ => (C04_zero c x y h0).2.2.1⟩
    · refine ⟨fun _ => ⟨_, (C04_rem c x y h0).2.2.2.2.1, ?_⟩, fun h => absurd ⟨by omega, ?_⟩ h⟩
      · rw [U256.toNat_ofNat_of_lt c (by omega)]; rfl
      · exact inU256_div c x y
  | pow a k iha =>
    constructor
    · rintro ⟨h1, h2⟩
      obtain ⟨x, hx, ex⟩ := iha.1 h1
      simp only [U256.evalChecked, hx, ok_bind, Exp.value, ← ex] at h2 ⊢
      have hlt : x.toNat c ^ k.toNat < 2 ^ 256 := by have := h2.2; exact_mod_cast this
      exact ⟨_, by rw [(C16_pow c x k).2.2.1, if_pos hlt], by rw [U256.toNat_ofNat_of_lt c hlt]; push_cast; rfl⟩
    · intro h
      by_cases h1 : a.Fits InU256 (fun i => (ρ i).toNat c)
      · obtain ⟨x, hx, ex⟩ := iha.1 h1
        simp only [U256.evalChecked, hx, ok_bind]
        rw [(C16_pow c x k).2.2.1, if_neg]
        intro hh
        exact h ⟨h1, by rw [← ex]; exact ⟨by positivity, by exact_mod_cast hh⟩⟩
      · simp only [U256.evalChecked, iha.2 h1]; rfl

/-- C51: without division, the `wrapping_*` methods in every build, and the operators without debug assertions, give the
exact value modulo 2^256, whatever the intermediate results. -/
theorem C51_u256_wrapping (c : Cfg) (ρ : Nat → U256) (e : Exp) (h : e.NoDiv) :
    (∃ x, U256.evalWrapping c ρ e = .ok x ∧ (x.toNat c : Int) = e.value (fun i => (ρ i).toNat c) % 2 ^ 256)
    ∧ (c.debugAssertions = false → U256.evalOps c ρ e = U256.evalWrapping c ρ e) := by
  induction e with
  | var i => exact ⟨⟨ρ i, rfl, (Int.emod_eq_of_lt (inU256_toNat c (ρ i)).1 (inU256_toNat c (ρ i)).2).symm⟩,
      fun _ => rfl⟩
  | add a b iha ihb =>
    obtain ⟨⟨x, hx, ex⟩, hx'⟩ := iha h.1
    obtain ⟨⟨y, hy, ey⟩, hy'⟩ := ihb h.2
    refine ⟨?_, fun hc => ?_⟩
    · simp only [U256.evalWrapping, hx, hy, ok_bind, Exp.value]
      refine ⟨_, rfl, ?_⟩
      rw [(C02_wrapping c x y).2.2.1, Int.natCast_emod, Int.natCast_add, ex, ey]; exact (Int.add_emod _ _ _).symm
    · simp only [U256.evalWrapping, U256.evalOps, hx' hc, hy' hc, hx, hy, ok_bind]
      rw [(C25_u256 c x y).1, if_neg (by simp [hc]), (C02_wrapping c x y).1]; rfl
  | sub a b iha ihb =>
    obtain ⟨⟨x, hx, ex⟩, hx'⟩ := iha h.1
    obtain ⟨⟨y, hy, ey⟩, hy'⟩ := ihb h.2
    refine ⟨?_, fun hc => ?_⟩
    · simp only [U256.evalWrapping, hx, hy, ok_bind, Exp.value]
      refine ⟨_, rfl, ?_⟩
      rw [(C02_wrapping c x y).2.2.2, ex, ey, ← Int.sub_emod]
    · simp only [U256.evalWrapping, U256.evalOps, hx' hc, hy' hc, hx, hy, ok_bind]
      rw [(C25_u256 c x y).2.1, if_neg (by simp [hc]), (C02_wrapping c x y).2.1]; rfl
  | mul a b iha ihb =>
    obtain ⟨⟨x, hx, ex⟩, hx'⟩ := iha h.1
    obtain ⟨⟨y, hy, ey⟩, hy'⟩ := ihb h.2
    refine ⟨?_, fun hc => ?_⟩
    · simp only [U256.evalWrapping, hx, hy, ok_bind, Exp.value]
      refine ⟨_, (C03_mul c x y).1, ?_⟩
      rw [U256.toNat_ofNat, Int.natCast_emod, Int.natCast_mul, ex, ey]; exact (Int.mul_emod _ _ _).symm
    · simp only [U256.evalWrapping, U256.evalOps, hx' hc, hy' hc, hx, hy, ok_bind]
      rw [(C25_u256 c x y).2.2, if_neg (by simp [hc]), (C03_mul c x y).1]
  | div a b => exact h.elim
  | rem a b => exact h.elim
  | pow a k iha =>
    obtain ⟨⟨x, hx, ex⟩, hx'⟩ := iha h
    refine ⟨?_, fun hc => ?_⟩
    · simp only [U256.evalWrapping, hx, ok_bind, Exp.value]
      refine ⟨_, (C16_pow c x k).1, ?_⟩
      rw [U256.toNat_ofNat, Int.natCast_emod, Int.natCast_pow, ex]
      exact Int.ModEq.pow _ (Int.mod_modEq _ _)
    · simp only [U256.evalWrapping, U256.evalOps, hx' hc, hx, ok_bind]
      rw [(C16_pow c x k).2.2.2.2, if_neg (by simp [hc]), (C16_pow c x k).1]

example : (Exp.sub (.mul (.var 0) (.var 1)) (.div (.var 0) (.var 1))).Fits InU256 (fun i => (U256.ofNat dbg (i + 3)).toNat dbg)
    ∧ (Exp.sub (.mul (.var 0) (.var 1)) (.div (.var 0) (.var 1))).value (fun i => (U256.ofNat dbg (i + 3)).toNat dbg) = 12
    ∧ U256.evalOps dbg (fun i => U256.ofNat dbg (i + 3)) (.sub (.mul (.var 0) (.var 1)) (.div (.var 0) (.var 1)))
      = .ok (U256.ofNat dbg 12)
    ∧ U256.evalChecked rel (fun i => U256.ofNat rel (i + 3)) (.div (.pow (.var 0) 2) (.sub (.var 1) (.var 1))) = .ok none
    ∧ (Exp.mul (.sub (.var 0) (.var 1)) (.pow (.var 1) 300)).NoDiv
    ∧ U256.evalOps rel (fun i => U256.ofNat rel (i + 2)) (.mul (.sub (.var 0) (.var 1)) (.pow (.var 1) 300))
      = .ok (U256.ofInt rel (-3 ^ 300)) := by
  refine ⟨?_, by decide +kernel, by decide +kernel, by decide +kernel, ⟨⟨trivial, trivial⟩, trivial⟩, by decide +kernel⟩
  unfold Exp.Fits Exp.Fits Exp.Fits
  decide +kernel

/-! ### I256 -/

theorem tdiv_in {a b : Int} (ha : InI256 a) (hb : b ≠ 0) : ¬ (a = -2 ^ 255 ∧ b = -1) ↔ InI256 (a.tdiv b) := by
  have h := Int.natAbs_tdiv_le_natAbs a b
  obtain ⟨h1, h2⟩ := ha
  constructor
  · intro hn
    by_contra hc
    have hq : a.tdiv b = 2 ^ 255 := by unfold InI256 at hc; omega
    have h3 : (a.tdiv b).natAbs * b.natAbs ≤ a.natAbs := by
      rw [Int.natAbs_tdiv]; exact Nat.div_mul_le_self _ _
    rw [hq] at h3
    have h4 : b.natAbs = 1 := by
      have : (2 ^ 255 : Int).natAbs = 2 ^ 255 := rfl
      rw [this] at h3
      have : b.natAbs ≠ 0 := by omega
      by_contra hb1
      have : 2 ^ 255 * 2 ≤ 2 ^ 255 * b.natAbs := Nat.mul_le_mul_left _ (by omega)
      omega
    rcases (by omega : b = 1 ∨ b = -1) with rfl | rfl
    · rw [Int.tdiv_one] at hq; omega
    · rw [Int.tdiv_neg, Int.tdiv_one] at hq; omega
  · rintro ⟨h3, h4⟩ ⟨rfl, rfl⟩
    rw [Int.tdiv_neg, Int.tdiv_one] at h4
    omega

theorem tmod_in {a b : Int} (ha : InI256 a) : InI256 (a.tmod b) := by
  have h := Int.natAbs_tmod a b
  have h2 := Nat.mod_le a.natAbs b.natAbs
  have h3 := Int.tmod_nonneg (a := a) b
  have h4 : a ≤ 0 → a.tmod b ≤ 0 := fun h => by
    have := Int.tmod_nonneg (a := -a) b (by omega)
    rw [Int.neg_tmod] at this; omega
  obtain ⟨h5, h6⟩ := ha
  rcases Int.lt_or_le a 0 with hn | hn
  · have := h4 (by omega); exact ⟨by omega, by omega⟩
  · have := h3 hn; exact ⟨by omega, by omega⟩

theorem eq_min_minus_one (c : Cfg) {x y : I256} (h : x.toInt c = -2 ^ 255 ∧ y.toInt c = -1) :
    x = I256.MIN c ∧ y = I256.MINUS_ONE c :=
  ⟨I256.toInt_inj c (by rw [h.1, I256.toInt_MIN]), I256.toInt_inj c (by rw [h.2, I256.toInt_MINUS_ONE])⟩

theorem inI256_toInt (c : Cfg) (x : I256) : InI256 (x.toInt c) := ⟨I256.le_toInt c x, I256.toInt_lt c x⟩

/-- C51: an expression of any size whose operations all stay in range has the exact value in every build. -/
theorem C51_i256_ops (c : Cfg) (ρ : Nat → I256) (e : Exp) (h : e.Fits InI256 (fun i => (ρ i).toInt c)) :
    ∃ x, I256.evalOps c ρ e = .ok x ∧ x.toInt c = e.value (fun i => (ρ i).toInt c) := by
  induction e with
  | var i => exact ⟨ρ i, rfl, rfl⟩
  | add a b iha ihb =>
    obtain ⟨ha, hb, hP⟩ := h
    obtain ⟨x, hx, ex⟩ := iha ha
    obtain ⟨y, hy, ey⟩ := ihb hb
    simp only [I256.evalOps, hx, hy, ok_bind, Exp.value, ← ex, ← ey] at hP ⊢
    exact ⟨_, by rw [(C25_i256 c x y).1, if_neg (fun hh => hh.2 hP)], I256.toInt_ofInt_of_in c hP⟩
  | sub a b iha ihb =>
    obtain ⟨ha, hb, hP⟩ := h
    obtain ⟨x, hx, ex⟩ := iha ha
    obtain ⟨y, hy, ey⟩ := ihb hb
    simp only [I256.evalOps, hx, hy, ok_bind, Exp.value, ← ex, ← ey] at hP ⊢
    exact ⟨_, by rw [(C25_i256 c x y).2.1, if_neg (fun hh => hh.2 hP)], I256.toInt_ofInt_of_in c hP⟩
  | mul a b iha ihb =>
    obtain ⟨ha, hb, hP⟩ := h
    obtain ⟨x, hx, ex⟩ := iha ha
    obtain ⟨y, hy, ey⟩ := ihb hb
    simp only [I256.evalOps, hx, hy, ok_bind, Exp.value, ← ex, ← ey] at hP ⊢
    exact ⟨_, by rw [(C25_i256 c x y).2.2.1, if_neg (fun hh => hh.2 hP)], I256.toInt_ofInt_of_in c hP⟩
  | div a b iha ihb =>
    obtain ⟨ha, hb, h0, hP⟩ := h
    obtain ⟨x, hx, ex⟩ := iha ha
    obtain ⟨y, hy, ey⟩ := ihb hb
    simp only [I256.evalOps, hx, hy, ok_bind, Exp.value, ← ex, ← ey] at h0 hP ⊢
    exact ⟨_, (C08_div_rem c x y h0 ((tdiv_in (inI256_toInt c x) h0).2 hP)).1, I256.toInt_ofInt_of_in c hP⟩
  | rem a b iha ihb =>
    obtain ⟨ha, hb, h0, hP⟩ := h
    obtain ⟨x, hx, ex⟩ := iha ha
    obtain ⟨y, hy, ey⟩ := ihb hb
    simp only [I256.evalOps, hx, hy, ok_bind, Exp.value, ← ex, ← ey] at h0 hP ⊢
    exact ⟨_, (C08_div_rem c x y h0 ((tdiv_in (inI256_toInt c x) h0).2 hP)).2.1,
      I256.toInt_ofInt_of_in c (tmod_in (inI256_toInt c x))⟩
  | pow a k iha =>
    obtain ⟨ha, hP⟩ := h
    obtain ⟨x, hx, ex⟩ := iha ha
    simp only [I256.evalOps, hx, ok_bind, Exp.value, ← ex] at hP ⊢
    exact ⟨_, by rw [(C17_pow c x k).2.2.2.2, if_neg (fun hh => hh.2 hP)], I256.toInt_ofInt_of_in c hP⟩

/-- C51: with debug assertions any other expression panics, unless it divides `MIN` by `-1`, where the operators `/` and
`%` do not panic (`C08_min_by_minus_one`). -/
theorem C51_i256_ops_panics (c : Cfg) (hc : c.debugAssertions = true) (ρ : Nat → I256) (e : Exp)
    (hm : e.NoMinByMinusOne (fun i => (ρ i).toInt c)) (h : ¬ e.Fits InI256 (fun i => (ρ i).toInt c)) :
    Panics (I256.evalOps c ρ e) := by
  have two : ∀ (a b : Exp) (f : I256 → I256 → Res I256),
      (¬ a.Fits InI256 (fun i => (ρ i).toInt c) → Panics (I256.evalOps c ρ a)) →
      (¬ b.Fits InI256 (fun i => (ρ i).toInt c) → Panics (I256.evalOps c ρ b)) →
      (∀ x y, x.toInt c = a.value (fun i => (ρ i).toInt c) → y.toInt c = b.value (fun i => (ρ i).toInt c) →
        a.Fits InI256 (fun i => (ρ i).toInt c) → b.Fits InI256 (fun i => (ρ i).toInt c) → Panics (f x y)) →
      Panics (do let x ← I256.evalOps c ρ a; let y ← I256.evalOps c ρ b; f x y) := by
    intro a b f iha ihb hf
    by_cases ha : a.Fits InI256 (fun i => (ρ i).toInt c)
    · obtain ⟨x, hx, ex⟩ := C51_i256_ops c ρ a ha
      by_cases hb : b.Fits InI256 (fun i => (ρ i).toInt c)
      · obtain ⟨y, hy, ey⟩ := C51_i256_ops c ρ b hb
        rw [hx, hy]; exact hf x y ex ey ha hb
      · obtain ⟨p, hp⟩ := ihb hb
        rw [hx, hp]; exact ⟨p, rfl⟩
    · obtain ⟨p, hp⟩ := iha ha
      rw [hp]; exact ⟨p, rfl⟩
  induction e with
  | var i => exact absurd trivial h
  | add a b iha ihb =>
    refine two a b _ (iha hm.1) (ihb hm.2) (fun x y ex ey ha hb => ⟨.addOverflow, ?_⟩)
    rw [(C25_i256 c x y).1, if_pos ⟨hc, fun hh => h ⟨ha, hb, by rw [← ex, ← ey]; exact hh⟩⟩]
  | sub a b iha ihb =>
    refine two a b _ (iha hm.1) (ihb hm.2) (fun x y ex ey ha hb => ⟨.subOverflow, ?_⟩)
    rw [(C25_i256 c x y).2.1, if_pos ⟨hc, fun hh => h ⟨ha, hb, by rw [← ex, ← ey]; exact hh⟩⟩]
  | mul a b iha ihb =>
    refine two a b _ (iha hm.1) (ihb hm.2) (fun x y ex ey ha hb => ⟨.mulOverflow, ?_⟩)
    rw [(C25_i256 c x y).2.2.1, if_pos ⟨hc, fun hh => h ⟨ha, hb, by rw [← ex, ← ey]; exact hh⟩⟩]
  | div a b iha ihb =>
    refine two a b _ (iha hm.1) (ihb hm.2.1) (fun x y ex ey ha hb => ?_)
    by_cases h0 : y.toInt c = 0
    · exact (C08_zero c x y h0).2.2.2.1
    · have hq := (tdiv_in (inI256_toInt c x) h0).1 (by rw [ex, ey]; exact hm.2.2)
      rw [ex, ey] at hq
      exact absurd ⟨ha, hb, by omega, hq⟩ h
  | rem a b iha ihb =>
    refine two a b _ (iha hm.1) (ihb hm.2.1) (fun x y ex ey ha hb => ?_)
    by_cases h0 : y.toInt c = 0
    · exact (C08_zero c x y h0).2.2.2.2.1
    · have hq := (tdiv_in (inI256_toInt c x) h0).1 (by rw [ex, ey]; exact hm.2.2)
      rw [ex, ey] at hq
      exact absurd ⟨ha, hb, by omega, hq⟩ h
  | pow a k iha =>
    by_cases ha : a.Fits InI256 (fun i => (ρ i).toInt c)
    · obtain ⟨x, hx, ex⟩ := C51_i256_ops c ρ a ha
      simp only [I256.evalOps, hx, ok_bind]
      exact ⟨.mulOverflow, by rw [(C17_pow c x k).2.2.2.2, if_pos ⟨hc, fun hh => h ⟨ha, by rw [← ex]; exact hh⟩⟩]⟩
    · obtain ⟨p, hp⟩ := iha hm ha
      simp only [I256.evalOps, hp]; exact ⟨p, rfl⟩

/-- C51: the expression with the `checked_*` methods has a value exactly if all its operations stay in range, and then it
is the exact one. -/
theorem C51_i256_checked (c : Cfg) (ρ : Nat → I256) (e : Exp) :
    (e.Fits InI256 (fun i => (ρ i).toInt c) →
      ∃ x, I256.evalChecked c ρ e = .ok (some x) ∧ x.toInt c = e.value (fun i => (ρ i).toInt c))
    ∧ (¬ e.Fits InI256 (fun i => (ρ i).toInt c) → I256.evalChecked c ρ e = .ok none) := by
  have two : ∀ (a b : Exp) (f : I256 → I256 → Res (Option I256)) (R : Int → Int → Prop) (v : Int → Int → Int),
      ((a.Fits InI256 (fun i => (ρ i).toInt c) →
        ∃ x, I256.evalChecked c ρ a = .ok (some x) ∧ x.toInt c = a.value (fun i => (ρ i).toInt c))
      ∧ (¬ a.Fits InI256 (fun i => (ρ i).toInt c) → I256.evalChecked c ρ a = .ok none)) →
      ((b.Fits InI256 (fun i => (ρ i).toInt c) →
        ∃ x, I256.evalChecked c ρ b = .ok (some x) ∧ x.toInt c = b.value (fun i => (ρ i).toInt c))
      ∧ (¬ b.Fits InI256 (fun i => (ρ i).toInt c) → I256.evalChecked c ρ b = .ok none)) →
      (∀ x y, (R (x.toInt c) (y.toInt c) → ∃ z, f x y = .ok (some z) ∧ z.toInt c = v (x.toInt c) (y.toInt c))
        ∧ (¬ R (x.toInt c) (y.toInt c) → f x y = .ok none)) →
      ((a.Fits InI256 (fun i => (ρ i).toInt c) ∧ b.Fits InI256 (fun i => (ρ i).toInt c)
          ∧ R (a.value (fun i => (ρ i).toInt c)) (b.value (fun i => (ρ i).toInt c))) →
        ∃ z, (do
          let some x ← I256.evalChecked c ρ a | return none
          let some y ← I256.evalChecked c ρ b | return none
          f x y) = .ok (some z) ∧ z.toInt c = v (a.value (fun i => (ρ i).toInt c)) (b.value (fun i => (ρ i).toInt c)))
      ∧ (¬ (a.Fits InI256 (fun i => (ρ i).toInt c) ∧ b.Fits InI256 (fun i => (ρ i).toInt c)
          ∧ R (a.value (fun i => (ρ i).toInt c)) (b.value (fun i => (ρ i).toInt c))) →
        (do
          let some x ← I256.evalChecked c ρ a | return none
          let some y ← I256.evalChecked c ρ b | return none
          f x y) = .ok none) := by
    intro a b f R v ha hb hf
    constructor
    · rintro ⟨h1, h2, h3⟩
      obtain ⟨x, hx, ex⟩ := ha.1 h1
      obtain ⟨y, hy, ey⟩ := hb.1 h2
      rw [← ex, ← ey] at h3 ⊢
      rw [hx, hy]
      exact (hf x y).1 h3
    · intro h
      by_cases h1 : a.Fits InI256 (fun i => (ρ i).toInt c)
      · obtain ⟨x, hx, ex⟩ := ha.1 h1
        by_cases h2 : b.Fits InI256 (fun i => (ρ i).toInt c)
        · obtain ⟨y, hy, ey⟩ := hb.1 h2
          rw [hx, hy]
          exact (hf x y).2 (fun hr => h ⟨h1, h2, by rw [← ex, ← ey]; exact hr⟩)
        · rw [hx, hb.2 h2]; rfl
      · rw [ha.2 h1]; rfl
  induction e with
  | var i => exact ⟨fun _ => ⟨ρ i, rfl, rfl⟩, fun h => absurd trivial h⟩
  | add a b iha ihb =>
    refine two a b (fun x y => .ok (x.checked_add c y)) (fun p q => InI256 (p + q)) (· + ·) iha ihb (fun x y => ?_)
    rw [(C06_add c x y).2.2.1]
    exact ⟨fun h => ⟨_, by rw [if_pos h], I256.toInt_ofInt_of_in c h⟩, fun h => by rw [if_neg h]⟩
  | sub a b iha ihb =>
    refine two a b (fun x y => .ok (x.checked_sub c y)) (fun p q => InI256 (p - q)) (· - ·) iha ihb (fun x y => ?_)
    rw [(C06_sub c x y).2.2.1]
    exact ⟨fun h => ⟨_, by rw [if_pos h], I256.toInt_ofInt_of_in c h⟩, fun h => by rw [if_neg h]⟩
  | mul a b iha ihb =>
    refine two a b (fun x y => x.checked_mul c y) (fun p q => InI256 (p * q)) (· * ·) iha ihb (fun x y => ?_)
    rw [(C07_mul c x y).2.2.1]
    exact ⟨fun h => ⟨_, by rw [if_pos h], I256.toInt_ofInt_of_in c h⟩, fun h => by rw [if_neg h]⟩
  | div a b iha ihb =>
    refine two a b (fun x y => x.checked_div c y) (fun p q => q ≠ 0 ∧ InI256 (p.tdiv q)) Int.tdiv iha ihb (fun x y => ?_)
    by_cases h0 : y.toInt c = 0
    · exact ⟨fun h => absurd h0 h.1, fun _ => (C08_zero c x y h0).1⟩
    · by_cases hm : x.toInt c = -2 ^ 255 ∧ y.toInt c = -1
      · refine ⟨fun h => absurd hm ((tdiv_in (inI256_toInt c x) h0).2 h.2), fun _ => ?_⟩
        obtain ⟨rfl, rfl⟩ := eq_min_minus_one c hm
        exact (C08_min_by_minus_one c).1
      · have hq := (tdiv_in (inI256_toInt c x) h0).1 hm
        exact ⟨fun _ => ⟨_, (C08_div_rem c x y h0 hm).2.2.1, I256.toInt_ofInt_of_in c hq⟩, fun h => absurd ⟨h0, hq⟩ h⟩
  | rem a b iha ihb =>
    refine two a b (fun x y => x.checked_rem c y) (fun p q => q ≠ 0 ∧ InI256 (p.tdiv q)) Int.tmod iha ihb (fun x y => ?_)
    by_cases h0 : y.toInt c = 0
    · exact ⟨fun h => absurd h0 h.1, fun _ => (C08_zero c x y h0).2.1⟩
    · by_cases hm : x.toInt c = -2 ^ 255 ∧ y.toInt c = -1
      · refine ⟨fun h => absurd hm ((tdiv_in (inI256_toInt c x) h0).2 h.2), fun _ => ?_⟩
        obtain ⟨rfl, rfl⟩ := eq_min_minus_one c hm
        exact (C08_min_by_minus_one c).2.1
      · have hq := (tdiv_in (inI256_toInt c x) h0).1 hm
        exact ⟨fun _ => ⟨_, (C08_div_rem c x y h0 hm).2.2.2.1, I256.toInt_ofInt_of_in c (tmod_in (inI256_toInt c x))⟩,
          fun h => absurd ⟨h0, hq⟩ h⟩
  | pow a k iha =>
    constructor
    · rintro ⟨h1, h2⟩
      obtain ⟨x, hx, ex⟩ := iha.1 h1
      simp only [I256.evalChecked, hx, ok_bind, Exp.value, ← ex] at h2 ⊢
      exact ⟨_, by rw [(C17_pow c x k).2.2.1, if_pos h2], I256.toInt_ofInt_of_in c h2⟩
    · intro h
      by_cases h1 : a.Fits InI256 (fun i => (ρ i).toInt c)
      · obtain ⟨x, hx, ex⟩ := iha.1 h1
        simp only [I256.evalChecked, hx, ok_bind]
        rw [(C17_pow c x k).2.2.1, if_neg (fun hh => h ⟨h1, by rw [← ex]; exact hh⟩)]
      · simp only [I256.evalChecked, iha.2 h1]; rfl

/-- C51: without division, the `wrapping_*` methods in every build, and the operators without debug assertions, give the
exact value modulo 2^256, whatever the intermediate results. -/
theorem C51_i256_wrapping (c : Cfg) (ρ : Nat → I256) (e : Exp) (h : e.NoDiv) :
    (∃ x, I256.evalWrapping c ρ e = .ok x ∧ (x.toInt c - e.value (fun i => (ρ i).toInt c)) % 2 ^ 256 = 0)
    ∧ (c.debugAssertions = false → I256.evalOps c ρ e = I256.evalWrapping c ρ e) := by
  have hof : ∀ z w : Int, z ≡ w [ZMOD 2 ^ 256] → ((I256.ofInt c z).toInt c - w) % 2 ^ 256 = 0 := fun z w hz => by
    have h1 := I256.toInt_ofInt c z
    have h2 := hz.dvd
    omega
  have hmod : ∀ {z w : Int}, (z - w) % 2 ^ 256 = 0 → z ≡ w [ZMOD 2 ^ 256] := fun h => by
    rw [Int.modEq_iff_dvd]; omega
  induction e with
  | var i => exact ⟨⟨ρ i, rfl, by simp [Exp.value]⟩, fun _ => rfl⟩
  | add a b iha ihb =>
    obtain ⟨⟨x, hx, ex⟩, hx'⟩ := iha h.1
    obtain ⟨⟨y, hy, ey⟩, hy'⟩ := ihb h.2
    refine ⟨?_, fun hc => ?_⟩
    · simp only [I256.evalWrapping, hx, hy, ok_bind, Exp.value]
      exact ⟨_, by rw [(C06_add c x y).1]; rfl, hof _ _ ((hmod ex).add (hmod ey))⟩
    · simp only [I256.evalWrapping, I256.evalOps, hx' hc, hy' hc, hx, hy, ok_bind]
      rw [(C25_i256 c x y).1, if_neg (by simp [hc]), (C06_add c x y).1]; rfl
  | sub a b iha ihb =>
    obtain ⟨⟨x, hx, ex⟩, hx'⟩ := iha h.1
    obtain ⟨⟨y, hy, ey⟩, hy'⟩ := ihb h.2
    refine ⟨?_, fun hc => ?_⟩
    · simp only [I256.evalWrapping, hx, hy, ok_bind, Exp.value]
      exact ⟨_, by rw [(C06_sub c x y).1]; rfl, hof _ _ ((hmod ex).sub (hmod ey))⟩
    · simp only [I256.evalWrapping, I256.evalOps, hx' hc, hy' hc, hx, hy, ok_bind]
      rw [(C25_i256 c x y).2.1, if_neg (by simp [hc]), (C06_sub c x y).1]; rfl
  | mul a b iha ihb =>
    obtain ⟨⟨x, hx, ex⟩, hx'⟩ := iha h.1
    obtain ⟨⟨y, hy, ey⟩, hy'⟩ := ihb h.2
    refine ⟨?_, fun hc => ?_⟩
    · simp only [I256.evalWrapping, hx, hy, ok_bind, Exp.value]
      exact ⟨_, (C07_mul c x y).1, hof _ _ ((hmod ex).mul (hmod ey))⟩
    · simp only [I256.evalWrapping, I256.evalOps, hx' hc, hy' hc, hx, hy, ok_bind]
      rw [(C25_i256 c x y).2.2.1, if_neg (by simp [hc]), (C07_mul c x y).1]
  | div a b => exact h.elim
  | rem a b => exact h.elim
  | pow a k iha =>
    obtain ⟨⟨x, hx, ex⟩, hx'⟩ := iha h
    refine ⟨?_, fun hc => ?_⟩
    · simp only [I256.evalWrapping, hx, ok_bind, Exp.value]
      exact ⟨_, (C17_pow c x k).1, hof _ _ ((hmod ex).pow _)⟩
    · simp only [I256.evalWrapping, I256.evalOps, hx' hc, hx, ok_bind]
      rw [(C17_pow c x k).2.2.2.2, if_neg (by simp [hc]), (C17_pow c x k).1]

example : (Exp.rem (.sub (.var 0) (.var 1)) (.var 0)).Fits InI256 (fun i => (I256.ofInt dbg (i * 10 + 3)).toInt dbg)
    ∧ (Exp.rem (.sub (.var 0) (.var 1)) (.var 0)).value (fun i => (I256.ofInt dbg (i * 10 + 3)).toInt dbg) = -1
    ∧ I256.evalOps dbg (fun i => I256.ofInt dbg (i * 10 + 3)) (.rem (.sub (.var 0) (.var 1)) (.var 0)) = .ok (I256.ofInt dbg (-1))
    ∧ I256.evalChecked dbg (fun i => I256.ofInt dbg (-1 - i)) (.mul (.pow (.var 1) 255) (.var 0)) = .ok none
    ∧ I256.evalOps dbg (fun i => I256.ofInt dbg (-1 - i)) (.mul (.pow (.var 1) 255) (.var 0)) = .error (.panic .mulOverflow)
    ∧ I256.evalOps rel (fun i => I256.ofInt rel (-1 - i)) (.mul (.pow (.var 1) 255) (.var 0)) = .ok (I256.MIN rel) := by
  refine ⟨?_, by decide +kernel, by decide +kernel, by decide +kernel, by decide +kernel, by decide +kernel⟩
  unfold Exp.Fits Exp.Fits Exp.Fits
  decide +kernel

end Ethnum
