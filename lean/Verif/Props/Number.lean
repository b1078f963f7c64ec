import Verif.SpecNumber
import Verif.Props.Repr
import Verif.Props.UArith
import Verif.Props.IArith
import Verif.Props.Operators
import Mathlib.Data.Nat.Fib.Basic
import Mathlib.Data.Int.GCD
import Mathlib.Tactic.Ring
import Mathlib.Tactic.Linarith

/-
C76 number theory: Euclid's algorithm, plain and extended, inverses modulo a number, and square roots, as clients write them.
-/

namespace Ethnum
open Number

/-! ### Lemmas -/

/-- Euclid's algorithm ends after `n` divisions. -/
private def Turns : ℕ → ℕ → ℕ → Prop
  | 0, _, b => b = 0
  | n + 1, a, b => b = 0 ∨ Turns n b (a % b)

/-- Lamé -/
private theorem lame (n : ℕ) : ∀ {a b : ℕ}, b < a → b < Nat.fib (n + 2) ∨ a < Nat.fib (n + 3) → Turns n a b := by
  induction n with
  | zero =>
    intro a b h h'
    have f1 : Nat.fib 2 = 1 := rfl
    have f2 : Nat.fib 3 = 2 := rfl
    rw [f1, f2] at h'
    exact (by omega : b = 0)
  | succ n ih =>
    intro a b h h'
    by_cases hb : b = 0
    · exact Or.inl hb
    · refine Or.inr (ih (Nat.mod_lt _ (by omega)) ?_)
      have hf : Nat.fib (n + 1 + 3) = Nat.fib (n + 2) + Nat.fib (n + 3) := Nat.fib_add_two
      have hle : b + a % b ≤ a := by
        have h1 := Nat.div_add_mod' a b
        have h2 : 1 * b ≤ a / b * b := Nat.mul_le_mul_right _ ((Nat.le_div_iff_mul_le (by omega)).2 (by omega))
        omega
      rw [hf, show n + 1 + 2 = n + 3 from rfl] at h'
      omega

private theorem turns {a b : ℕ} (hb : b < 2 ^ 256) : Turns 369 a b := by
  by_cases h : b = 0
  · exact Or.inl h
  · refine Or.inr (lame 368 (Nat.mod_lt _ (by omega)) (Or.inr (lt_of_lt_of_le hb ?_)))
    decide +kernel

/-- What the extended algorithm keeps: both remainders are combinations of `a` and `b`, and the coefficients alternate in sign. -/
private structure EInv (a b σ r0 r1 s0 s1 t0 t1 : ℤ) : Prop where
  sg : σ = 1 ∨ σ = -1
  r0n : 0 ≤ r0
  r1n : 0 ≤ r1
  e0 : a * s0 + b * t0 = r0
  e1 : a * s1 + b * t1 = r1
  g : Int.gcd r0 r1 = Int.gcd a b
  s0n : 0 ≤ σ * s0
  s1n : σ * s1 ≤ 0
  t0n : σ * t0 ≤ 0
  t1n : 0 ≤ σ * t1
  sb : σ * (r1 * s0 - r0 * s1) = b
  tb : σ * (r0 * t1 - r1 * t0) = a
  bs0 : |s0| ≤ max 1 b
  bs1 : |s1| ≤ max 1 b
  bt0 : |t0| ≤ max 1 a
  bt1 : |t1| ≤ max 1 a

/-- the bound on the coefficients: `r1 * S2 + r2 * S1 = b` -/
private theorem cofactor {r1 r2 S0 S1 q b : ℤ} (h1 : 0 < r1) (h2 : 0 ≤ r2) (hS0 : 0 ≤ S0) (hS1 : 0 ≤ S1) (hq : 0 ≤ q)
    (hb : r1 * (S0 + q * S1) + r2 * S1 = b) : S0 + q * S1 ≤ b ∧ q * S1 ≤ b ∧ 0 ≤ q * S1 := by
  have a1 : 0 ≤ q * S1 := mul_nonneg hq hS1
  have a2 : 0 ≤ r2 * S1 := mul_nonneg h2 hS1
  have a3 : 0 ≤ (r1 - 1) * (S0 + q * S1) := mul_nonneg (by omega) (by omega)
  have a4 : (r1 - 1) * (S0 + q * S1) = r1 * (S0 + q * S1) - (S0 + q * S1) := by ring
  omega

private theorem estep {a b σ r0 r1 s0 s1 t0 t1 : ℤ} (h : EInv a b σ r0 r1 s0 s1 t0 t1) (hr : 0 < r1) :
    EInv a b (-σ) r1 (r0 - r0 / r1 * r1) s1 (s0 - r0 / r1 * s1) t1 (t0 - r0 / r1 * t1)
    ∧ |r0 / r1 * s1| ≤ b ∧ |r0 / r1 * t1| ≤ a ∧ |s0 - r0 / r1 * s1| ≤ b ∧ |t0 - r0 / r1 * t1| ≤ a := by
  have hq : 0 ≤ r0 / r1 := Int.ediv_nonneg h.r0n h.r1n
  have hmod : r0 - r0 / r1 * r1 = r0 % r1 := by have := Int.mul_ediv_add_emod r0 r1; rw [Int.mul_comm] at this; omega
  have hr2 : 0 ≤ r0 - r0 / r1 * r1 := by rw [hmod]; exact Int.emod_nonneg _ (by omega)
  have hg : Int.gcd r1 (r0 - r0 / r1 * r1) = Int.gcd a b := by
    rw [← h.g, Int.gcd_comm r0 r1, Int.gcd_sub_mul_right_right]
  generalize r0 / r1 = q at *
  obtain ⟨sg, r0n, r1n, e0, e1, g, s0n, s1n, t0n, t1n, sb, tb, bs0, bs1, bt0, bt1⟩ := h
  have hS : |q * s1| ≤ b ∧ |s0 - q * s1| ≤ b ∧ -σ * (s0 - q * s1) ≤ 0 := by
    have := cofactor (b := b) (r1 := r1) (r2 := r0 - q * r1) (S0 := σ * s0) (S1 := -(σ * s1)) (q := q) hr hr2 s0n (by omega) hq
      (by rw [← sb]; ring)
    rcases sg with rfl | rfl
    · have e : q * -(1 * s1) = -(q * s1) := by ring
      rw [e] at this; rw [abs_le, abs_le]; omega
    · have e : q * -(-1 * s1) = q * s1 := by ring
      rw [e] at this; rw [abs_le, abs_le]; omega
  have hT : |q * t1| ≤ a ∧ |t0 - q * t1| ≤ a ∧ 0 ≤ -σ * (t0 - q * t1) := by
    have := cofactor (b := a) (r1 := r1) (r2 := r0 - q * r1) (S0 := -(σ * t0)) (S1 := σ * t1) (q := q) hr hr2 (by omega) t1n hq
      (by rw [← tb]; ring)
    rcases sg with rfl | rfl
    · have e : q * (1 * t1) = q * t1 := by ring
      rw [e] at this; rw [abs_le, abs_le]; omega
    · have e : q * (-1 * t1) = -(q * t1) := by ring
      rw [e] at this; rw [abs_le, abs_le]; omega
  refine ⟨⟨by omega, r1n, hr2, e1, ?_, hg, ?_, hS.2.2, ?_, hT.2.2, ?_, ?_, bs1, le_trans hS.2.1 (le_max_right _ _), bt1,
    le_trans hT.2.1 (le_max_right _ _)⟩, hS.1, hT.1, hS.2.1, hT.2.1⟩
  · rw [← e0, ← e1]; ring
  · rw [neg_mul]; omega
  · rw [neg_mul]; omega
  · rw [← sb]; ring
  · rw [← tb]; ring

private theorem isub {c : Cfg} {a b : I256} (h : InI256 (a.toInt c - b.toInt c)) :
    ∃ x, a.sub c b = .ok x ∧ x.toInt c = a.toInt c - b.toInt c :=
  ⟨_, by rw [(C25_i256 c a b).2.1, if_neg (fun h' => h'.2 h)], I256.toInt_ofInt_of_in c h⟩

private theorem imul {c : Cfg} {a b : I256} (h : InI256 (a.toInt c * b.toInt c)) :
    ∃ x, a.mul c b = .ok x ∧ x.toInt c = a.toInt c * b.toInt c :=
  ⟨_, by rw [(C25_i256 c a b).2.2.1, if_neg (fun h' => h'.2 h)], I256.toInt_ofInt_of_in c h⟩

private theorem inI {z w : ℤ} (h : |z| ≤ w) (hw : w < 2 ^ 255) : InI256 z := by
  rw [abs_le] at h; exact ⟨by omega, by omega⟩

private theorem eloop {c : Cfg} {a b : ℤ} (ha : a < 2 ^ 255) (hb : b < 2 ^ 255) (n : ℕ) :
    ∀ (k : ℕ) (σ : ℤ) (r0 r1 s0 s1 t0 t1 : I256),
    EInv a b σ (r0.toInt c) (r1.toInt c) (s0.toInt c) (s1.toInt c) (t0.toInt c) (t1.toInt c) →
    Turns n (r0.toInt c).toNat (r1.toInt c).toNat → n + 1 ≤ k →
    ∃ g s t, egcdLoop c k r0 r1 s0 s1 t0 t1 = .ok (g, s, t) ∧ g.toInt c = Int.gcd a b
      ∧ a * s.toInt c + b * t.toInt c = Int.gcd a b ∧ |s.toInt c| ≤ max 1 b ∧ |t.toInt c| ≤ max 1 a := by
  have done : ∀ (k : ℕ) (σ : ℤ) (r0 r1 s0 s1 t0 t1 : I256),
      EInv a b σ (r0.toInt c) (r1.toInt c) (s0.toInt c) (s1.toInt c) (t0.toInt c) (t1.toInt c) → r1.toInt c = 0 →
      ∃ g s t, egcdLoop c (k + 1) r0 r1 s0 s1 t0 t1 = .ok (g, s, t) ∧ g.toInt c = Int.gcd a b
      ∧ a * s.toInt c + b * t.toInt c = Int.gcd a b ∧ |s.toInt c| ≤ max 1 b ∧ |t.toInt c| ≤ max 1 a := by
    intro k σ r0 r1 s0 s1 t0 t1 h hz
    have hg : r0.toInt c = Int.gcd a b := by
      rw [← h.g, hz, Int.gcd_zero_right]; exact (Int.natAbs_of_nonneg h.r0n).symm
    refine ⟨r0, s0, t0, ?_, hg, by rw [h.e0, hg], h.bs0, h.bt0⟩
    unfold egcdLoop
    rw [I256.eq_prim_eq, hz, if_pos (by decide)]
  induction n with
  | zero =>
    intro k σ r0 r1 s0 s1 t0 t1 h ht hk
    obtain ⟨k, rfl⟩ : ∃ k', k = k' + 1 := ⟨k - 1, by omega⟩
    have hz : (r1.toInt c).toNat = 0 := ht
    have := h.r1n
    exact done k σ r0 r1 s0 s1 t0 t1 h (by omega)
  | succ n ih =>
    intro k σ r0 r1 s0 s1 t0 t1 h ht hk
    obtain ⟨k, rfl⟩ : ∃ k', k = k' + 1 := ⟨k - 1, by omega⟩
    by_cases hz : r1.toInt c = 0
    · exact done k σ r0 r1 s0 s1 t0 t1 h hz
    · have r0n := h.r0n
      have r1n := h.r1n
      have r0i := r0.toInt_in c
      have hpos : 0 < r1.toInt c := by omega
      obtain ⟨hn, q1, q2, d1, d2⟩ := estep h hpos
      obtain ⟨q, eq, hq⟩ : ∃ q, r0.div c r1 = .ok q ∧ q.toInt c = r0.toInt c / r1.toInt c := by
        refine ⟨_, (C08_div_rem c r0 r1 hz (by omega)).1, ?_⟩
        rw [Int.tdiv_eq_ediv_of_nonneg r0n]
        refine I256.toInt_ofInt_of_in c ⟨?_, ?_⟩
        · have := Int.ediv_nonneg r0n r1n; omega
        · have := Int.ediv_le_self (r1.toInt c) r0n; have := r0i.2; omega
      rw [← hq] at hn q1 q2 d1 d2
      have hm2 := hn.r1n
      obtain ⟨m1, em1, hm1⟩ := imul (c := c) (a := q) (b := r1) (by
        have : 0 ≤ q.toInt c * r1.toInt c := mul_nonneg (by rw [hq]; exact Int.ediv_nonneg r0n r1n) r1n
        have := r0i.2
        exact ⟨by omega, by omega⟩)
      obtain ⟨m2, em2, hm2'⟩ := imul (c := c) (a := q) (b := s1) (inI q1 hb)
      obtain ⟨m3, em3, hm3⟩ := imul (c := c) (a := q) (b := t1) (inI q2 ha)
      obtain ⟨r2, er2, hr2⟩ := isub (c := c) (a := r0) (b := m1) (by
        rw [hm1]
        have : 0 ≤ q.toInt c * r1.toInt c := mul_nonneg (by rw [hq]; exact Int.ediv_nonneg r0n r1n) r1n
        have := r0i.2
        exact ⟨by omega, by omega⟩)
      obtain ⟨s2, es2, hs2⟩ := isub (c := c) (a := s0) (b := m2) (by rw [hm2']; exact inI d1 hb)
      obtain ⟨t2, et2, ht2⟩ := isub (c := c) (a := t0) (b := m3) (by rw [hm3]; exact inI d2 ha)
      rw [hm1] at hr2
      rw [hm2'] at hs2
      rw [hm3] at ht2
      rw [← hr2, ← hs2, ← ht2] at hn
      have hmod : (r2.toInt c).toNat = (r0.toInt c).toNat % (r1.toInt c).toNat := by
        rw [← Int.toNat_emod r0n r1n, hr2, hq]
        congr 1
        have := Int.mul_ediv_add_emod (r0.toInt c) (r1.toInt c); rw [Int.mul_comm] at this; omega
      have := ih k (-σ) r1 r2 s1 s2 t1 t2 hn (by rw [hmod]; exact ht.resolve_left (by omega)) (by omega)
      unfold egcdLoop
      rw [I256.eq_prim_eq, if_neg (by simpa using hz), eq]
      simp only [bind, Except.bind, em1, em2, em3, er2, es2, et2]
      exact this

/-! ### The property -/

/-- C76 (Euclid): for all numbers, in every build, the loop ends after at most 369 divisions, without a panic, and returns the greatest
common divisor. -/
theorem C76_gcd (c : Cfg) (a b : U256) (k : ℕ) (hk : 370 ≤ k) :
    Number.gcd c k a b = .ok (U256.ofNat c (Nat.gcd (a.toNat c) (b.toNat c))) := by
  have key : ∀ n k (a b : U256), Turns n (a.toNat c) (b.toNat c) → n + 1 ≤ k →
      Number.gcd c k a b = .ok (U256.ofNat c (Nat.gcd (a.toNat c) (b.toNat c))) := by
    intro n
    induction n with
    | zero =>
      intro k a b ht hk
      obtain ⟨k, rfl⟩ : ∃ k', k = k' + 1 := ⟨k - 1, by omega⟩
      have hb : b.toNat c = 0 := ht
      unfold Number.gcd
      rw [U256.eq_prim_eq, hb, if_pos (by decide), Nat.gcd_zero_right, U256.ofNat_toNat]
    | succ n ih =>
      intro k a b ht hk
      obtain ⟨k, rfl⟩ : ∃ k', k = k' + 1 := ⟨k - 1, by omega⟩
      unfold Number.gcd
      rw [U256.eq_prim_eq]
      by_cases hb : b.toNat c = 0
      · rw [hb, if_pos (by decide), Nat.gcd_zero_right, U256.ofNat_toNat]
      · rw [if_neg (by simpa using hb), (C04_rem c a b hb).1]
        have hr : (U256.ofNat c (a.toNat c % b.toNat c)).toNat c = a.toNat c % b.toNat c :=
          U256.toNat_ofNat_of_lt c (lt_trans (Nat.mod_lt _ (by omega)) (b.toNat_lt c))
        have := ih k b (U256.ofNat c (a.toNat c % b.toNat c)) (by rw [hr]; exact ht.resolve_left hb) (by omega)
        rw [hr] at this
        rw [Nat.gcd_comm (a.toNat c), Nat.gcd_rec, Nat.gcd_comm]
        exact this
  exact key 369 k a b (turns (b.toNat_lt c)) (by omega)

example : Number.gcd dbg 370 (U256.ofNat dbg (2 ^ 200 * 3)) (U256.ofNat dbg (2 ^ 190 * 15)) = .ok (U256.ofNat dbg (2 ^ 190 * 3))
    ∧ Number.gcd rel 370 U256.ZERO U256.MAX = .ok U256.MAX := by decide +kernel
/-- Neighbouring Fibonacci numbers are the worst case: 369 divisions are needed, so the bound cannot be lowered. -/
example : Number.gcd dbg 369 (U256.ofNat dbg (Nat.fib 369)) (U256.ofNat dbg (Nat.fib 370)) = .error .diverge
    ∧ Number.gcd dbg 370 (U256.ofNat dbg (Nat.fib 369)) (U256.ofNat dbg (Nat.fib 370)) = .ok (U256.ONE dbg)
    ∧ Nat.fib 370 < 2 ^ 256 := by decide +kernel

/-- C76 (Bézout): for all non-negative numbers, in every build, with no overflow in any step, the loop ends after at most 369
divisions and returns the greatest common divisor `g` with coefficients that satisfy `a * s + b * t = g` in the integers; the
coefficients are no larger than the other argument. -/
theorem C76_egcd (c : Cfg) (a b : I256) (ha : 0 ≤ a.toInt c) (hb : 0 ≤ b.toInt c) (k : ℕ) (hk : 370 ≤ k) :
    ∃ g s t, egcd c k a b = .ok (g, s, t) ∧ g.toInt c = Int.gcd (a.toInt c) (b.toInt c)
      ∧ a.toInt c * s.toInt c + b.toInt c * t.toInt c = Int.gcd (a.toInt c) (b.toInt c)
      ∧ |s.toInt c| ≤ max 1 (b.toInt c) ∧ |t.toInt c| ≤ max 1 (a.toInt c) := by
  have hai := (a.toInt_in c).2
  have hbi := (b.toInt_in c).2
  refine eloop (by omega) (by omega) 369 k 1 a b _ _ _ _ ?_ (turns (by omega)) (by omega)
  rw [I256.toInt_ONE, I256.toInt_ZERO]
  constructor <;> simp [ha, hb]

example : egcd dbg 370 (I256.ofInt dbg 240) (I256.ofInt dbg 46)
      = .ok (I256.ofInt dbg 2, I256.ofInt dbg (-9), I256.ofInt dbg 47)
    ∧ egcd rel 370 (I256.MAX rel) (I256.ofInt rel (2 ^ 254))
      = .ok (I256.ONE rel, I256.ofInt rel (-1), I256.ofInt rel 2) := by decide +kernel
example : egcd dbg 370 I256.ZERO I256.ZERO = .ok (I256.ZERO, I256.ONE dbg, I256.ZERO) := by decide +kernel

/-- C76 (inverses): for every `a ≥ 0` and `m ≥ 1`, in every build, the program returns the inverse of `a` modulo `m`, between 0 and
`m - 1`, when there is one, and `None` when there is none. -/
theorem C76_inverse (c : Cfg) (a m : I256) (ha : 0 ≤ a.toInt c) (hm : 1 ≤ m.toInt c) (k : ℕ) (hk : 370 ≤ k) :
    ((∃ y : ℤ, m.toInt c ∣ a.toInt c * y - 1) →
      ∃ x, inverse c k a m = .ok (some x) ∧ 0 ≤ x.toInt c ∧ x.toInt c < m.toInt c ∧ m.toInt c ∣ a.toInt c * x.toInt c - 1)
    ∧ ((¬ ∃ y : ℤ, m.toInt c ∣ a.toInt c * y - 1) → inverse c k a m = .ok none) := by
  obtain ⟨g, s, t, he, hg, hb, -, -⟩ := C76_egcd c a m ha (by omega) k hk
  have hone : (g.eq_prim c 1 = true) ↔ Int.gcd (a.toInt c) (m.toInt c) = 1 := by
    rw [I256.eq_prim_eq, decide_eq_true_iff, hg]
    rw [show (1 : U128).toInt = 1 from by decide]; exact ⟨fun h => by exact_mod_cast h, fun h => by rw [h]; rfl⟩
  have hex : (∃ y : ℤ, m.toInt c ∣ a.toInt c * y - 1) ↔ Int.gcd (a.toInt c) (m.toInt c) = 1 := by
    constructor
    · rintro ⟨y, z, hz⟩
      have h1 : (Int.gcd (a.toInt c) (m.toInt c) : ℤ) ∣ a.toInt c := Int.gcd_dvd_left ..
      have h2 : (Int.gcd (a.toInt c) (m.toInt c) : ℤ) ∣ m.toInt c := Int.gcd_dvd_right ..
      have h3 : (Int.gcd (a.toInt c) (m.toInt c) : ℤ) ∣ 1 := by
        have e : (1 : ℤ) = a.toInt c * y - m.toInt c * z := by omega
        rw [e]; exact dvd_sub (h1.mul_right y) (h2.mul_right z)
      exact Nat.eq_one_of_dvd_one (by exact_mod_cast h3)
    · intro h
      rw [h] at hb
      exact ⟨s.toInt c, -t.toInt c, by push_cast at hb; rw [mul_neg]; omega⟩
  rw [hex, ← hone]
  unfold inverse
  rw [he]
  simp only [bind, Except.bind, pure, Except.pure]
  constructor
  · intro h1
    rw [if_pos h1, (C09_div_euclid_rem_euclid c s m (by omega) (by omega)).2.1]
    have hl := Int.emod_lt_of_pos (s.toInt c) (show 0 < m.toInt c by omega)
    have h0 := Int.emod_nonneg (s.toInt c) (show m.toInt c ≠ 0 by omega)
    have hmi := (m.toInt_in c).2
    have hx : (I256.ofInt c (s.toInt c % m.toInt c)).toInt c = s.toInt c % m.toInt c :=
      I256.toInt_ofInt_of_in c ⟨by omega, by omega⟩
    refine ⟨_, rfl, by rw [hx]; exact h0, by rw [hx]; exact hl, ?_⟩
    rw [hx]
    rw [hone.1 h1] at hb
    have e : a.toInt c * (s.toInt c % m.toInt c) - 1
        = m.toInt c * (-t.toInt c - a.toInt c * (s.toInt c / m.toInt c)) := by
      have h4 : s.toInt c % m.toInt c = s.toInt c - m.toInt c * (s.toInt c / m.toInt c) := by
        have := Int.mul_ediv_add_emod (s.toInt c) (m.toInt c); omega
      rw [h4]; push_cast at hb; linarith
    exact ⟨_, e⟩
  · intro h1
    rw [if_neg h1]

example : Number.inverse dbg 370 (I256.ofInt dbg 3) (I256.ofInt dbg (2 ^ 255 - 19))
      = .ok (some (I256.ofInt dbg ((2 * (2 ^ 255 - 19) + 1) / 3)))
    ∧ Number.inverse dbg 370 (I256.ofInt dbg 6) (I256.ofInt dbg 9) = .ok none
    ∧ Number.inverse rel 370 (I256.ofInt rel 5) (I256.ONE rel) = .ok (some I256.ZERO) := by decide +kernel

/-- C76 (powers): for every base, every exponent and every modulus from 1 to 2^128, in every build, no product overflows, the loop
ends after at most 256 turns and returns the power modulo `m`. -/
theorem C76_powmod (c : Cfg) (b e m : U256) (hm : 1 ≤ m.toNat c) (hm' : m.toNat c ≤ 2 ^ 128) (k : ℕ) (hk : 257 ≤ k) :
    powmod c k b e m = .ok (U256.ofNat c (b.toNat c ^ e.toNat c % m.toNat c)) := by
  have hrem : ∀ x : U256, ∃ r, x.rem c m = .ok r ∧ r.toNat c = x.toNat c % m.toNat c := fun x =>
    ⟨_, (C04_rem c x m (by omega)).1, U256.toNat_ofNat_of_lt c (lt_trans (Nat.mod_lt _ (by omega)) (m.toNat_lt c))⟩
  have hmul : ∀ x y : U256, x.toNat c < m.toNat c → y.toNat c < m.toNat c →
      ∃ r, x.mul c y = .ok r ∧ r.toNat c = x.toNat c * y.toNat c := fun x y hx hy => by
    have hlt : x.toNat c * y.toNat c < 2 ^ 256 :=
      lt_of_lt_of_le (Nat.mul_lt_mul'' hx hy) (le_trans (Nat.mul_le_mul hm' hm') (by decide))
    exact ⟨_, by rw [(C25_u256 c x y).2.2, if_neg (by omega)], U256.toNat_ofNat_of_lt c hlt⟩
  have key : ∀ n k (r b e : U256), e.toNat c < 2 ^ n → r.toNat c < m.toNat c → b.toNat c < m.toNat c → n + 1 ≤ k →
      powmodLoop c m k r b e = .ok (U256.ofNat c (r.toNat c * b.toNat c ^ e.toNat c % m.toNat c)) := by
    have done : ∀ k (r b e : U256), e.toNat c = 0 → r.toNat c < m.toNat c →
        powmodLoop c m (k + 1) r b e = .ok (U256.ofNat c (r.toNat c * b.toNat c ^ e.toNat c % m.toNat c)) := by
      intro k r b e h0 hr
      unfold powmodLoop
      rw [U256.eq_prim_eq, h0, if_pos (by decide), pow_zero, mul_one, Nat.mod_eq_of_lt hr, U256.ofNat_toNat]
    intro n
    induction n with
    | zero =>
      intro k r b e he hr hb hk
      obtain ⟨k, rfl⟩ : ∃ k', k = k' + 1 := ⟨k - 1, by omega⟩
      exact done k r b e (by omega) hr
    | succ n ih =>
      intro k r b e he hr hb hk
      obtain ⟨k, rfl⟩ : ∃ k', k = k' + 1 := ⟨k - 1, by omega⟩
      by_cases h0 : e.toNat c = 0
      · exact done k r b e h0 hr
      · obtain ⟨p, ep, hp⟩ := hmul r b hr hb
        obtain ⟨p', ep', hp'⟩ := hrem p
        obtain ⟨w, ew, hw⟩ := hmul b b hb hb
        obtain ⟨w', ew', hw'⟩ := hrem w
        obtain ⟨e', ee, he'⟩ : ∃ e', e.shrBy c (.prim .i32 1) = .ok e' ∧ e'.toNat c = e.toNat c / 2 := by
          refine ⟨_, (C12_in_range c e (I256.ONE c) (.prim .i32 1) (show (0 : ℤ) ≤ 1 by decide) (show (1 : ℤ) < 256 by decide)).2.1, ?_⟩
          have := e.toNat_lt c
          exact U256.toNat_ofNat_of_lt c (by
            rw [show (ShiftBy.prim (c := c) .i32 1).value.toNat = 1 from rfl, pow_one]; omega)
        have hbit : ((U256.withPrim c (fun _ => U256.bitand) e 1).eq_prim c 1 = true) ↔ e.toNat c % 2 = 1 := by
          rw [(C25_prim c (fun _ => U256.bitand) (fun _ _ _ => e) e (I256.ONE c) 1).1, U256.eq_prim_eq, U256.toNat_bitand,
            U256.toNat_ofNat_of_lt c (by decide), decide_eq_true_iff]
          rw [show (1 : U128).toNat = 1 from rfl, Nat.and_one_is_mod]
        unfold powmodLoop
        rw [U256.eq_prim_eq, if_neg (by simpa using h0)]
        have hsplit : e.toNat c = 2 * (e.toNat c / 2) + e.toNat c % 2 := (Nat.div_add_mod _ _).symm
        by_cases hodd : e.toNat c % 2 = 1
        · simp only [if_pos (hbit.2 hodd), bind, Except.bind, ep, ep', ew, ew', ee]
          rw [ih k p' w' e' (by rw [he']; omega) (by rw [hp']; exact Nat.mod_lt _ (by omega))
            (by rw [hw']; exact Nat.mod_lt _ (by omega)) (by omega)]
          refine congrArg (fun x => Except.ok (U256.ofNat c x)) ?_
          rw [hp', hw', he', hp, hw]
          conv_rhs => rw [hsplit, hodd, pow_add, pow_mul, pow_one, pow_two]
          rw [Nat.mul_mod, Nat.mod_mod, Nat.pow_mod, Nat.mod_mod, ← Nat.pow_mod, ← Nat.mul_mod]
          refine congrArg (· % m.toNat c) ?_; ring
        · have hev : e.toNat c % 2 = 0 := by omega
          simp only [if_neg (fun h => hodd (hbit.1 h)), bind, Except.bind, ew, ew', ee]
          rw [ih k r w' e' (by rw [he']; omega) hr
            (by rw [hw']; exact Nat.mod_lt _ (by omega)) (by omega)]
          refine congrArg (fun x => Except.ok (U256.ofNat c x)) ?_
          rw [hw', he', hw]
          conv_rhs => rw [hsplit, hev, pow_add, pow_mul, pow_zero, mul_one, pow_two]
          rw [Nat.mul_mod, Nat.pow_mod, Nat.mod_mod, ← Nat.pow_mod, ← Nat.mul_mod]
  obtain ⟨o, eo, ho⟩ := hrem (U256.ONE c)
  obtain ⟨b', eb, hb⟩ := hrem b
  unfold powmod
  rw [eo, eb]
  simp only [bind, Except.bind]
  rw [key 256 k o b' e (e.toNat_lt c) (by rw [ho]; exact Nat.mod_lt _ (by omega)) (by rw [hb]; exact Nat.mod_lt _ (by omega)) hk,
    ho, hb, U256.toNat_ONE]
  refine congrArg (fun x => Except.ok (U256.ofNat c x)) ?_
  rw [Nat.mul_mod, Nat.mod_mod, Nat.pow_mod, Nat.mod_mod, ← Nat.pow_mod, ← Nat.mul_mod, one_mul]

example : powmod dbg 257 (U256.ofNat dbg 3) (U256.ofNat dbg (2 ^ 127 - 2)) (U256.ofNat dbg (2 ^ 127 - 1)) = .ok (U256.ONE dbg)
    ∧ powmod rel 257 U256.MAX U256.MAX (U256.ofNat rel (2 ^ 128)) = .ok (U256.ofNat rel (2 ^ 128 - 1))
    ∧ powmod rel 257 U256.ZERO U256.ZERO (U256.ONE rel) = .ok U256.ZERO := by decide +kernel
/-- One more than the modulus allowed, and in a release build the product wraps: `(2^128)^2` modulo `2^128 + 1` is 1, not 0. -/
example : powmod rel 257 (U256.ofNat rel (2 ^ 128)) (U256.ofNat rel 2) (U256.ofNat rel (2 ^ 128 + 1)) = .ok U256.ZERO
    ∧ (2 ^ 128) ^ 2 % (2 ^ 128 + 1) = 1 := by decide +kernel

/-- C76 (square roots): for every number, in every build, no step overflows, the loop makes exactly 128 turns and returns the
integer square root. -/
theorem C76_isqrt (c : Cfg) (n : U256) (k : ℕ) :
    isqrt c k n = if 129 ≤ k then .ok (U256.ofNat c (Nat.sqrt (n.toNat c))) else .error .diverge := by
  have key : ∀ j k (lo hi : U256), hi.toNat c + 1 = lo.toNat c + 2 ^ j → hi.toNat c < 2 ^ 128 →
      lo.toNat c * lo.toNat c ≤ n.toNat c → n.toNat c < (hi.toNat c + 1) * (hi.toNat c + 1) →
      isqrtLoop c n k lo hi = if j + 1 ≤ k then .ok (U256.ofNat c (Nat.sqrt (n.toNat c))) else .error .diverge := by
    intro j
    induction j with
    | zero =>
      intro k lo hi h1 h2 h3 h4
      cases k with
      | zero => rfl
      | succ k =>
        unfold isqrtLoop
        have e : hi.toNat c = lo.toNat c := by omega
        rw [e] at h4
        rw [U256.lt_eq, if_neg (by simp [e]), if_pos (by omega), ← (Nat.eq_sqrt.2 ⟨h3, h4⟩), U256.ofNat_toNat]
    | succ j ih =>
      intro k lo hi h1 h2 h3 h4
      cases k with
      | zero => rfl
      | succ k =>
        have hpow : 2 ^ (j + 1) = 2 * 2 ^ j := by rw [pow_succ]; omega
        have hj : 1 ≤ 2 ^ j := Nat.one_le_two_pow
        have hone : (U256.ofNat c (1 : U128).toNat).toNat c = 1 := U256.toNat_ofNat_of_lt c (by decide)
        have hadd : ∀ x y : U256, x.toNat c + y.toNat c < 2 ^ 256 → ∃ r, x.add c y = .ok r ∧ r.toNat c = x.toNat c + y.toNat c :=
          fun x y h => ⟨_, by rw [(C25_u256 c x y).1, if_neg (by omega)], U256.toNat_ofNat_of_lt c h⟩
        obtain ⟨s, es, hs⟩ := hadd lo hi (by omega)
        obtain ⟨s', es', hs'⟩ : ∃ r, U256.withPrim c U256.add s 1 = .ok r ∧ r.toNat c = s.toNat c + 1 := by
          rw [(C25_prim c U256.add (fun _ _ _ => .ok s) s (I256.ONE c) 1).1]
          obtain ⟨r, hr⟩ := hadd s (U256.ofNat c (1 : U128).toNat) (by rw [hone]; omega)
          rw [hone] at hr
          exact ⟨r, hr⟩
        obtain ⟨mid, em, hmid⟩ : ∃ e', s'.shrBy c (.prim .i32 1) = .ok e' ∧ e'.toNat c = s'.toNat c / 2 := by
          refine ⟨_, (C12_in_range c s' (I256.ONE c) (.prim .i32 1) (show (0 : ℤ) ≤ 1 by decide) (show (1 : ℤ) < 256 by decide)).2.1, ?_⟩
          have := s'.toNat_lt c
          exact U256.toNat_ofNat_of_lt c (by
            rw [show (ShiftBy.prim (c := c) .i32 1).value.toNat = 1 from rfl, pow_one]; omega)
        have hm : mid.toNat c = lo.toNat c + 2 ^ j := by omega
        have hlt : mid.toNat c * mid.toNat c < 2 ^ 256 :=
          lt_of_lt_of_le (Nat.mul_lt_mul'' (show mid.toNat c < 2 ^ 128 by omega) (show mid.toNat c < 2 ^ 128 by omega)) (by decide)
        obtain ⟨p, ep, hp⟩ : ∃ r, mid.mul c mid = .ok r ∧ r.toNat c = mid.toNat c * mid.toNat c :=
          ⟨_, by rw [(C25_u256 c mid mid).2.2, if_neg (by omega)], U256.toNat_ofNat_of_lt c hlt⟩
        obtain ⟨d, ed, hd⟩ : ∃ r, U256.withPrim c U256.sub mid 1 = .ok r ∧ r.toNat c = mid.toNat c - 1 := by
          rw [(C25_prim c U256.sub (fun _ _ _ => .ok s) mid (I256.ONE c) 1).1]
          refine ⟨_, by rw [(C25_u256 c _ _).2.1, if_neg (by omega)], ?_⟩
          have := U256.toNat_ofInt c ((mid.toNat c : ℤ) - 1)
          have := mid.toNat_lt c
          rw [hone]; push_cast
          omega
        unfold isqrtLoop
        rw [U256.lt_eq, if_pos (by simp; omega)]
        simp only [bind, Except.bind, es, es', em, ep, ed]
        rw [U256.le_eq, hp]
        by_cases hle : mid.toNat c * mid.toNat c ≤ n.toNat c
        · rw [if_pos (by simpa using hle), ih k mid hi (by omega) h2 hle h4]
          simp only [Nat.succ_le_succ_iff]
        · rw [if_neg (by simpa using hle), ih k lo d (by omega) (by omega) h3 (by rw [hd]; rw [Nat.sub_add_cancel (by omega)]; omega)]
          simp only [Nat.succ_le_succ_iff]
  have hn := n.toNat_lt c
  unfold isqrt
  refine key 128 k _ _ ?_ ?_ ?_ ?_
  · rw [U256.toNat_new, U256.toNat_ZERO]; decide
  · rw [U256.toNat_new]; decide
  · rw [U256.toNat_ZERO]; omega
  · rw [U256.toNat_new]; exact lt_of_lt_of_le hn (by decide)

example : isqrt dbg 129 U256.MAX = .ok (U256.ofNat dbg (2 ^ 128 - 1)) ∧ isqrt rel 129 (U256.ofNat rel 99) = .ok (U256.ofNat rel 9)
    ∧ isqrt dbg 129 U256.ZERO = .ok U256.ZERO ∧ isqrt dbg 128 U256.ZERO = .error .diverge := by decide +kernel

end Ethnum
