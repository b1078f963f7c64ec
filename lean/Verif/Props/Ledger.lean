import Verif.SpecLedger
import Verif.Props.Repr
import Verif.Props.UArith
import Verif.Props.Operators
import Mathlib.Algebra.BigOperators.Fin
import Mathlib.Algebra.Order.BigOperators.Group.Finset

/-
C75 a ledger of a token: for every history of transactions, the client's books are those of the integers.
-/

namespace Ethnum
open Ledger
open scoped BigOperators

/-! ### Lemmas -/

/-- Arithmetic that fails exactly when the result is out of range -/
private structure Exact {E : Type} (c : Cfg) (A : Arith E) : Prop where
  add : ∀ a b : U256, if a.toNat c + b.toNat c < 2 ^ 256 then ∃ x, A.add a b = .ok x ∧ x.toNat c = a.toNat c + b.toNat c
    else ∃ e, A.add a b = .error e
  sub : ∀ a b : U256, if b.toNat c ≤ a.toNat c then ∃ x, A.sub a b = .ok x ∧ x.toNat c = a.toNat c - b.toNat c
    else ∃ e, A.sub a b = .error e

private theorem exact_checked (c : Cfg) : Exact c (checked c) := by
  refine ⟨fun a b => ?_, fun a b => ?_⟩
  · split
    · next h => exact ⟨U256.ofNat c (a.toNat c + b.toNat c), by simp only [checked, (C02_checked c a b).1, if_pos h],
        U256.toNat_ofNat_of_lt c h⟩
    · next h => exact ⟨(), by simp only [checked, (C02_checked c a b).1, if_neg h]⟩
  · split
    · next h => exact ⟨U256.ofNat c (a.toNat c - b.toNat c), by simp only [checked, (C02_checked c a b).2, if_pos h],
        U256.toNat_ofNat_of_lt c (by have := a.toNat_lt c; omega)⟩
    · next h => exact ⟨(), by simp only [checked, (C02_checked c a b).2, if_neg h]⟩

private theorem exact_operators {c : Cfg} (d : c.debugAssertions = true) : Exact c (operators c) := by
  refine ⟨fun a b => ?_, fun a b => ?_⟩
  · have e : (operators c).add a b = a.add c b := (C26_u256 c a b (.prim .u8 0)).1
    rw [e, (C25_u256 c a b).1]
    split
    · next h => exact ⟨U256.ofNat c (a.toNat c + b.toNat c), if_neg (by omega), U256.toNat_ofNat_of_lt c h⟩
    · next h => exact ⟨_, if_pos ⟨d, by omega⟩⟩
  · have e : (operators c).sub a b = a.sub c b := (C26_u256 c a b (.prim .u8 0)).2.1
    rw [e, (C25_u256 c a b).2.1]
    split
    · next h =>
      refine ⟨U256.ofInt c ((a.toNat c : Int) - b.toNat c), if_neg (by omega), ?_⟩
      have := U256.toNat_ofInt_of_range c (z := (a.toNat c : Int) - b.toNat c) (by omega) (by have := a.toNat_lt c; omega)
      omega
    · next h => exact ⟨_, if_pos ⟨d, by omega⟩⟩

variable {k : ℕ}

private theorem sum_put (f : Fin k → ℤ) (i : Fin k) (x : ℤ) : ∑ j, (if j = i then x else f j) = ∑ j, f j - f i + x := by
  have h : ∀ j, (if j = i then x else f j) = f j + if j = i then x - f i else 0 := by
    intro j; split
    · next h => subst h; omega
    · omega
  simp only [h, Finset.sum_add_distrib, Finset.sum_ite_eq', Finset.mem_univ, if_true]
  omega

private theorem le_sum (f : Fin k → ℤ) (h : ∀ j, 0 ≤ f j) (i : Fin k) : f i ≤ ∑ j, f j :=
  Finset.single_le_sum (f := f) (fun j _ => h j) (Finset.mem_univ i)

private theorem num_setBalance (c : Cfg) (B : Books k U256) (i : Fin k) (x : U256) :
    (B.setBalance i x).num c = ⟨fun j => if j = i then (x.toNat c : ℤ) else (B.num c).balance j, (B.num c).supply⟩ := by
  simp only [Books.num, Books.setBalance, Books.mk.injEq, and_true]
  funext j; split <;> rfl

private theorem num_inj (c : Cfg) {B B' : Books k U256} (h : B.num c = B'.num c) : B = B' := by
  obtain ⟨b, s⟩ := B
  obtain ⟨b', s'⟩ := B'
  simp only [Books.num, Books.mk.injEq] at h ⊢
  refine ⟨?_, U256.toNat_inj c (by have := h.2; omega)⟩
  funext i
  have := congrFun h.1 i
  exact U256.toNat_inj c (by omega)

/-- The effect of a transaction keeps the books balanced. -/
private theorem balanced_effect {B : Books k ℤ} (h : Balanced B) (t : Tx k ℤ) : Balanced (t.effect B) := by
  unfold Balanced at h ⊢
  cases t <;> simp only [Tx.effect, Finset.sum_add_distrib, Finset.sum_sub_distrib, Finset.sum_ite_eq', Finset.mem_univ, if_true, h]
  omega

open Classical in
/-- One transaction -/
private theorem step_exact {E : Type} {c : Cfg} {A : Arith E} (hA : Exact c A) (t : Tx k U256) (B : Books k U256)
    (hB : Balanced (B.num c)) :
    (step A t B).1.isOk = decide ((t.num c).accepted (B.num c))
    ∧ (step A t B).2.num c = if (t.num c).accepted (B.num c) then (t.num c).effect (B.num c) else B.num c := by
  have nn : ∀ j, 0 ≤ (B.num c).balance j := fun j => Int.natCast_nonneg _
  have hs : ∑ j, ((B.balance j).toNat c : ℤ) = (B.supply.toNat c : ℤ) := hB
  have lt := B.supply.toNat_lt c
  cases t with
  | mint a n =>
    have ad := hA.add B.supply n
    simp only [step, Tx.num, Tx.accepted, Tx.effect, put]
    by_cases h : B.supply.toNat c + n.toNat c < 2 ^ 256
    · rw [if_pos h] at ad
      obtain ⟨x, e, ex⟩ := ad
      have ad2 := hA.add (B.balance a) n
      have la := le_sum _ nn a
      have la' : ((B.balance a).toNat c : ℤ) ≤ B.supply.toNat c := by rw [← hs]; exact la
      rw [if_pos (by omega)] at ad2
      obtain ⟨y, e2, ey⟩ := ad2
      have hz : (B.num c).supply + (n.toNat c : ℤ) < 2 ^ 256 := by simp only [Books.num]; omega
      simp only [e, Books.setSupply, e2, hz, decide_true, if_true]
      refine ⟨rfl, ?_⟩
      rw [num_setBalance]
      simp only [Books.num, Books.mk.injEq]
      refine ⟨?_, by omega⟩
      funext j; split
      · next h => subst h; omega
      · omega
    · rw [if_neg h] at ad
      obtain ⟨e, he⟩ := ad
      have hz : ¬ (B.num c).supply + (n.toNat c : ℤ) < 2 ^ 256 := by simp only [Books.num]; omega
      simp only [he, hz, decide_false, if_false]
      exact ⟨rfl, trivial⟩
  | burn a n =>
    have ad := hA.sub (B.balance a) n
    simp only [step, Tx.num, Tx.accepted, Tx.effect, put]
    by_cases h : n.toNat c ≤ (B.balance a).toNat c
    · rw [if_pos h] at ad
      obtain ⟨x, e, ex⟩ := ad
      have ad2 := hA.sub B.supply n
      have la := le_sum _ nn a
      have la' : ((B.balance a).toNat c : ℤ) ≤ B.supply.toNat c := by rw [← hs]; exact la
      rw [if_pos (by omega)] at ad2
      obtain ⟨y, e2, ey⟩ := ad2
      have hz : (n.toNat c : ℤ) ≤ (B.num c).balance a := by simp only [Books.num]; omega
      simp only [e, Books.setBalance, e2, hz, decide_true, if_true]
      refine ⟨rfl, ?_⟩
      simp only [Books.num, Books.setSupply, Books.mk.injEq]
      refine ⟨?_, by omega⟩
      funext j; split
      · next h => subst h; omega
      · omega
    · rw [if_neg h] at ad
      obtain ⟨e, he⟩ := ad
      have hz : ¬ (n.toNat c : ℤ) ≤ (B.num c).balance a := by simp only [Books.num]; omega
      simp only [he, hz, decide_false, if_false]
      exact ⟨rfl, trivial⟩
  | transfer a b n =>
    have ad := hA.sub (B.balance a) n
    simp only [step, Tx.num, Tx.accepted, Tx.effect, put]
    by_cases h : n.toNat c ≤ (B.balance a).toNat c
    · rw [if_pos h] at ad
      obtain ⟨x, e, ex⟩ := ad
      have ad2 := hA.add ((B.setBalance a x).balance b) n
      have nn' : ∀ j, 0 ≤ ((B.setBalance a x).num c).balance j := fun j => Int.natCast_nonneg _
      have la : (((B.setBalance a x).balance b).toNat c : ℤ) ≤ ∑ j, ((B.setBalance a x).num c).balance j := le_sum _ nn' b
      have tot : ∑ j, ((B.setBalance a x).num c).balance j = B.supply.toNat c - n.toNat c := by
        have e3 : (B.num c).balance a = ((B.balance a).toNat c : ℤ) := rfl
        have e4 : ∑ j, (B.num c).balance j = (B.supply.toNat c : ℤ) := hs
        rw [num_setBalance]
        dsimp only
        rw [sum_put, e4, e3]
        omega
      rw [if_pos (by omega)] at ad2
      obtain ⟨y, e2, ey⟩ := ad2
      have hz : (n.toNat c : ℤ) ≤ (B.num c).balance a := by simp only [Books.num]; omega
      simp only [e, e2, hz, decide_true, if_true]
      refine ⟨rfl, ?_⟩
      rw [num_setBalance, num_setBalance, ey]
      simp only [Books.num, Books.setBalance, Books.mk.injEq, and_true]
      funext j
      by_cases ja : j = a <;> by_cases jb : j = b
      · subst ja; subst jb; simp only [if_true]; omega
      · subst ja; simp only [if_true, if_neg jb]; omega
      · subst jb; simp only [if_true, if_neg ja]; omega
      · simp only [if_neg ja, if_neg jb]; omega
    · rw [if_neg h] at ad
      obtain ⟨e, he⟩ := ad
      have hz : ¬ (n.toNat c : ℤ) ≤ (B.num c).balance a := by simp only [Books.num]; omega
      simp only [he, hz, decide_false, if_false]
      exact ⟨rfl, trivial⟩

private theorem run_exact {E : Type} {c : Cfg} {A : Arith E} (hA : Exact c A) (ts : List (Tx k U256)) (B : Books k U256)
    (hB : Balanced (B.num c)) :
    (run A ts B).1 = (outcome (ts.map (Tx.num c)) (B.num c)).1
    ∧ (run A ts B).2.num c = (outcome (ts.map (Tx.num c)) (B.num c)).2 ∧ Balanced ((run A ts B).2.num c) := by
  induction ts generalizing B with
  | nil => exact ⟨rfl, rfl, hB⟩
  | cons t ts ih =>
    obtain ⟨s1, s2⟩ := step_exact hA t B hB
    simp only [run, List.map_cons, outcome]
    by_cases h : (t.num c).accepted (B.num c)
    · rw [if_pos h] at s2 ⊢
      simp only [h, decide_true] at s1
      obtain ⟨i1, i2, i3⟩ := ih (step A t B).2 (by rw [s2]; exact balanced_effect hB _)
      rw [s2] at i1 i2
      exact ⟨by rw [s1, i1], i2, i3⟩
    · rw [if_neg h] at s2 ⊢
      simp only [h, decide_false] at s1
      obtain ⟨i1, i2, i3⟩ := ih (step A t B).2 (by rw [s2]; exact hB)
      rw [s2] at i1 i2
      exact ⟨by rw [s1, i1], i2, i3⟩

/-! ### The property -/

/-- Three accounts; the fourth and the fifth transaction are rejected (too much is spent, and the supply would be `2^256`), the sixth is a
transfer to oneself. -/
private def hist (c : Cfg) : List (Tx 3 U256) :=
  [.mint 0 (U256.ofNat c (2 ^ 256 - 5)), .mint 1 (U256.ofNat c 4), .transfer 1 2 (U256.ofNat c 3), .transfer 1 0 (U256.ofNat c 2),
   .mint 2 (U256.ofNat c 1), .transfer 0 0 (U256.ofNat c (2 ^ 256 - 5)), .burn 2 (U256.ofNat c 1), .transfer 2 0 (U256.ofNat c 2)]

/-- C75 (checked arithmetic): for every history from balanced books, the client accepts the transactions that the integers accept, has the books
of the integers at the end, and their balances add up to the supply. A transaction that is rejected leaves nothing behind. -/
theorem C75_checked (c : Cfg) (ts : List (Tx k U256)) (B : Books k U256) (h : Balanced (B.num c)) :
    (run (checked c) ts B).1 = (outcome (ts.map (Tx.num c)) (B.num c)).1
    ∧ (run (checked c) ts B).2.num c = (outcome (ts.map (Tx.num c)) (B.num c)).2
    ∧ Balanced ((run (checked c) ts B).2.num c) :=
  run_exact (exact_checked c) ts B h

example : (run (checked dbg) (hist dbg) (Books.zero 3)).1 = [true, true, true, false, false, true, true, true]
    ∧ (∀ i, ((run (checked dbg) (hist dbg) (Books.zero 3)).2.num dbg).balance i = [2 ^ 256 - 3, 1, 0].getD i 7)
    ∧ ((run (checked dbg) (hist dbg) (Books.zero 3)).2.num dbg).supply = 2 ^ 256 - 2 := by decide +kernel

/-- C75 (`+=` and `-=`, with debug assertions): the same, and the transactions that are rejected are those that panic; the books survive
the panic. -/
theorem C75_operators (c : Cfg) (d : c.debugAssertions = true) (ts : List (Tx k U256)) (B : Books k U256) (h : Balanced (B.num c)) :
    (run (operators c) ts B).1 = (outcome (ts.map (Tx.num c)) (B.num c)).1
    ∧ (run (operators c) ts B).2.num c = (outcome (ts.map (Tx.num c)) (B.num c)).2
    ∧ Balanced ((run (operators c) ts B).2.num c) :=
  run_exact (exact_operators d) ts B h

example : (dll.debugAssertions = true) ∧ Balanced ((Books.zero 3).num dll)
    ∧ (run (operators dll) (hist dll) (Books.zero 3)).1 = [true, true, true, false, false, true, true, true]
    ∧ (∀ i, ((run (operators dll) (hist dll) (Books.zero 3)).2.num dll).balance i = [2 ^ 256 - 3, 1, 0].getD i 7) := by
  unfold Balanced; decide +kernel

/-- New books are balanced, and so are those after any history that the integers accept; the two theorems above apply to every history of a
new ledger. -/
theorem C75_new (c : Cfg) (ts : List (Tx k U256)) :
    (Books.zero k).num c = Books.empty k ∧ Balanced (Books.empty k)
    ∧ (run (checked c) ts (Books.zero k)).1 = (outcome (ts.map (Tx.num c)) (Books.empty k)).1
    ∧ (run (checked c) ts (Books.zero k)).2.num c = (outcome (ts.map (Tx.num c)) (Books.empty k)).2
    ∧ (c.debugAssertions = true → run (operators c) ts (Books.zero k) = run (checked c) ts (Books.zero k)) := by
  have z : (Books.zero k).num c = Books.empty k := by
    simp only [Books.zero, Books.num, Books.empty, U256.toNat_ZERO, Nat.cast_zero]
  have b : Balanced (Books.empty k) := by simp [Balanced, Books.empty]
  have h := C75_checked c ts (Books.zero k) (by rw [z]; exact b)
  rw [z] at h
  refine ⟨z, b, h.1, h.2.1, fun d => ?_⟩
  have h' := C75_operators c d ts (Books.zero k) (by rw [z]; exact b)
  rw [z] at h'
  refine Prod.ext (by rw [h'.1, h.1]) (num_inj c (by rw [h'.2.1, h.2.1]))

example : (outcome ((hist dbg).map (Tx.num dbg)) (Books.empty 3)).1 = [true, true, true, false, false, true, true, true] :=
  (C75_new dbg (hist dbg)).2.2.1.symm.trans (by decide +kernel)

/-- C75 (`wrapping_add` and `wrapping_sub`, and `+=` and `-=` without debug assertions): no transaction fails, and the sum of the balances is
the supply modulo `2^256`, whatever the transactions are. -/
theorem C75_wrapping (c : Cfg) (ts : List (Tx k U256)) (B : Books k U256)
    (h : (∑ i, (B.num c).balance i - (B.num c).supply) % 2 ^ 256 = 0) :
    (run (wrapping c) ts B).1 = ts.map (fun _ => true)
    ∧ (∑ i, ((run (wrapping c) ts B).2.num c).balance i - ((run (wrapping c) ts B).2.num c).supply) % 2 ^ 256 = 0
    ∧ (c.debugAssertions = false → run (operators c) ts B = run (wrapping c) ts B) := by
  have wa : ∀ a b : U256, ((a.wrapping_add c b).toNat c : ℤ) = ((a.toNat c : ℤ) + b.toNat c) % 2 ^ 256 := fun a b => by
    rw [(C02_wrapping c a b).2.2.1]; omega
  have ws : ∀ a b : U256, ((a.wrapping_sub c b).toNat c : ℤ) = ((a.toNat c : ℤ) - b.toNat c) % 2 ^ 256 :=
    fun a b => (C02_wrapping c a b).2.2.2
  refine ⟨?_, ?_, fun d => ?_⟩
  · clear h
    induction ts generalizing B with
    | nil => rfl
    | cons t ts ih => cases t <;> simp only [run, step, put, wrapping, List.map_cons] <;> exact congrArg (true :: ·) (ih _)
  · induction ts generalizing B with
    | nil => exact h
    | cons t ts ih =>
      cases t with
      | mint a n =>
        refine ih _ ?_
        simp only [num_setBalance, sum_put]
        simp only [Books.num, Books.setSupply, wa] at h ⊢
        omega
      | burn a n =>
        refine ih _ ?_
        have e : ∀ (B : Books k U256) x, (B.setSupply x).num c = ⟨(B.num c).balance, x.toNat c⟩ := fun _ _ => rfl
        simp only [step, put, wrapping, e, num_setBalance, sum_put]
        simp only [Books.num, Books.setBalance, ws] at h ⊢
        omega
      | transfer a b n =>
        refine ih _ ?_
        simp only [num_setBalance, sum_put]
        have e : (((B.setBalance a ((B.balance a).wrapping_sub c n)).balance b).toNat c : ℤ)
          = ((B.setBalance a ((B.balance a).wrapping_sub c n)).num c).balance b := rfl
        rw [wa, e, num_setBalance, ws]
        simp only [Books.num] at h ⊢
        omega
  · clear h
    have e : ∀ a b : U256, (operators c).add a b = .ok (a.wrapping_add c b) ∧ (operators c).sub a b = .ok (a.wrapping_sub c b) := by
      intro a b
      have h1 : (operators c).add a b = a.add c b := (C26_u256 c a b (.prim .u8 0)).1
      have h2 : (operators c).sub a b = a.sub c b := (C26_u256 c a b (.prim .u8 0)).2.1
      rw [h1, h2, (C25_u256 c a b).1, (C25_u256 c a b).2.1, (C02_wrapping c a b).1, (C02_wrapping c a b).2.1, d]
      simp
    induction ts generalizing B with
    | nil => rfl
    | cons t ts ih => cases t <;> simp only [run, step, put, e, wrapping] <;> rw [ih] <;> rfl

example : (run (wrapping rel) (hist rel) (Books.zero 3)).1 = [true, true, true, true, true, true, true, true]
    ∧ (∀ i, ((run (wrapping rel) (hist rel) (Books.zero 3)).2.num rel).balance i = [2 ^ 256 - 1, 2 ^ 256 - 1, 1].getD i 7)
    ∧ ((run (wrapping rel) (hist rel) (Books.zero 3)).2.num rel).supply = 2 ^ 256 - 1 := by decide +kernel

/-- C75 (a limit): without debug assertions, the books that are kept with `+=` and `-=` need not be balanced: somebody who has nothing sends
one token, and has `2^256 - 1` of them afterwards. -/
theorem C75_release_inflation (c : Cfg) (d : c.debugAssertions = false) :
    (step (operators c) (.transfer 0 1 (U256.ONE c)) (Books.zero 2)).1 = .ok ()
    ∧ (((step (operators c) (.transfer 0 1 (U256.ONE c)) (Books.zero 2)).2).num c).balance 0 = 2 ^ 256 - 1
    ∧ (((step (operators c) (.transfer 0 1 (U256.ONE c)) (Books.zero 2)).2).num c).balance 1 = 1
    ∧ ¬ Balanced (((step (operators c) (.transfer 0 1 (U256.ONE c)) (Books.zero 2)).2).num c) := by
  have h0 := U256.toNat_ZERO c
  have h1 := U256.toNat_ONE c
  have s1 : (operators c).sub U256.ZERO (U256.ONE c) = .ok (U256.ofInt c (-1)) := by
    have h2 : (operators c).sub U256.ZERO (U256.ONE c) = U256.sub c U256.ZERO (U256.ONE c) := (C26_u256 c _ _ (.prim .u8 0)).2.1
    rw [h2, (C25_u256 c _ _).2.1, d, h0, h1]; simp
  have s2 : (operators c).add U256.ZERO (U256.ONE c) = .ok (U256.ofNat c 1) := by
    have h2 : (operators c).add U256.ZERO (U256.ONE c) = U256.add c U256.ZERO (U256.ONE c) := (C26_u256 c _ _ (.prim .u8 0)).1
    rw [h2, (C25_u256 c _ _).1, d, h0, h1]; simp
  have m : ((U256.ofInt c (-1)).toNat c : ℤ) = 2 ^ 256 - 1 := by rw [U256.toNat_ofInt]; rfl
  have o : ((U256.ofNat c 1).toNat c : ℤ) = 1 := by rw [U256.toNat_ofNat]; rfl
  have ne : ¬ (1 : Fin 2) = 0 := by decide
  have ne' : ¬ (0 : Fin 2) = 1 := by decide
  simp only [step, put, Books.zero, s1, Books.setBalance, if_neg ne, s2, Balanced, Books.num, Fin.sum_univ_two, if_true, if_neg ne', m, o,
    h0]
  decide

example : Balanced ((Books.zero 2).num rel) ∧ rel.debugAssertions = false := by unfold Balanced; decide +kernel

end Ethnum
