import Verif.Basic

/-
Specification: the work of a loop. A loop is given by its result under a budget, where the budget is the number of times
the loop condition may be evaluated and a loop that runs out of budget has the result `diverge`.

Not in /repo: this says what it means for a `while` or a `loop` of the crate to be bounded.
-/

namespace Ethnum.Work

/-- The loop ends after at most `k` evaluations of its condition: under any budget of at least `k` it has one and the same
result, which is not running out of budget. -/
def EndsWithin {α : Type} (loop : Nat → Res α) (k : Nat) : Prop :=
  ∃ r, r ≠ .error .diverge ∧ ∀ k', k ≤ k' → loop k' = r

/-- The loop evaluates its condition exactly `k` times: it ends within `k`, and under any smaller budget it does not end. -/
def Takes {α : Type} (loop : Nat → Res α) (k : Nat) : Prop :=
  EndsWithin loop k ∧ ∀ k', k' < k → loop k' = .error .diverge

/-- The number of binary digits of `n`. -/
def bitLength (n : Nat) : Nat := if n = 0 then 0 else Nat.log2 n + 1

end Ethnum.Work
