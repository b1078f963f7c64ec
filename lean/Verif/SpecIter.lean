import Verif.Model.Iter

/-
Specification of C61: what it means for an iterator to yield items, and what an accumulation over an iterator has to do.
-/

namespace Ethnum
namespace Iter

/-- From the state `s` the next calls of `next` give the items `l`, one after the other, and lead to the state `s'`. -/
inductive Yields {σ α : Type} (next : Next σ α) : σ → List α → σ → Prop
  | nil (s : σ) : Yields next s [] s
  | cons {s s₁ s₂ : σ} {x : α} {l : List α} (h : next s = (.ok (some x), s₁)) (t : Yields next s₁ l s₂) :
      Yields next s (x :: l) s₂

/-- The call returns or panics with `r` and leaves the iterator in `s'` (more fuel changes nothing). -/
def Ends {σ α : Type} (run : Nat → σ → Res α × σ) (s : σ) (r : Res α) (s' : σ) : Prop :=
  ∃ n₀, ∀ n ≥ n₀, run n s = (r, s')

/-- The call never returns. -/
def RunsForever {σ α : Type} (run : Nat → σ → Res α × σ) (s : σ) : Prop := ∀ n, (run n s).1 = .error .diverge

/-- What an accumulation has to do. `total l` is the exact result over the items `l`, `In` tells which numbers the type
has, `mk` is the value of the type for a number (modulo `2^256`); `checks` tells whether the build checks for overflow.
1. If the iterator ends after the items `l` and no prefix is out of range, or nothing is checked: the result.
2. If the iterator panics itself at that point: its panic.
3. With checks, at the first prefix that is out of range: a panic, and no further item is asked for.
4. If the iterator never ends, and no prefix is out of range or nothing is checked: no result. -/
structure Accumulates {σ α β : Type} (next : Next σ α) (checks : Bool) (total : List α → β) (In : β → Prop) (mk : β → α)
    (run : Nat → σ → Res α × σ) : Prop where
  result : ∀ {s l s' s''}, Yields next s l s' → next s' = (.ok none, s'') →
    (checks = true → ∀ k, In (total (l.take k))) → Ends run s (.ok (mk (total l))) s''
  iterPanic : ∀ {s l s' s'' e}, Yields next s l s' → next s' = (.error e, s'') →
    (checks = true → ∀ k, In (total (l.take k))) → Ends run s (.error e) s''
  overflow : ∀ {s l x s'}, Yields next s (l ++ [x]) s' → checks = true → (∀ k, In (total (l.take k))) →
    ¬ In (total (l ++ [x])) → ∃ p, Ends run s (.error (.panic p)) s'
  endless : ∀ {s}, (∀ l s', Yields next s l s' → ∃ x s'', next s' = (.ok (some x), s'')) →
    (checks = true → ∀ l s', Yields next s l s' → In (total l)) → RunsForever run s

end Iter
end Ethnum
