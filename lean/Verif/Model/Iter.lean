import Verif.Model.Forms
import Verif.Model.UintApi
import Verif.Model.IntApi

/-
`Sum` and `Product` over an arbitrary iterator: src/macros/iter.rs. An iterator is given by what its `next` does in each
of its states; it may go on forever, and it may panic itself. (`U256.sum` and the like in `Model/UintApi` and
`Model/IntApi` are the same over a list.)
-/

namespace Ethnum
namespace Iter

/-- `Iterator::next`: an item, the end (`none`) or a panic of the iterator, and the state in which it is left. -/
abbrev Next (σ α : Type) := σ → Res (Option α) × σ

/-- `Iterator::fold` of the standard library, `while let Some(x) = self.next() { acc = f(acc, x); }`, with fuel. The
state is the one in which the iterator is left when the call returns or panics. -/
def fold {σ α β : Type} (next : Next σ α) (f : β → α → Res β) : Nat → β → σ → Res β × σ
  | 0, _, s => (.error .diverge, s)
  | n + 1, acc, s =>
    match next s with
    | (.error e, s) => (.error e, s)
    | (.ok none, s) => (.ok acc, s)
    | (.ok (some x), s) =>
      match f acc x with
      | .error e => (.error e, s)
      | .ok acc => fold next f n acc s

end Iter

namespace U256
open Iter
variable {σ : Type} (c : Cfg) (next : Next σ U256)

/-- `Sum` (src/macros/iter.rs 7-11): `iter.fold(ZERO, Add::add)` with both operands by value -/
def sumIter : Nat → σ → Res U256 × σ := fun n => fold next (Forms.vv (add c)) n ZERO
/-- `Product` (src/macros/iter.rs 13-17) -/
def productIter : Nat → σ → Res U256 × σ := fun n => fold next (Forms.vv (mul c)) n (ONE c)
/-- `Sum<&U256>` (src/macros/iter.rs 19-23): the items are references -/
def sumRefIter : Nat → σ → Res U256 × σ := fun n => fold next (Forms.vr (add c)) n ZERO
/-- `Product<&U256>` (src/macros/iter.rs 25-29) -/
def productRefIter : Nat → σ → Res U256 × σ := fun n => fold next (Forms.vr (mul c)) n (ONE c)

end U256

namespace I256
open Iter
variable {σ : Type} (c : Cfg) (next : Next σ I256)

/-- `Sum` (src/macros/iter.rs 7-11) -/
def sumIter : Nat → σ → Res I256 × σ := fun n => fold next (Forms.vv (add c)) n ZERO
/-- `Product` (src/macros/iter.rs 13-17) -/
def productIter : Nat → σ → Res I256 × σ := fun n => fold next (Forms.vv (mul c)) n (ONE c)
/-- `Sum<&I256>` (src/macros/iter.rs 19-23) -/
def sumRefIter : Nat → σ → Res I256 × σ := fun n => fold next (Forms.vr (add c)) n ZERO
/-- `Product<&I256>` (src/macros/iter.rs 25-29) -/
def productRefIter : Nat → σ → Res I256 × σ := fun n => fold next (Forms.vr (mul c)) n (ONE c)

end I256
end Ethnum
