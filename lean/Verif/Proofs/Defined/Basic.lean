import Verif.Proofs.Defined.Attr
import Verif.Basic

/-!
Calls that return or panic: neither undefined behaviour nor an endless loop.
-/

namespace Ethnum

/-- The call returns a value or panics. -/
def Defined {α : Type} (x : Res α) : Prop := (∃ a, x = .ok a) ∨ ∃ p, x = .error (.panic p)

@[defd] theorem Defined.ok {α : Type} (a : α) : Defined (.ok a : Res α) := .inl ⟨a, rfl⟩
@[defd] theorem Defined.pure {α : Type} (a : α) : Defined (Pure.pure a : Res α) := .inl ⟨a, rfl⟩
@[defd] theorem Defined.panic {α : Type} (p : Panic) : Defined (.error (.panic p) : Res α) := .inr ⟨p, rfl⟩
@[defd] theorem Defined.throw {α : Type} (p : Panic) : Defined (throwPanic p : Res α) := .inr ⟨p, rfl⟩
theorem Defined.bind {α β : Type} {x : Res α} {k : α → Res β} (hx : Defined x) (hk : ∀ a, Defined (k a)) :
    Defined (x >>= k) := by
  rcases hx with ⟨a, rfl⟩ | ⟨p, rfl⟩
  · exact hk a
  · exact .inr ⟨p, rfl⟩
theorem Defined.ite {α : Type} {p : Prop} [Decidable p] {x y : Res α} (hx : p → Defined x) (hy : ¬ p → Defined y) :
    Defined (if p then x else y) := by
  split
  · exact hx ‹_›
  · exact hy ‹_›
theorem Defined.of_ok {α : Type} {x : Res α} {a : α} (h : x = .ok a) : Defined x := .inl ⟨a, h⟩
theorem Defined.of_panic {α : Type} {x : Res α} {p : Panic} (h : x = .error (.panic p)) : Defined x := .inr ⟨p, h⟩
theorem Defined.foldlM {α β : Type} {f : β → α → Res β} (h : ∀ b a, Defined (f b a)) (l : List α) (b : β) :
    Defined (l.foldlM f b) := by
  induction l generalizing b with
  | nil => exact .pure b
  | cons a l ih => rw [List.foldlM_cons]; exact .bind (h b a) ih

@[defd] theorem debugAssert_defined (c : Cfg) (b : Bool) : Defined (debugAssert c b) := by
  unfold debugAssert; split <;> simp only [defd]
@[defd] theorem addC_defined (c : Cfg) {w} (a b : BitVec w) : Defined (addC c a b) := by
  unfold addC; split <;> simp only [defd]
@[defd] theorem subC_defined (c : Cfg) {w} (a b : BitVec w) : Defined (subC c a b) := by
  unfold subC; split <;> simp only [defd]
@[defd] theorem mulC_defined (c : Cfg) {w} (a b : BitVec w) : Defined (mulC c a b) := by
  unfold mulC; split <;> simp only [defd]
@[defd] theorem shlC_defined (c : Cfg) {w} (a : BitVec w) (b) : Defined (shlC c a b) := by
  unfold shlC; split <;> simp only [defd]
@[defd] theorem shrC_defined (c : Cfg) {w} (a : BitVec w) (b) : Defined (shrC c a b) := by
  unfold shrC; split <;> simp only [defd]
@[defd] theorem sarC_defined (c : Cfg) {w} (a : BitVec w) (b) : Defined (sarC c a b) := by
  unfold sarC; split <;> simp only [defd]
@[defd] theorem negC_defined (c : Cfg) {w} (a : BitVec w) : Defined (negC c a) := by
  unfold negC; split <;> simp only [defd]
@[defd] theorem divC_defined {w} (a b : BitVec w) : Defined (divC a b) := by
  unfold divC; split <;> simp only [defd]
@[defd] theorem remC_defined {w} (a b : BitVec w) : Defined (remC a b) := by
  unfold remC; split <;> simp only [defd]

/-- Follow the structure of a call. -/
macro "defined" : tactic => `(tactic| repeat' first
  | assumption
  | (simp only [defd]; done)
  | (refine Defined.bind ?_ (fun _ => ?_) <;> try dsimp only)
  | (refine Defined.ite (fun _ => ?_) (fun _ => ?_))
  | split)

end Ethnum
