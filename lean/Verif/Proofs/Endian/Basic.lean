import Verif.Proofs.Endian.Attr
import Verif.Model.Serde

/-!
Moving a value to a target of the other byte order: the two array elements change places, everything else stays.
`mv (f c x) = f c.other (mv x)` for every modelled function `f`.
-/

namespace Ethnum

/-- The same build for a target of the other byte order. -/
def Cfg.other (c : Cfg) : Cfg := { c with bigEndian := !c.bigEndian }

/-- How a value of the type looks on a target of the other byte order. -/
class Mv (α : Type) where
  mv : α → α
  inv : ∀ x, mv (mv x) = x

export Mv (mv)

/-- A type without 256-bit integers in it. -/
class MvId (α : Type) extends Mv α where
  id : ∀ x : α, mv x = x

instance : Mv U256 := ⟨fun x => ⟨x.w1, x.w0⟩, fun _ => rfl⟩
instance : Mv I256 := ⟨fun x => ⟨x.w1, x.w0⟩, fun _ => rfl⟩
instance {w : Nat} : MvId (BitVec w) := { mv := fun x => x, inv := fun _ => rfl, id := fun _ => rfl }
instance : MvId Bool := { mv := fun x => x, inv := fun _ => rfl, id := fun _ => rfl }
instance : MvId Nat := { mv := fun x => x, inv := fun _ => rfl, id := fun _ => rfl }
instance : MvId Int := { mv := fun x => x, inv := fun _ => rfl, id := fun _ => rfl }
instance : MvId Unit := { mv := fun x => x, inv := fun _ => rfl, id := fun _ => rfl }
instance : MvId Ordering := { mv := fun x => x, inv := fun _ => rfl, id := fun _ => rfl }
instance : MvId IntErrorKind := { mv := fun x => x, inv := fun _ => rfl, id := fun _ => rfl }
instance : MvId Serde.DeErr := { mv := fun x => x, inv := fun _ => rfl, id := fun _ => rfl }
instance : MvId Serde.Datum := { mv := fun x => x, inv := fun _ => rfl, id := fun _ => rfl }
instance : MvId Char := { mv := fun x => x, inv := fun _ => rfl, id := fun _ => rfl }
instance {α : Type} [Mv α] : Mv (List α) := ⟨fun l => l.map mv, fun l => by simp [Function.comp_def, Mv.inv]⟩
instance {α β : Type} [Mv α] [Mv β] : Mv (α × β) := ⟨fun x => (mv x.1, mv x.2), fun x => by simp [Mv.inv]⟩
instance {α : Type} [Mv α] : Mv (Option α) := ⟨fun x => x.map mv, fun x => by cases x <;> simp [Mv.inv]⟩
instance {α ε : Type} [Mv α] : Mv (Except ε α) := ⟨fun x => x.map mv, fun x => by cases x <;> simp [Except.map, Mv.inv]⟩

attribute [mv_push] Mv.inv

@[mv_push] theorem mv_base {α : Type} [MvId α] (x : α) : mv x = x := MvId.id x
@[mv_push] theorem mv_pair {α β : Type} [Mv α] [Mv β] (x : α) (y : β) : mv (x, y) = (mv x, mv y) := rfl
@[mv_push] theorem mv_nil {α : Type} [Mv α] : mv ([] : List α) = [] := rfl
@[mv_push] theorem mv_cons {α : Type} [Mv α] (x : α) (l : List α) : mv (x :: l) = mv x :: mv l := rfl
@[mv_push] theorem mv_none {α : Type} [Mv α] : mv (none : Option α) = none := rfl
@[mv_push] theorem mv_some {α : Type} [Mv α] (x : α) : mv (some x) = some (mv x) := rfl
@[mv_push] theorem mv_ok {α ε : Type} [Mv α] (x : α) : mv (Except.ok x : Except ε α) = Except.ok (mv x) := rfl
@[mv_push] theorem mv_error {α ε : Type} [Mv α] (e : ε) : mv (Except.error e : Except ε α) = Except.error e := rfl
@[mv_push] theorem mv_pure {α : Type} [Mv α] (x : α) : mv (pure x : Res α) = pure (mv x) := rfl
@[mv_push] theorem mv_throwPanic {α : Type} [Mv α] (p : Panic) : mv (throwPanic p : Res α) = throwPanic p := rfl
@[mv_push] theorem mv_throwUB {α : Type} [Mv α] (p : UB) : mv (throwUB p : Res α) = throwUB p := rfl
instance {α β : Type} [MvId α] [MvId β] : MvId (α × β) :=
  { toMv := inferInstance, id := fun x => by obtain ⟨x, y⟩ := x; simp [mv_push] }
instance {α : Type} [MvId α] : MvId (Option α) :=
  { toMv := inferInstance, id := fun x => by cases x <;> simp [mv_push] }
instance {α : Type} [MvId α] : MvId (List α) :=
  { toMv := inferInstance, id := fun l => by
      show l.map mv = l
      induction l with
      | nil => rfl
      | cons a l ih => rw [List.map_cons, ih, mv_base] }
instance {α ε : Type} [MvId α] : MvId (Except ε α) :=
  { toMv := inferInstance, id := fun x => by cases x <;> simp [mv_push] }
@[mv_push] theorem mv_ite {α : Type} [Mv α] (p : Prop) [Decidable p] (x y : α) :
    mv (if p then x else y) = if p then mv x else mv y := by split <;> rfl

theorem mv_bind {α β : Type} [Mv α] [Mv β] {x x' : Res α} {k k' : α → Res β} (h : mv x = x')
    (hk : ∀ a, mv (k a) = k' (mv a)) : mv (x >>= k) = x' >>= k' := by
  subst h
  cases x with
  | error e => rfl
  | ok a => exact hk a
theorem mv_ite' {α : Type} [Mv α] {p p' : Prop} [Decidable p] [Decidable p'] {x y x' y' : α} (hp : p = p')
    (hx : mv x = x') (hy : mv y = y') : mv (if p then x else y) = if p' then x' else y' := by
  subst hp; subst hx; subst hy; split <;> rfl

@[mv_push] theorem Cfg.other_other (c : Cfg) : c.other.other = c := by cases c; simp [Cfg.other]
@[mv_push] theorem Cfg.other_da (c : Cfg) : c.other.debugAssertions = c.debugAssertions := rfl
@[mv_push] theorem Cfg.other_oc (c : Cfg) : c.other.overflowChecks = c.overflowChecks := rfl
@[mv_push] theorem Cfg.other_ptr (c : Cfg) : c.other.ptr = c.ptr := rfl
@[mv_push] theorem Cfg.other_llvm (c : Cfg) : c.other.llvm = c.llvm := rfl
@[mv_push] theorem Cfg.other_be (c : Cfg) : c.other.bigEndian = !c.bigEndian := rfl

@[mv_push] theorem debugAssert_other (c : Cfg) (b) : debugAssert c.other b = debugAssert c b := rfl
@[mv_push] theorem addC_other (c : Cfg) {w} (a b : BitVec w) : addC c.other a b = addC c a b := rfl
@[mv_push] theorem subC_other (c : Cfg) {w} (a b : BitVec w) : subC c.other a b = subC c a b := rfl
@[mv_push] theorem mulC_other (c : Cfg) {w} (a b : BitVec w) : mulC c.other a b = mulC c a b := rfl
@[mv_push] theorem shlC_other (c : Cfg) {w} (a : BitVec w) (b) : shlC c.other a b = shlC c a b := rfl
@[mv_push] theorem shrC_other (c : Cfg) {w} (a : BitVec w) (b) : shrC c.other a b = shrC c a b := rfl
@[mv_push] theorem sarC_other (c : Cfg) {w} (a : BitVec w) (b) : sarC c.other a b = sarC c a b := rfl
@[mv_push] theorem negC_other (c : Cfg) {w} (a : BitVec w) : negC c.other a = negC c a := rfl

theorem mv_bind2 {α β γ : Type} [Mv α] [Mv β] [Mv γ] {x x' : Res (α × β)} {k k' : α × β → Res γ}
    (h : mv x = x') (hk : ∀ a b, mv (k (a, b)) = k' (mv a, mv b)) : mv (x >>= k) = x' >>= k' :=
  mv_bind h (fun p => hk p.1 p.2)
theorem mv_bind3 {α β δ γ : Type} [Mv α] [Mv β] [Mv γ] [Mv δ] {x x' : Res (α × β × δ)}
    {k k' : α × β × δ → Res γ}
    (h : mv x = x') (hk : ∀ a b d, mv (k (a, b, d)) = k' (mv a, mv b, mv d)) : mv (x >>= k) = x' >>= k' :=
  mv_bind h (fun p => hk p.1 p.2.1 p.2.2)

theorem mv_bindO {α γ : Type} [Mv α] [Mv γ] {x x' : Res (Option α)} {k k' : Option α → Res γ}
    (h : mv x = x') (hn : mv (k none) = k' none) (hk : ∀ a, mv (k (some a)) = k' (some (mv a))) :
    mv (x >>= k) = x' >>= k' :=
  mv_bind h (fun p => by cases p with
    | none => exact hn
    | some a => exact hk a)
theorem mv_bindO2 {α β γ : Type} [Mv α] [Mv β] [Mv γ] {x x' : Res (Option (α × β))} {k k' : Option (α × β) → Res γ}
    (h : mv x = x') (hn : mv (k none) = k' none) (hk : ∀ a b, mv (k (some (a, b))) = k' (some (mv a, mv b))) :
    mv (x >>= k) = x' >>= k' :=
  mv_bindO h hn (fun p => hk p.1 p.2)
theorem mv_bindO3 {α β δ γ : Type} [Mv α] [Mv β] [Mv δ] [Mv γ] {x x' : Res (Option (α × β × δ))}
    {k k' : Option (α × β × δ) → Res γ}
    (h : mv x = x') (hn : mv (k none) = k' none)
    (hk : ∀ a b d, mv (k (some (a, b, d))) = k' (some (mv a, mv b, mv d))) :
    mv (x >>= k) = x' >>= k' :=
  mv_bindO h hn (fun p => hk p.1 p.2.1 p.2.2)
theorem mv_bindE {α ε γ : Type} [Mv α] [Mv γ] {x x' : Res (Except ε α)} {k k' : Except ε α → Res γ}
    (h : mv x = x') (hn : ∀ e, mv (k (.error e)) = k' (.error e)) (hk : ∀ a, mv (k (.ok a)) = k' (.ok (mv a))) :
    mv (x >>= k) = x' >>= k' :=
  mv_bind h (fun p => by cases p with
    | error e => exact hn e
    | ok a => exact hk a)
theorem mv_bind4 {α β δ η γ : Type} [Mv α] [Mv β] [Mv γ] [Mv δ] [Mv η] {x x' : Res (α × β × δ × η)}
    {k k' : α × β × δ × η → Res γ}
    (h : mv x = x') (hk : ∀ a b d e, mv (k (a, b, d, e)) = k' (mv a, mv b, mv d, mv e)) : mv (x >>= k) = x' >>= k' :=
  mv_bind h (fun p => hk p.1 p.2.1 p.2.2.1 p.2.2.2)

/-- Push `mv` to the leaves. -/
macro "mv_leaf" : tactic => `(tactic| first
  | rfl
  | assumption
  | (simp only [mv_push]; done)
  | (simp only [mv_push]; rfl)
  | (simp only [mv_push, *]; done))
/-- Follow the structure of both sides. -/
macro "mv_auto" : tactic => `(tactic| repeat' first
  | mv_leaf
  | (refine mv_bind4 ?_ (fun a b d e => ?_) <;> try dsimp only)
  | (refine mv_bind3 ?_ (fun a b d => ?_) <;> try dsimp only)
  | (refine mv_bind2 ?_ (fun a b => ?_) <;> try dsimp only)
  | (refine mv_bindO3 ?_ ?_ (fun a b d => ?_) <;> try dsimp only)
  | (refine mv_bindO2 ?_ ?_ (fun a b => ?_) <;> try dsimp only)
  | (refine mv_bindO ?_ ?_ (fun a => ?_) <;> try dsimp only)
  | (refine mv_bindE ?_ (fun e => ?_) (fun a => ?_) <;> try dsimp only)
  | (refine mv_bind ?_ (fun a => ?_) <;> try dsimp only)
  | (refine mv_ite' ?_ ?_ ?_ <;> try dsimp only))

/-- `mv_leaf` without unfolding -/
macro "mv_leaf_r" : tactic => `(tactic| first
  | with_reducible rfl
  | assumption
  | (simp only [mv_push]; done)
  | (simp only [mv_push]; with_reducible rfl)
  | (simp only [mv_push, *]; done))
/-- `mv_auto` without unfolding -/
macro "mv_auto_r" : tactic => `(tactic| repeat' first
  | mv_leaf_r
  | (refine mv_bind4 ?_ (fun a b d e => ?_) <;> try dsimp only)
  | (refine mv_bind3 ?_ (fun a b d => ?_) <;> try dsimp only)
  | (refine mv_bind2 ?_ (fun a b => ?_) <;> try dsimp only)
  | (refine mv_bindO3 ?_ ?_ (fun a b d => ?_) <;> try dsimp only)
  | (refine mv_bindO2 ?_ ?_ (fun a b => ?_) <;> try dsimp only)
  | (refine mv_bindO ?_ ?_ (fun a => ?_) <;> try dsimp only)
  | (refine mv_bindE ?_ (fun e => ?_) (fun a => ?_) <;> try dsimp only)
  | (refine mv_bind ?_ (fun a => ?_) <;> try dsimp only)
  | (refine mv_ite' ?_ ?_ ?_ <;> try dsimp only))

theorem mv_foldlM {α β : Type} [Mv α] [Mv β] {f f' : β → α → Res β} (h : ∀ b a, mv (f b a) = f' (mv b) (mv a))
    (l : List α) (b : β) : mv (l.foldlM f b) = (mv l).foldlM f' (mv b) := by
  induction l generalizing b with
  | nil => rfl
  | cons a l ih =>
    rw [mv_cons, List.foldlM_cons, List.foldlM_cons]
    exact mv_bind (h b a) (fun x => ih x)

theorem base_of {α : Type} [Mv α] {x y : α} (hid : ∀ z : α, mv z = z) (h : mv x = y) : y = x :=
  h.symm.trans (hid x)

macro "mv_base_auto" : tactic => `(tactic| (refine base_of (fun z => mv_base z) ?_; mv_auto))
macro "mv_base_auto_r" : tactic => `(tactic| (refine base_of (fun z => mv_base z) ?_; mv_auto_r))

end Ethnum
