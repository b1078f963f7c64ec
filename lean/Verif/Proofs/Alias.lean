import Verif.Model.Alias
import Mathlib.Tactic.SplitIfs

/-
Lemmas for C69: a check of logs by computation, and the logs of the operators.
-/

namespace Ethnum.Borrow

/-- The event stays within the first `N` bytes. -/
def Event.within (N : Nat) : Event → Bool
  | .ref _ _ _ lo len _ => decide (lo + len ≤ N)
  | .raw _ _ _ lo len => decide (lo + len ≤ N)
  | .access _ _ lo len => decide (lo + len ≤ N)
  | .ret _ => true

theorem Stacked.run_outside (N i : Nat) (hi : N ≤ i) : ∀ (es : List Event) (s : Stacked.Stack),
    es.all (Event.within N) = true → Stacked.run i es s = Stacked.run N es s := by
  intro es
  induction es with
  | nil => intro s _; rfl
  | cons e es ih =>
    intro s h
    rw [List.all_cons, Bool.and_eq_true] at h
    have : Stacked.step i s e = Stacked.step N s e := by
      cases e with
      | ref k p new lo len prot =>
        have hl : lo + len ≤ N := of_decide_eq_true h.1
        unfold Stacked.step
        dsimp only
        rw [if_neg (by omega), if_neg (by omega)]
      | raw k p new lo len =>
        have hl : lo + len ≤ N := of_decide_eq_true h.1
        unfold Stacked.step
        dsimp only
        rw [if_neg (by omega), if_neg (by omega)]
      | access a p lo len =>
        have hl : lo + len ≤ N := of_decide_eq_true h.1
        unfold Stacked.step
        dsimp only
        rw [if_neg (by omega), if_neg (by omega)]
      | ret ts => rfl
    unfold Stacked.run
    rw [this]
    cases Stacked.step N s e with
    | none => rfl
    | some s => exact ih s h.2

theorem Tree.run_outside (N i : Nat) (hi : N ≤ i) : ∀ (es : List Event) (s : Tree.State),
    es.all (Event.within N) = true → Tree.run N i es s = Tree.run N N es s := by
  intro es
  induction es with
  | nil => intro s _; rfl
  | cons e es ih =>
    intro s h
    rw [List.all_cons, Bool.and_eq_true] at h
    have : Tree.step N i s e = Tree.step N N s e := by
      cases e with
      | ref k p new lo len prot =>
        have hl : lo + len ≤ N := of_decide_eq_true h.1
        unfold Tree.step
        dsimp only
        cases s.ptrs.lookup p with
        | none => rfl
        | some path =>
          dsimp only
          rw [if_neg (by omega), if_neg (by omega)]
      | raw k p new lo len => rfl
      | access a p lo len =>
        have hl : lo + len ≤ N := of_decide_eq_true h.1
        unfold Tree.step
        dsimp only
        rw [if_neg (by omega), if_neg (by omega)]
      | ret ts => rfl
    unfold Tree.run
    rw [this]
    cases Tree.step N N s e with
    | none => rfl
    | some s => exact ih s h.2

/-- All that has to be looked at: the bytes up to `N`, which stands for those beyond. -/
def check (N : Nat) (es : List Event) : Bool :=
  es.all (Event.within N) && (List.range (N + 1)).all fun i =>
    (Stacked.run i es (Stacked.start N i)).isSome && (Tree.run N i es Tree.start).isSome

theorem accepts_of_check {N : Nat} {es : List Event} (h : check N es = true) : Stacked.Accepts N es ∧ Tree.Accepts N es := by
  unfold check at h
  rw [Bool.and_eq_true] at h
  obtain ⟨hw, hr⟩ := h
  have hr' : ∀ i ≤ N, Stacked.run i es (Stacked.start N i) ≠ none ∧ Tree.run N i es Tree.start ≠ none := by
    intro i hi
    have := List.all_eq_true.mp hr i (List.mem_range.mpr (by omega))
    rw [Bool.and_eq_true] at this
    exact ⟨fun h => by rw [h] at this; exact absurd this.1 (by decide),
      fun h => by rw [h] at this; exact absurd this.2 (by decide)⟩
  constructor
  · intro i
    rcases Nat.lt_or_ge N i with hi | hi
    · rw [Stacked.run_outside N i (Nat.le_of_lt hi) es _ hw]
      have : Stacked.start N i = Stacked.start N N := by
        unfold Stacked.start
        rw [if_neg (by omega), if_neg (by omega)]
      rw [this]
      exact (hr' N (Nat.le_refl _)).1
    · exact (hr' i hi).1
  · intro i
    rcases Nat.lt_or_ge N i with hi | hi
    · rw [Tree.run_outside N i (Nat.le_of_lt hi) es _ hw]
      exact (hr' N (Nat.le_refl _)).2
    · exact (hr' i hi).2

/-- The same for a log: the allocations that occur in it. -/
def checkLog (N : Nat) (log : List (Nat × Event)) : Bool := (log.map (·.1)).eraseDups.all fun id => check N (ofAlloc id log)

theorem obeys_of_check {N : Nat} {log : List (Nat × Event)} (h : checkLog N log = true) : Obeys N log := by
  intro id
  by_cases hid : id ∈ log.map (·.1)
  · exact accepts_of_check (List.all_eq_true.mp h id (List.mem_eraseDups.mpr hid))
  · have : ofAlloc id log = [] := by
      unfold ofAlloc
      rw [List.filterMap_eq_nil_iff]
      intro e he
      have : e.1 ≠ id := by
        rintro rfl
        exact hid (List.mem_map_of_mem he)
      rw [if_neg this]
    rw [this]
    exact ⟨fun i h => (by cases h), fun i h => (by cases h)⟩

end Ethnum.Borrow

/-! ### The traced code does what the code of Model/Mem.lean does -/

namespace Ethnum.Alias
open Borrow

/-- The same results and the same memory -/
def Sim {α : Type} (t : T α) (m : M α) : Prop := ∀ w, (t w).1 = (m w.mem).1 ∧ (t w).2.mem = (m w.mem).2

namespace Sim

theorem pure {α : Type} (x : α) : Sim (Pure.pure x) (Pure.pure x) := fun _ => ⟨rfl, rfl⟩
theorem lift {α : Type} (r : Res α) : Sim (Alias.lift r) (M.lift r) := fun _ => ⟨rfl, rfl⟩
theorem mem {α : Type} (m : M α) : Sim (Alias.mem m) m := fun _ => ⟨rfl, rfl⟩

theorem bind {α β : Type} {t : T α} {m : M α} {k : α → T β} {l : α → M β} (h : Sim t m) (hk : ∀ x, Sim (k x) (l x)) :
    Sim (t >>= k) (m >>= l) := by
  intro w
  obtain ⟨h1, h2⟩ := h w
  show (match t w with | (.ok x, w) => k x w | (.error e, w) => (.error e, w)).1 =
      (match m w.mem with | (.ok x, s) => l x s | (.error e, s) => (.error e, s)).1 ∧
    (match t w with | (.ok x, w) => k x w | (.error e, w) => (.error e, w)).2.mem =
      (match m w.mem with | (.ok x, s) => l x s | (.error e, s) => (.error e, s)).2
  generalize t w = p at h1 h2
  generalize m w.mem = q at h1 h2
  obtain ⟨r, w'⟩ := p
  obtain ⟨r', s⟩ := q
  dsimp only at h1 h2
  subst h1
  subst h2
  cases r with
  | error e => exact ⟨rfl, rfl⟩
  | ok x => exact hk x w'

theorem note {α : Type} {r : Ref} {e : Event} {k : Unit → T α} {m : M α} (h : Sim (k ()) m) : Sim (Alias.note r e >>= k) m :=
  fun w => h ⟨w.mem, _, w.next⟩
theorem ref {α : Type} {k : Kind} {r : Ref} {p : Bool} {f : Ref → T α} {m : M α} (h : ∀ t, Sim (f ⟨r.loc, r.id, t⟩) m) :
    Sim (Alias.ref k r p >>= f) m := fun w => h w.next ⟨w.mem, _, _⟩
theorem refWord {α : Type} {k : Kind} {i : Nat} {r : Ref} {f : Ref → T α} {m : M α} (h : ∀ t, Sim (f ⟨r.loc, r.id, t⟩) m) :
    Sim (Alias.refWord k i r >>= f) m := fun w => h w.next ⟨w.mem, _, _⟩
theorem raw {α : Type} {k : Kind} {r : Ref} {f : Ref → T α} {m : M α} (h : ∀ t, Sim (f ⟨r.loc, r.id, t⟩) m) :
    Sim (Alias.raw k r >>= f) m := fun w => h w.next ⟨w.mem, _, _⟩
theorem assoc {α β γ : Type} {t : T α} {k : α → T β} {l : β → T γ} {m : M γ} (h : Sim (t >>= fun x => k x >>= l) m) :
    Sim ((t >>= k) >>= l) m := by
  intro w
  have : ((t >>= k) >>= l) w = (t >>= fun x => k x >>= l) w := by
    show (match (match t w with | (.ok x, w) => k x w | (.error e, w) => (.error e, w)) with
      | (.ok x, w) => l x w | (.error e, w) => (.error e, w)) = match t w with
        | (.ok x, w) => (match k x w with | (.ok x, w) => l x w | (.error e, w) => (.error e, w))
        | (.error e, w) => (.error e, w)
    obtain ⟨r, w'⟩ := t w
    cases r <;> rfl
  rw [this]
  exact h w
theorem pureBind {α β : Type} {x : α} {k : α → T β} {m : M β} (h : Sim (k x) m) : Sim ((Pure.pure x : T α) >>= k) m :=
  fun w => h w

theorem returning {α : Type} {rs : List Ref} {t : T α} {m : M α} (h : Sim t m) : Sim (Alias.returning rs t) m :=
  fun w => h w
theorem ite {α : Type} {p : Prop} [Decidable p] {t e : T α} {m n : M α} (h1 : p → Sim t m) (h2 : ¬ p → Sim e n) :
    Sim (if p then t else e) (if p then m else n) := by
  split
  · rename_i h; exact h1 h
  · rename_i h; exact h2 h

theorem withLocal {α : Type} {x : Cell} {k : Ref → T α} {l : Loc → M α} (h : ∀ p i, Sim (k ⟨p, i, owner⟩) (l p)) :
    Sim (Alias.withLocal x k) (M.withLocal x l) := by
  intro w
  obtain ⟨h1, h2⟩ := h w.mem.length w.next ⟨w.mem ++ [x], w.log, w.next + 1⟩
  refine ⟨h1, ?_⟩
  show List.take _ _ = List.take _ _
  rw [h2]

theorem call1 {α : Type} {k : Kind} {r : Ref} {f : Ref → T α} {m : M α} (h : ∀ t, Sim (f ⟨r.loc, r.id, t⟩) m) :
    Sim (Alias.call1 k r f) m := ref fun t => returning (h t)
theorem call2 {α : Type} {k l : Kind} {r s : Ref} {f : Ref → Ref → T α} {m : M α}
    (h : ∀ t u, Sim (f ⟨r.loc, r.id, t⟩ ⟨s.loc, s.id, u⟩) m) : Sim (Alias.call2 k r l s f) m :=
  ref fun t => ref fun u => returning (h t u)
theorem call3 {α : Type} {r a b : Ref} {f : Ref → Ref → Ref → T α} {m : M α}
    (h : ∀ t u v, Sim (f ⟨r.loc, r.id, t⟩ ⟨a.loc, a.id, u⟩ ⟨b.loc, b.id, v⟩) m) : Sim (Alias.call3 r a b f) m :=
  ref fun t => ref fun u => ref fun v => returning (h t u v)
theorem call4_none {α : Type} {r a b : Ref} {f : Ref → Ref → Ref → Option Ref → T α} {m : M α}
    (h : ∀ t u v, Sim (f ⟨r.loc, r.id, t⟩ ⟨a.loc, a.id, u⟩ ⟨b.loc, b.id, v⟩ none) m) : Sim (Alias.call4 r a b none f) m :=
  call3 fun t u v => h t u v
theorem call4_some {α : Type} {r a b n : Ref} {f : Ref → Ref → Ref → Option Ref → T α} {m : M α}
    (h : ∀ t u v x, Sim (f ⟨r.loc, r.id, t⟩ ⟨a.loc, a.id, u⟩ ⟨b.loc, b.id, v⟩ (some ⟨n.loc, n.id, x⟩)) m) :
    Sim (Alias.call4 r a b (some n) f) m := ref fun t => ref fun u => ref fun v => ref fun x => returning (h t u v x)

end Sim

/-- A pointer to the same object -/
theorem castMut_sim {α : Type} {r : Ref} {f : Ref → T α} {m : M α} (h : ∀ t, Sim (f ⟨r.loc, r.id, t⟩) m) :
    Sim (castMut r >>= f) m := .assoc (.raw fun _ => .ref fun t => h t)
theorem castRef_sim {α : Type} {r : Ref} {f : Ref → T α} {m : M α} (h : ∀ t, Sim (f ⟨r.loc, r.id, t⟩) m) :
    Sim (castRef r >>= f) m := .assoc (.raw fun _ => .ref fun t => h t)
theorem castUninit_sim {α : Type} {r : Ref} {f : Ref → T α} {m : M α} (h : ∀ t, Sim (f ⟨r.loc, r.id, t⟩) m) :
    Sim (castUninit r >>= f) m := fun w => h _ ⟨w.mem, _, _⟩
theorem castOpt_none {α : Type} {f : Option Ref → T α} {m : M α} (h : Sim (f none) m) : Sim (castOpt none >>= f) m := h
theorem castOpt_some {α : Type} {r : Ref} {f : Option Ref → T α} {m : M α} (h : ∀ t, Sim (f (some ⟨r.loc, r.id, t⟩)) m) :
    Sim (castOpt (some r) >>= f) m := fun w => h _ ⟨w.mem, _, _⟩

theorem word_sim (i : Nat) (r : Ref) : Sim (word i r) (if i = 0 then M.rd0 r.loc else M.rd1 r.loc) :=
  fun w => Sim.mem _ ⟨w.mem, _, _⟩
theorem setWord_sim (i : Nat) (r : Ref) (v : U128) : Sim (setWord i r v) (if i = 0 then M.wr0 r.loc v else M.wr1 r.loc v) :=
  fun w => Sim.mem _ ⟨w.mem, _, _⟩
theorem low_sim (c : Cfg) (r : Ref) : Sim (low c r) (M.low c r.loc) := by
  unfold low M.low
  cases c.bigEndian <;> exact word_sim _ r
theorem high_sim (c : Cfg) (r : Ref) : Sim (high c r) (M.high c r.loc) := by
  unfold high M.high
  cases c.bigEndian <;> exact word_sim _ r
theorem setLow_sim (c : Cfg) (r : Ref) (v : U128) : Sim (setLow c r v) (M.setLow c r.loc v) := by
  unfold setLow M.setLow
  cases c.bigEndian <;> exact setWord_sim _ r v
theorem setHigh_sim (c : Cfg) (r : Ref) (v : U128) : Sim (setHigh c r v) (M.setHigh c r.loc v) := by
  unfold setHigh M.setHigh
  cases c.bigEndian <;> exact setWord_sim _ r v
theorem rd_sim (r : Ref) : Sim (rd r) (M.rd r.loc) := .note (.mem _)
theorem ird_sim (r : Ref) : Sim (ird r) (M.ird r.loc) := .note (.mem _)
theorem set_sim (r : Ref) (v : Ethnum.U256) : Sim (set r v) (M.wr r.loc v) := .note (.mem _)
theorem iset_sim (r : Ref) (v : Ethnum.I256) : Sim (iset r v) (M.iwr r.loc v) := .note (.mem _)
theorem wr_sim (r : Ref) (v : Ethnum.U256) : Sim (wr r v) (M.wr r.loc v) := .call1 fun _ => set_sim _ v
theorem iwr_sim (r : Ref) (v : Ethnum.I256) : Sim (iwr r v) (M.iwr r.loc v) := .call1 fun _ => iset_sim _ v
theorem iassumeRef_sim (r : Ref) : Sim (iassumeRef r) (M.ird r.loc) := fun w => Sim.mem _ ⟨w.mem, _, _⟩
theorem again_sim {α : Type} {r : Ref} {k : Unit → T α} {m : M α} (h : Sim (k ()) m) : Sim (again r >>= k) m :=
  fun w => h ⟨w.mem, _, _⟩

/-- One step of a proof that two programs agree -/
macro "simStep" : tactic => `(tactic| first
  | with_reducible exact Sim.pure _ | with_reducible exact Sim.lift _ | with_reducible exact low_sim _ _ | with_reducible exact high_sim _ _ | with_reducible exact setLow_sim _ _ _
  | with_reducible exact setHigh_sim _ _ _ | with_reducible exact rd_sim _ | with_reducible exact ird_sim _ | with_reducible exact set_sim _ _ | with_reducible exact iset_sim _ _ | with_reducible exact wr_sim _ _
  | with_reducible exact iwr_sim _ _ | with_reducible exact iassumeRef_sim _ | with_reducible exact Sim.mem _
  | with_reducible refine Sim.call1 fun _ => ?_ | with_reducible refine Sim.call2 fun _ _ => ?_ | with_reducible refine Sim.call3 fun _ _ _ => ?_
  | with_reducible refine Sim.call4_none fun _ _ _ => ?_ | with_reducible refine Sim.call4_some fun _ _ _ _ => ?_
  | with_reducible refine again_sim ?_ | with_reducible refine Sim.note ?_ | with_reducible refine Sim.ref fun _ => ?_ | with_reducible refine Sim.refWord fun _ => ?_
  | with_reducible refine castMut_sim fun _ => ?_ | with_reducible refine castRef_sim fun _ => ?_ | with_reducible refine castUninit_sim fun _ => ?_
  | with_reducible refine castOpt_none ?_ | with_reducible refine castOpt_some fun _ => ?_ | with_reducible refine Sim.withLocal fun _ _ => ?_
  | with_reducible refine Sim.bind ?_ fun _ => ?_ | with_reducible refine Sim.ite (fun _ => ?_) (fun _ => ?_) | split)

namespace Native

theorem add2_sim (c : Cfg) (r a : Ref) : Sim (add2 c r a) (MemNative.add2 c r.loc a.loc) := by
  unfold add2 MemNative.add2
  repeat (simStep)
theorem add3_sim (c : Cfg) (r a b : Ref) : Sim (add3 c r a b) (MemNative.add3 c r.loc a.loc b.loc) := by
  unfold add3 MemNative.add3
  repeat (simStep)
theorem uaddc_sim (c : Cfg) (r a b : Ref) : Sim (uaddc c r a b) (MemNative.uaddc c r.loc a.loc b.loc) := by
  unfold uaddc MemNative.uaddc
  repeat (simStep)
theorem iaddc_sim (c : Cfg) (r a b : Ref) : Sim (iaddc c r a b) (MemNative.iaddc c r.loc a.loc b.loc) := by
  unfold iaddc MemNative.iaddc
  repeat (first | exact add3_sim _ _ _ _ | simStep)
theorem sub2_sim (c : Cfg) (r a : Ref) : Sim (sub2 c r a) (MemNative.sub2 c r.loc a.loc) := by
  unfold sub2 MemNative.sub2
  repeat (simStep)
theorem sub3_sim (c : Cfg) (r a b : Ref) : Sim (sub3 c r a b) (MemNative.sub3 c r.loc a.loc b.loc) := by
  unfold sub3 MemNative.sub3
  repeat (simStep)
theorem usubc_sim (c : Cfg) (r a b : Ref) : Sim (usubc c r a b) (MemNative.usubc c r.loc a.loc b.loc) := by
  unfold usubc MemNative.usubc
  repeat (simStep)
theorem isubc_sim (c : Cfg) (r a b : Ref) : Sim (isubc c r a b) (MemNative.isubc c r.loc a.loc b.loc) := by
  unfold isubc MemNative.isubc
  repeat (first | exact sub3_sim _ _ _ _ | simStep)
theorem mul3_sim (c : Cfg) (r a b : Ref) : Sim (mul3 c r a b) (MemNative.mul3 c r.loc a.loc b.loc) := by
  unfold mul3 MemNative.mul3
  repeat (simStep)
theorem mul2_sim (c : Cfg) (r a : Ref) : Sim (mul2 c r a) (MemNative.mul2 c r.loc a.loc) := by
  unfold mul2 MemNative.mul2
  repeat (first | exact mul3_sim _ _ _ _ | simStep)
theorem umulc_sim (c : Cfg) (r a b : Ref) : Sim (umulc c r a b) (MemNative.umulc c r.loc a.loc b.loc) := by
  unfold umulc MemNative.umulc
  repeat (simStep)
theorem imulc_sim (c : Cfg) (r a b : Ref) : Sim (imulc c r a b) (MemNative.imulc c r.loc a.loc b.loc) := by
  unfold imulc MemNative.imulc
  repeat (first | exact mul3_sim _ _ _ _ | simStep)
theorem shl2_sim (c : Cfg) (r : Ref) (a : U32) : Sim (shl2 c r a) (MemNative.shl2 c r.loc a) := by
  unfold shl2 MemNative.shl2
  repeat simStep
theorem sar2_sim (c : Cfg) (r : Ref) (a : U32) : Sim (sar2 c r a) (MemNative.sar2 c r.loc a) := by
  unfold sar2 MemNative.sar2
  repeat simStep
theorem shr2_sim (c : Cfg) (r : Ref) (a : U32) : Sim (shr2 c r a) (MemNative.shr2 c r.loc a) := by
  unfold shr2 MemNative.shr2
  repeat simStep
theorem shl3_sim (c : Cfg) (r a : Ref) (b : U32) : Sim (shl3 c r a b) (MemNative.shl3 c r.loc a.loc b) := by
  unfold shl3 MemNative.shl3
  repeat simStep
theorem sar3_sim (c : Cfg) (r a : Ref) (b : U32) : Sim (sar3 c r a b) (MemNative.sar3 c r.loc a.loc b) := by
  unfold sar3 MemNative.sar3
  repeat simStep
theorem shr3_sim (c : Cfg) (r a : Ref) (b : U32) : Sim (shr3 c r a b) (MemNative.shr3 c r.loc a.loc b) := by
  unfold shr3 MemNative.shr3
  repeat simStep
theorem rol3_sim (c : Cfg) (r a : Ref) (b : U32) : Sim (rol3 c r a b) (MemNative.rol3 c r.loc a.loc b) := by
  unfold rol3 MemNative.rol3
  repeat simStep
theorem ror3_sim (c : Cfg) (r a : Ref) (b : U32) : Sim (ror3 c r a b) (MemNative.ror3 c r.loc a.loc b) := by
  unfold ror3 MemNative.ror3
  repeat simStep

end Native

namespace Llvm

theorem two_sim (f : Ethnum.U256 → Ethnum.U256 → Ethnum.U256) (r a : Ref) : Sim (two f r a) (MemLlvm.two f r.loc a.loc) := by
  unfold two MemLlvm.two
  repeat simStep
theorem three_sim (f : Ethnum.U256 → Ethnum.U256 → Ethnum.U256) (r a b : Ref) : Sim (three f r a b) (MemLlvm.three f r.loc a.loc b.loc) := by
  unfold three MemLlvm.three
  repeat simStep
theorem carry_sim (f : Ethnum.U256 → Ethnum.U256 → Ethnum.U256 × Bool) (r a b : Ref) : Sim (carry f r a b) (MemLlvm.carry f r.loc a.loc b.loc) := by
  unfold carry MemLlvm.carry
  repeat simStep
theorem icarry_sim (f : Ethnum.I256 → Ethnum.I256 → Ethnum.I256 × Bool) (r a b : Ref) : Sim (icarry f r a b) (MemLlvm.icarry f r.loc a.loc b.loc) := by
  unfold icarry MemLlvm.icarry
  repeat simStep
theorem shift2_sim (f : Ethnum.U256 → U32 → Ethnum.U256) (r : Ref) (n : U32) : Sim (shift2 f r n) (MemLlvm.shift2 f r.loc n) := by
  unfold shift2 MemLlvm.shift2
  repeat simStep
theorem shift3_sim (f : Ethnum.U256 → U32 → Ethnum.U256) (r a : Ref) (n : U32) : Sim (shift3 f r a n) (MemLlvm.shift3 f r.loc a.loc n) := by
  unfold shift3 MemLlvm.shift3
  repeat simStep
theorem ishift2_sim (f : Ethnum.I256 → U32 → Ethnum.I256) (r : Ref) (n : U32) : Sim (ishift2 f r n) (MemLlvm.ishift2 f r.loc n) := by
  unfold ishift2 MemLlvm.ishift2
  repeat simStep
theorem ishift3_sim (f : Ethnum.I256 → U32 → Ethnum.I256) (r a : Ref) (n : U32) : Sim (ishift3 f r a n) (MemLlvm.ishift3 f r.loc a.loc n) := by
  unfold ishift3 MemLlvm.ishift3
  repeat simStep

end Llvm

namespace Intr

theorem add2_sim (c : Cfg) (r a : Ref) : Sim (add2 c r a) (MemIntr.add2 c r.loc a.loc) :=
  .ite (fun _ => Llvm.two_sim _ _ _) (fun _ => Native.add2_sim c _ _)
theorem add3_sim (c : Cfg) (r a b : Ref) : Sim (add3 c r a b) (MemIntr.add3 c r.loc a.loc b.loc) :=
  .ite (fun _ => Llvm.three_sim _ _ _ _) (fun _ => Native.add3_sim c _ _ _)
theorem uaddc_sim (c : Cfg) (r a b : Ref) : Sim (uaddc c r a b) (MemIntr.uaddc c r.loc a.loc b.loc) :=
  .ite (fun _ => Llvm.carry_sim _ _ _ _) (fun _ => Native.uaddc_sim c _ _ _)
theorem iaddc_sim (c : Cfg) (r a b : Ref) : Sim (iaddc c r a b) (MemIntr.iaddc c r.loc a.loc b.loc) :=
  .ite (fun _ => Llvm.icarry_sim _ _ _ _) (fun _ => Native.iaddc_sim c _ _ _)
theorem sub2_sim (c : Cfg) (r a : Ref) : Sim (sub2 c r a) (MemIntr.sub2 c r.loc a.loc) :=
  .ite (fun _ => Llvm.two_sim _ _ _) (fun _ => Native.sub2_sim c _ _)
theorem sub3_sim (c : Cfg) (r a b : Ref) : Sim (sub3 c r a b) (MemIntr.sub3 c r.loc a.loc b.loc) :=
  .ite (fun _ => Llvm.three_sim _ _ _ _) (fun _ => Native.sub3_sim c _ _ _)
theorem usubc_sim (c : Cfg) (r a b : Ref) : Sim (usubc c r a b) (MemIntr.usubc c r.loc a.loc b.loc) :=
  .ite (fun _ => Llvm.carry_sim _ _ _ _) (fun _ => Native.usubc_sim c _ _ _)
theorem isubc_sim (c : Cfg) (r a b : Ref) : Sim (isubc c r a b) (MemIntr.isubc c r.loc a.loc b.loc) :=
  .ite (fun _ => Llvm.icarry_sim _ _ _ _) (fun _ => Native.isubc_sim c _ _ _)
theorem mul2_sim (c : Cfg) (r a : Ref) : Sim (mul2 c r a) (MemIntr.mul2 c r.loc a.loc) :=
  .ite (fun _ => Llvm.two_sim _ _ _) (fun _ => Native.mul2_sim c _ _)
theorem mul3_sim (c : Cfg) (r a b : Ref) : Sim (mul3 c r a b) (MemIntr.mul3 c r.loc a.loc b.loc) :=
  .ite (fun _ => Llvm.three_sim _ _ _ _) (fun _ => Native.mul3_sim c _ _ _)
theorem umulc_sim (c : Cfg) (r a b : Ref) : Sim (umulc c r a b) (MemIntr.umulc c r.loc a.loc b.loc) :=
  .ite (fun _ => Llvm.carry_sim _ _ _ _) (fun _ => Native.umulc_sim c _ _ _)
theorem shl2_sim (c : Cfg) (r : Ref) (n : U32) : Sim (shl2 c r n) (MemIntr.shl2 c r.loc n) :=
  .ite (fun _ => Llvm.shift2_sim _ _ n) (fun _ => Native.shl2_sim c _ n)
theorem shl3_sim (c : Cfg) (r a : Ref) (n : U32) : Sim (shl3 c r a n) (MemIntr.shl3 c r.loc a.loc n) :=
  .ite (fun _ => Llvm.shift3_sim _ _ _ n) (fun _ => Native.shl3_sim c _ _ n)
theorem sar2_sim (c : Cfg) (r : Ref) (n : U32) : Sim (sar2 c r n) (MemIntr.sar2 c r.loc n) :=
  .ite (fun _ => Llvm.ishift2_sim _ _ n) (fun _ => Native.sar2_sim c _ n)
theorem sar3_sim (c : Cfg) (r a : Ref) (n : U32) : Sim (sar3 c r a n) (MemIntr.sar3 c r.loc a.loc n) :=
  .ite (fun _ => Llvm.ishift3_sim _ _ _ n) (fun _ => Native.sar3_sim c _ _ n)
theorem shr2_sim (c : Cfg) (r : Ref) (n : U32) : Sim (shr2 c r n) (MemIntr.shr2 c r.loc n) :=
  .ite (fun _ => Llvm.shift2_sim _ _ n) (fun _ => Native.shr2_sim c _ n)
theorem shr3_sim (c : Cfg) (r a : Ref) (n : U32) : Sim (shr3 c r a n) (MemIntr.shr3 c r.loc a.loc n) :=
  .ite (fun _ => Llvm.shift3_sim _ _ _ n) (fun _ => Native.shr3_sim c _ _ n)
theorem rol3_sim (c : Cfg) (r a : Ref) (n : U32) : Sim (rol3 c r a n) (MemIntr.rol3 c r.loc a.loc n) :=
  .ite (fun _ => Llvm.shift3_sim _ _ _ n) (fun _ => Native.rol3_sim c _ _ n)
theorem ror3_sim (c : Cfg) (r a : Ref) (n : U32) : Sim (ror3 c r a n) (MemIntr.ror3 c r.loc a.loc n) :=
  .ite (fun _ => Llvm.shift3_sim _ _ _ n) (fun _ => Native.ror3_sim c _ _ n)

theorem udivmod4_sim (c : Cfg) (r a b : Ref) (m : Option Ref) :
    Sim (udivmod4 c r a b m) (MemIntr.udivmod4 c r.loc a.loc b.loc (m.map (·.loc))) := by
  unfold udivmod4 MemIntr.udivmod4
  cases m <;> dsimp only [Option.map] <;> repeat simStep
theorem udivmod4_none (c : Cfg) (r a b : Ref) : Sim (udivmod4 c r a b none) (MemIntr.udivmod4 c r.loc a.loc b.loc none) :=
  udivmod4_sim c r a b none
theorem udivmod4_some (c : Cfg) (r a b m : Ref) :
    Sim (udivmod4 c r a b (some m)) (MemIntr.udivmod4 c r.loc a.loc b.loc (some m.loc)) := udivmod4_sim c r a b (some m)
theorem udiv2_sim (c : Cfg) (r a : Ref) : Sim (udiv2 c r a) (MemIntr.udiv2 c r.loc a.loc) := by
  unfold udiv2 MemIntr.udiv2
  repeat (first | with_reducible exact udivmod4_none _ _ _ _ | simStep)
theorem udiv3_sim (c : Cfg) (r a b : Ref) : Sim (udiv3 c r a b) (MemIntr.udiv3 c r.loc a.loc b.loc) := by
  unfold udiv3 MemIntr.udiv3
  repeat (first | with_reducible exact udivmod4_none _ _ _ _ | simStep)
theorem urem2_sim (c : Cfg) (r a : Ref) : Sim (urem2 c r a) (MemIntr.urem2 c r.loc a.loc) := by
  unfold urem2 MemIntr.urem2
  repeat (first | with_reducible exact udivmod4_some _ _ _ _ _ | simStep)
theorem urem3_sim (c : Cfg) (r a b : Ref) : Sim (urem3 c r a b) (MemIntr.urem3 c r.loc a.loc b.loc) := by
  unfold urem3 MemIntr.urem3
  repeat (first | with_reducible exact udivmod4_some _ _ _ _ _ | simStep)
theorem idivmodSigns_sim (c : Cfg) (r : Ref) (m : Option Ref) (x y : Ethnum.I256) (a b : Ref) :
    Sim (idivmodSigns c r m x y a b) (MemIntr.idivmodSigns c r.loc (m.map (·.loc)) x y a.loc b.loc) := by
  unfold idivmodSigns MemIntr.idivmodSigns
  cases m <;> dsimp only [Option.map] <;>
    repeat (first | with_reducible exact udivmod4_none _ _ _ _ | with_reducible exact udivmod4_some _ _ _ _ _ | simStep)
theorem idivmodSigns_none (c : Cfg) (r : Ref) (x y : Ethnum.I256) (a b : Ref) :
    Sim (idivmodSigns c r none x y a b) (MemIntr.idivmodSigns c r.loc none x y a.loc b.loc) := idivmodSigns_sim c r none x y a b
theorem idivmodSigns_some (c : Cfg) (r m : Ref) (x y : Ethnum.I256) (a b : Ref) :
    Sim (idivmodSigns c r (some m) x y a b) (MemIntr.idivmodSigns c r.loc (some m.loc) x y a.loc b.loc) :=
  idivmodSigns_sim c r (some m) x y a b
theorem idivmod4_sim (c : Cfg) (r a b : Ref) (m : Option Ref) :
    Sim (idivmod4 c r a b m) (MemIntr.idivmod4 c r.loc a.loc b.loc (m.map (·.loc))) := by
  unfold idivmod4 MemIntr.idivmod4
  cases m <;> dsimp only [Option.map] <;>
    repeat (first | with_reducible exact idivmodSigns_none _ _ _ _ _ _ | with_reducible exact idivmodSigns_some _ _ _ _ _ _ _ | simStep)
theorem idivmod4_none (c : Cfg) (r a b : Ref) : Sim (idivmod4 c r a b none) (MemIntr.idivmod4 c r.loc a.loc b.loc none) :=
  idivmod4_sim c r a b none
theorem idivmod4_some (c : Cfg) (r a b m : Ref) :
    Sim (idivmod4 c r a b (some m)) (MemIntr.idivmod4 c r.loc a.loc b.loc (some m.loc)) := idivmod4_sim c r a b (some m)
theorem idiv2_sim (c : Cfg) (r a : Ref) : Sim (idiv2 c r a) (MemIntr.idiv2 c r.loc a.loc) := by
  unfold idiv2 MemIntr.idiv2
  repeat (first | with_reducible exact idivmod4_none _ _ _ _ | simStep)
theorem idiv3_sim (c : Cfg) (r a b : Ref) : Sim (idiv3 c r a b) (MemIntr.idiv3 c r.loc a.loc b.loc) := by
  unfold idiv3 MemIntr.idiv3
  repeat (first | with_reducible exact idivmod4_none _ _ _ _ | simStep)
theorem irem2_sim (c : Cfg) (r a : Ref) : Sim (irem2 c r a) (MemIntr.irem2 c r.loc a.loc) := by
  unfold irem2 MemIntr.irem2
  repeat (first | with_reducible exact idivmod4_some _ _ _ _ _ | simStep)
theorem irem3_sim (c : Cfg) (r a b : Ref) : Sim (irem3 c r a b) (MemIntr.irem3 c r.loc a.loc b.loc) := by
  unfold irem3 MemIntr.irem3
  repeat (first | with_reducible exact idivmod4_some _ _ _ _ _ | simStep)

end Intr

theorem signed2_sim {op : Ref → Ref → T Unit} {mop : Loc → Loc → M Unit} (h : ∀ r a, Sim (op r a) (mop r.loc a.loc)) (r a : Ref) :
    Sim (Intr.signed2 op r a) (mop r.loc a.loc) := by
  unfold Intr.signed2
  repeat (first | with_reducible exact h _ _ | simStep)
theorem signed3_sim {op : Ref → Ref → Ref → T Unit} {mop : Loc → Loc → Loc → M Unit}
    (h : ∀ r a b, Sim (op r a b) (mop r.loc a.loc b.loc)) (r a b : Ref) : Sim (Intr.signed3 op r a b) (mop r.loc a.loc b.loc) := by
  unfold Intr.signed3
  repeat (first | with_reducible exact h _ _ _ | simStep)
theorem ishl2_sim (c : Cfg) (r : Ref) (n : U32) : Sim (Intr.ishl2 c r n) (MemIntr.ishl2 c r.loc n) := by
  unfold Intr.ishl2 MemIntr.ishl2
  repeat (first | with_reducible exact Intr.shl2_sim _ _ _ | simStep)
theorem signedShift3_sim {op : Ref → Ref → U32 → T Unit} {mop : Loc → Loc → U32 → M Unit}
    (h : ∀ r a n, Sim (op r a n) (mop r.loc a.loc n)) (r a : Ref) (n : U32) :
    Sim (Intr.signedShift3 op r a n) (mop r.loc a.loc n) := by
  unfold Intr.signedShift3
  repeat (first | with_reducible exact h _ _ _ | simStep)

namespace Ops

theorem binop_sim {R : Type} {c : Cfg} {rdT : Ref → T R} {mrd : Loc → M R} {op3 : Ref → Ref → Ref → T Unit}
    {mop3 : Loc → Loc → Loc → M Unit} {opc : Ref → Ref → Ref → T Bool} {mopc : Loc → Loc → Loc → M Bool} {p : Panic}
    (h : ∀ r, Sim (rdT r) (mrd r.loc)) (h3 : ∀ r a b, Sim (op3 r a b) (mop3 r.loc a.loc b.loc))
    (hc : ∀ r a b, Sim (opc r a b) (mopc r.loc a.loc b.loc)) (a b : Ref) :
    Sim (binop c rdT op3 opc p a b) (MemOps.binop c mrd mop3 mopc p a.loc b.loc) := by
  unfold binop MemOps.binop
  repeat (first | with_reducible exact h _ | with_reducible exact h3 _ _ _ | with_reducible exact hc _ _ _ | simStep)
theorem divmod_sim {R : Type} {rdT : Ref → T R} {mrd : Loc → M R} {z : R → Bool} {op3 : Ref → Ref → Ref → T Unit}
    {mop3 : Loc → Loc → Loc → M Unit} {p : Panic} (h : ∀ r, Sim (rdT r) (mrd r.loc))
    (h3 : ∀ r a b, Sim (op3 r a b) (mop3 r.loc a.loc b.loc)) (a b : Ref) :
    Sim (divmod rdT z op3 p a b) (MemOps.divmod mrd z mop3 p a.loc b.loc) := by
  unfold divmod MemOps.divmod
  repeat (first | with_reducible exact h _ | with_reducible exact h3 _ _ _ | simStep)
theorem shift_sim {R : Type} {c : Cfg} {rdT : Ref → T R} {mrd : Loc → M R} {op3 : Ref → Ref → U32 → T Unit}
    {mop3 : Loc → Loc → U32 → M Unit} {p : Panic} (h : ∀ r, Sim (rdT r) (mrd r.loc))
    (h3 : ∀ r a n, Sim (op3 r a n) (mop3 r.loc a.loc n)) (a : Ref) (n : U32) :
    Sim (shift c rdT op3 p a n) (MemOps.shift c mrd mop3 p a.loc n) := by
  unfold shift MemOps.shift
  repeat (first | with_reducible exact h _ | with_reducible exact h3 _ _ _ | simStep)
theorem assign_sim {R : Type} {c : Cfg} {setT : Ref → R → T Unit} {mset : Loc → R → M Unit} {op : Ref → Ref → T R}
    {mop : Loc → Loc → M R} {op2 : Ref → Ref → T Unit} {mop2 : Loc → Loc → M Unit} (h : ∀ r v, Sim (setT r v) (mset r.loc v))
    (ho : ∀ a b, Sim (op a b) (mop a.loc b.loc)) (h2 : ∀ a b, Sim (op2 a b) (mop2 a.loc b.loc)) (a b : Ref) :
    Sim (assign c setT op op2 a b) (MemOps.assign c mset (mop a.loc b.loc) (mop2 a.loc b.loc) a.loc) := by
  unfold assign MemOps.assign
  repeat (first | with_reducible exact h _ _ | with_reducible exact ho _ _ | with_reducible exact h2 _ _ | simStep)
theorem shiftAssign_sim {R : Type} {c : Cfg} {setT : Ref → R → T Unit} {mset : Loc → R → M Unit} {op : Ref → U32 → T R}
    {mop : Loc → U32 → M R} {op2 : Ref → U32 → T Unit} {mop2 : Loc → U32 → M Unit} (h : ∀ r v, Sim (setT r v) (mset r.loc v))
    (ho : ∀ a n, Sim (op a n) (mop a.loc n)) (h2 : ∀ a n, Sim (op2 a n) (mop2 a.loc n)) (a : Ref) (n : U32) :
    Sim (shiftAssign c setT op op2 a n) (MemOps.assign c mset (mop a.loc n) (mop2 a.loc n) a.loc) := by
  unfold shiftAssign MemOps.assign
  repeat (first | with_reducible exact h _ _ | with_reducible exact ho _ _ | with_reducible exact h2 _ _ | simStep)
theorem bitwise_sim (op : U128 → U128 → U128) (a b : Ref) : Sim (bitwise op a b) (MemOps.bitwise op a.loc b.loc) := by
  unfold bitwise MemOps.bitwise
  repeat simStep

end Ops
open Ops

namespace U256

theorem add_sim (c : Cfg) (a b : Ref) : Sim (add c a b) (Ethnum.U256.addM c a.loc b.loc) :=
  binop_sim rd_sim (Intr.add3_sim c) (Intr.uaddc_sim c) a b
theorem add_assign_sim (c : Cfg) (a b : Ref) : Sim (add_assign c a b) (Ethnum.U256.add_assignM c a.loc b.loc) :=
  assign_sim set_sim (add_sim c) (Intr.add2_sim c) a b
theorem sub_sim (c : Cfg) (a b : Ref) : Sim (sub c a b) (Ethnum.U256.subM c a.loc b.loc) :=
  binop_sim rd_sim (Intr.sub3_sim c) (Intr.usubc_sim c) a b
theorem sub_assign_sim (c : Cfg) (a b : Ref) : Sim (sub_assign c a b) (Ethnum.U256.sub_assignM c a.loc b.loc) :=
  assign_sim set_sim (sub_sim c) (Intr.sub2_sim c) a b
theorem mul_sim (c : Cfg) (a b : Ref) : Sim (mul c a b) (Ethnum.U256.mulM c a.loc b.loc) :=
  binop_sim rd_sim (Intr.mul3_sim c) (Intr.umulc_sim c) a b
theorem mul_assign_sim (c : Cfg) (a b : Ref) : Sim (mul_assign c a b) (Ethnum.U256.mul_assignM c a.loc b.loc) :=
  assign_sim set_sim (mul_sim c) (Intr.mul2_sim c) a b
theorem div_sim (c : Cfg) (a b : Ref) : Sim (div c a b) (Ethnum.U256.divM c a.loc b.loc) :=
  divmod_sim rd_sim (Intr.udiv3_sim c) a b
theorem div_assign_sim (c : Cfg) (a b : Ref) : Sim (div_assign c a b) (Ethnum.U256.div_assignM c a.loc b.loc) :=
  assign_sim set_sim (div_sim c) (Intr.udiv2_sim c) a b
theorem rem_sim (c : Cfg) (a b : Ref) : Sim (rem c a b) (Ethnum.U256.remM c a.loc b.loc) :=
  divmod_sim rd_sim (Intr.urem3_sim c) a b
theorem rem_assign_sim (c : Cfg) (a b : Ref) : Sim (rem_assign c a b) (Ethnum.U256.rem_assignM c a.loc b.loc) :=
  assign_sim set_sim (rem_sim c) (Intr.urem2_sim c) a b
theorem shl_sim (c : Cfg) (a : Ref) (n : U32) : Sim (shl c a n) (Ethnum.U256.shlM c a.loc n) :=
  shift_sim rd_sim (Intr.shl3_sim c) a n
theorem shl_assign_sim (c : Cfg) (a : Ref) (n : U32) : Sim (shl_assign c a n) (Ethnum.U256.shl_assignM c a.loc n) :=
  shiftAssign_sim set_sim (shl_sim c) (Intr.shl2_sim c) a n
theorem shr_sim (c : Cfg) (a : Ref) (n : U32) : Sim (shr c a n) (Ethnum.U256.shrM c a.loc n) :=
  shift_sim rd_sim (Intr.shr3_sim c) a n
theorem shr_assign_sim (c : Cfg) (a : Ref) (n : U32) : Sim (shr_assign c a n) (Ethnum.U256.shr_assignM c a.loc n) :=
  shiftAssign_sim set_sim (shr_sim c) (Intr.shr2_sim c) a n
theorem bitand_assign_sim (a b : Ref) : Sim (bitand_assign a b) (Ethnum.U256.bitand_assignM a.loc b.loc) := bitwise_sim _ a b
theorem bitor_assign_sim (a b : Ref) : Sim (bitor_assign a b) (Ethnum.U256.bitor_assignM a.loc b.loc) := bitwise_sim _ a b
theorem bitxor_assign_sim (a b : Ref) : Sim (bitxor_assign a b) (Ethnum.U256.bitxor_assignM a.loc b.loc) := bitwise_sim _ a b

end U256

namespace I256

theorem add_sim (c : Cfg) (a b : Ref) : Sim (add c a b) (Ethnum.I256.addM c a.loc b.loc) :=
  binop_sim ird_sim (signed3_sim (Intr.add3_sim c)) (Intr.iaddc_sim c) a b
theorem add_assign_sim (c : Cfg) (a b : Ref) : Sim (add_assign c a b) (Ethnum.I256.add_assignM c a.loc b.loc) :=
  assign_sim iset_sim (add_sim c) (signed2_sim (Intr.add2_sim c)) a b
theorem sub_sim (c : Cfg) (a b : Ref) : Sim (sub c a b) (Ethnum.I256.subM c a.loc b.loc) :=
  binop_sim ird_sim (signed3_sim (Intr.sub3_sim c)) (Intr.isubc_sim c) a b
theorem sub_assign_sim (c : Cfg) (a b : Ref) : Sim (sub_assign c a b) (Ethnum.I256.sub_assignM c a.loc b.loc) :=
  assign_sim iset_sim (sub_sim c) (signed2_sim (Intr.sub2_sim c)) a b
theorem mul_sim (c : Cfg) (a b : Ref) : Sim (mul c a b) (Ethnum.I256.mulM c a.loc b.loc) :=
  binop_sim ird_sim (signed3_sim (Intr.mul3_sim c)) (Native.imulc_sim c) a b
theorem mul_assign_sim (c : Cfg) (a b : Ref) : Sim (mul_assign c a b) (Ethnum.I256.mul_assignM c a.loc b.loc) :=
  assign_sim iset_sim (mul_sim c) (signed2_sim (Intr.mul2_sim c)) a b
theorem div_sim (c : Cfg) (a b : Ref) : Sim (div c a b) (Ethnum.I256.divM c a.loc b.loc) :=
  divmod_sim ird_sim (Intr.idiv3_sim c) a b
theorem div_assign_sim (c : Cfg) (a b : Ref) : Sim (div_assign c a b) (Ethnum.I256.div_assignM c a.loc b.loc) :=
  assign_sim iset_sim (div_sim c) (Intr.idiv2_sim c) a b
theorem rem_sim (c : Cfg) (a b : Ref) : Sim (rem c a b) (Ethnum.I256.remM c a.loc b.loc) :=
  divmod_sim ird_sim (Intr.irem3_sim c) a b
theorem rem_assign_sim (c : Cfg) (a b : Ref) : Sim (rem_assign c a b) (Ethnum.I256.rem_assignM c a.loc b.loc) :=
  assign_sim iset_sim (rem_sim c) (Intr.irem2_sim c) a b
theorem shl_sim (c : Cfg) (a : Ref) (n : U32) : Sim (shl c a n) (Ethnum.I256.shlM c a.loc n) :=
  shift_sim ird_sim (signedShift3_sim (Intr.shl3_sim c)) a n
theorem shl_assign_sim (c : Cfg) (a : Ref) (n : U32) : Sim (shl_assign c a n) (Ethnum.I256.shl_assignM c a.loc n) :=
  shiftAssign_sim iset_sim (shl_sim c) (ishl2_sim c) a n
theorem shr_sim (c : Cfg) (a : Ref) (n : U32) : Sim (shr c a n) (Ethnum.I256.shrM c a.loc n) :=
  shift_sim ird_sim (Intr.sar3_sim c) a n
theorem shr_assign_sim (c : Cfg) (a : Ref) (n : U32) : Sim (shr_assign c a n) (Ethnum.I256.shr_assignM c a.loc n) :=
  shiftAssign_sim iset_sim (shr_sim c) (Intr.sar2_sim c) a n
theorem bitand_assign_sim (a b : Ref) : Sim (bitand_assign a b) (Ethnum.I256.bitand_assignM a.loc b.loc) := bitwise_sim _ a b
theorem bitor_assign_sim (a b : Ref) : Sim (bitor_assign a b) (Ethnum.I256.bitor_assignM a.loc b.loc) := bitwise_sim _ a b
theorem bitxor_assign_sim (a b : Ref) : Sim (bitxor_assign a b) (Ethnum.I256.bitxor_assignM a.loc b.loc) := bitwise_sim _ a b

end I256

theorem out2_sim {R : Type} {rdT : Ref → T R} {mrd : Loc → M R} {op : Ref → Ref → Ref → Option Ref → T Unit}
    {mop : Loc → Loc → Loc → Option Loc → M Unit} (h : ∀ r, Sim (rdT r) (mrd r.loc))
    (h4 : ∀ r a b m, Sim (op r a b (some m)) (mop r.loc a.loc b.loc (some m.loc))) (a b : Ref) :
    Sim (out2 rdT op a b) (MemOps.out2 mrd fun q r => mop q a.loc b.loc r) := by
  unfold out2 MemOps.out2
  repeat (first | with_reducible exact h _ | with_reducible exact h4 _ _ _ _ | simStep)
theorem out_sim {R : Type} {rdT : Ref → T R} {mrd : Loc → M R} {op : Ref → Ref → Ref → T Unit} {mop : Loc → Loc → Loc → M Unit}
    (h : ∀ r, Sim (rdT r) (mrd r.loc)) (h3 : ∀ r a b, Sim (op r a b) (mop r.loc a.loc b.loc)) (a b : Ref) :
    Sim (out rdT op a b) (MemOps.out mrd fun r => mop r a.loc b.loc) := by
  unfold out MemOps.out
  repeat (first | with_reducible exact h _ | with_reducible exact h3 _ _ _ | simStep)
theorem outc_sim {R : Type} {rdT : Ref → T R} {mrd : Loc → M R} {op : Ref → Ref → Ref → T Bool} {mop : Loc → Loc → Loc → M Bool}
    (h : ∀ r, Sim (rdT r) (mrd r.loc)) (h3 : ∀ r a b, Sim (op r a b) (mop r.loc a.loc b.loc)) (a b : Ref) :
    Sim (outc rdT op a b) (MemOps.outc mrd fun r => mop r a.loc b.loc) := by
  unfold outc MemOps.outc
  repeat (first | with_reducible exact h _ | with_reducible exact h3 _ _ _ | simStep)
theorem outShift_sim {R : Type} {rdT : Ref → T R} {mrd : Loc → M R} {op : Ref → Ref → U32 → T Unit} {mop : Loc → Loc → U32 → M Unit}
    (h : ∀ r, Sim (rdT r) (mrd r.loc)) (h3 : ∀ r a n, Sim (op r a n) (mop r.loc a.loc n)) (a : Ref) (n : U32) :
    Sim (outShift rdT op a n) (MemOps.out mrd fun r => mop r a.loc n) := by
  unfold outShift MemOps.out
  repeat (first | with_reducible exact h _ | with_reducible exact h3 _ _ _ | simStep)
theorem U256.wrapping_add_sim (c : Cfg) (a b : Ref) : Sim (U256.wrapping_add c a b) (Ethnum.U256.wrapping_addM c a.loc b.loc) :=
  out_sim rd_sim (Intr.add3_sim c) a b
theorem U256.overflowing_add_sim (c : Cfg) (a b : Ref) :
    Sim (U256.overflowing_add c a b) (Ethnum.U256.overflowing_addM c a.loc b.loc) :=
  outc_sim rd_sim (Intr.uaddc_sim c) a b
theorem U256.wrapping_sub_sim (c : Cfg) (a b : Ref) : Sim (U256.wrapping_sub c a b) (Ethnum.U256.wrapping_subM c a.loc b.loc) :=
  out_sim rd_sim (Intr.sub3_sim c) a b
theorem U256.overflowing_sub_sim (c : Cfg) (a b : Ref) :
    Sim (U256.overflowing_sub c a b) (Ethnum.U256.overflowing_subM c a.loc b.loc) :=
  outc_sim rd_sim (Intr.usubc_sim c) a b
theorem U256.wrapping_mul_sim (c : Cfg) (a b : Ref) : Sim (U256.wrapping_mul c a b) (Ethnum.U256.wrapping_mulM c a.loc b.loc) :=
  out_sim rd_sim (Intr.mul3_sim c) a b
theorem U256.overflowing_mul_sim (c : Cfg) (a b : Ref) :
    Sim (U256.overflowing_mul c a b) (Ethnum.U256.overflowing_mulM c a.loc b.loc) :=
  outc_sim rd_sim (Intr.umulc_sim c) a b
theorem U256.wrapping_shl_sim (c : Cfg) (a : Ref) (n : U32) : Sim (U256.wrapping_shl c a n) (Ethnum.U256.wrapping_shlM c a.loc n) :=
  outShift_sim rd_sim (Intr.shl3_sim c) a (n &&& 0xff)
theorem U256.wrapping_shr_sim (c : Cfg) (a : Ref) (n : U32) : Sim (U256.wrapping_shr c a n) (Ethnum.U256.wrapping_shrM c a.loc n) :=
  outShift_sim rd_sim (Intr.shr3_sim c) a (n &&& 0xff)
theorem U256.rotate_left_sim (c : Cfg) (a : Ref) (n : U32) : Sim (U256.rotate_left c a n) (Ethnum.U256.rotate_leftM c a.loc n) :=
  outShift_sim rd_sim (Intr.rol3_sim c) a n
theorem U256.rotate_right_sim (c : Cfg) (a : Ref) (n : U32) : Sim (U256.rotate_right c a n) (Ethnum.U256.rotate_rightM c a.loc n) :=
  outShift_sim rd_sim (Intr.ror3_sim c) a n
theorem I256.wrapping_add_sim (c : Cfg) (a b : Ref) : Sim (I256.wrapping_add c a b) (Ethnum.I256.wrapping_addM c a.loc b.loc) :=
  out_sim ird_sim (signed3_sim (Intr.add3_sim c)) a b
theorem I256.overflowing_add_sim (c : Cfg) (a b : Ref) :
    Sim (I256.overflowing_add c a b) (Ethnum.I256.overflowing_addM c a.loc b.loc) :=
  outc_sim ird_sim (Intr.iaddc_sim c) a b
theorem I256.wrapping_sub_sim (c : Cfg) (a b : Ref) : Sim (I256.wrapping_sub c a b) (Ethnum.I256.wrapping_subM c a.loc b.loc) :=
  out_sim ird_sim (signed3_sim (Intr.sub3_sim c)) a b
theorem I256.overflowing_sub_sim (c : Cfg) (a b : Ref) :
    Sim (I256.overflowing_sub c a b) (Ethnum.I256.overflowing_subM c a.loc b.loc) :=
  outc_sim ird_sim (Intr.isubc_sim c) a b
theorem I256.wrapping_mul_sim (c : Cfg) (a b : Ref) : Sim (I256.wrapping_mul c a b) (Ethnum.I256.wrapping_mulM c a.loc b.loc) :=
  out_sim ird_sim (signed3_sim (Intr.mul3_sim c)) a b
theorem I256.overflowing_mul_sim (c : Cfg) (a b : Ref) :
    Sim (I256.overflowing_mul c a b) (Ethnum.I256.overflowing_mulM c a.loc b.loc) :=
  outc_sim ird_sim (Native.imulc_sim c) a b
theorem I256.wrapping_shl_sim (c : Cfg) (a : Ref) (n : U32) : Sim (I256.wrapping_shl c a n) (Ethnum.I256.wrapping_shlM c a.loc n) :=
  outShift_sim ird_sim (signedShift3_sim (Intr.shl3_sim c)) a (n &&& 0xff)
theorem I256.wrapping_shr_sim (c : Cfg) (a : Ref) (n : U32) : Sim (I256.wrapping_shr c a n) (Ethnum.I256.wrapping_shrM c a.loc n) :=
  outShift_sim ird_sim (Intr.sar3_sim c) a (n &&& 0xff)
theorem I256.rotate_left_sim (c : Cfg) (a : Ref) (n : U32) : Sim (I256.rotate_left c a n) (Ethnum.I256.rotate_leftM c a.loc n) :=
  outShift_sim ird_sim (signedShift3_sim (Intr.rol3_sim c)) a n
theorem I256.rotate_right_sim (c : Cfg) (a : Ref) (n : U32) : Sim (I256.rotate_right c a n) (Ethnum.I256.rotate_rightM c a.loc n) :=
  outShift_sim ird_sim (signedShift3_sim (Intr.ror3_sim c)) a n
theorem U256.div_rem_sim (c : Cfg) (a b : Ref) : Sim (U256.div_rem c a b) (Ethnum.U256.div_remM c a.loc b.loc) := by
  unfold U256.div_rem Ethnum.U256.div_remM
  repeat (first | with_reducible exact out2_sim rd_sim (Intr.udivmod4_some c) _ _ | simStep)
theorem I256.wrapping_div_rem_sim (c : Cfg) (a b : Ref) :
    Sim (I256.wrapping_div_rem c a b) (Ethnum.I256.wrapping_div_remM c a.loc b.loc) := by
  unfold I256.wrapping_div_rem Ethnum.I256.wrapping_div_remM
  repeat (first | with_reducible exact out2_sim ird_sim (Intr.idivmod4_some c) _ _ | simStep)

end Ethnum.Alias
