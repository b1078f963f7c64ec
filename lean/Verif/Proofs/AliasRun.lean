import Verif.Proofs.Alias

/-
Lemmas for C69: running the programs symbolically. The log of each operator
and method, on every path that it can take, passes the check (Proofs/AliasOps.lean and on): the programs are run
symbolically: the conditions they branch on are split first, and what they log does not depend on anything else.
-/

namespace Ethnum.Alias
open Borrow Borrow.Event

theorem bind_run {α β : Type} (m : T α) (k : α → T β) (w : World) : (m >>= k) w = match m w with
    | (.ok x, w) => k x w
    | (.error e, w) => (.error e, w) := rfl
theorem pure_run {α : Type} (x : α) (w : World) : (pure x : T α) w = (.ok x, w) := rfl
theorem lift_run {α : Type} (r : Res α) (w : World) : lift r w = (r, w) := rfl
theorem note_run (r : Ref) (e : Event) (m : Mem) (l : List (Nat × Event)) (n : Nat) :
    note r e ⟨m, l, n⟩ = (.ok (), ⟨m, (r.id, e) :: l, n⟩) := rfl
theorem ref_run (k : Kind) (r : Ref) (p : Bool) (m : Mem) (l : List (Nat × Event)) (n : Nat) :
    ref k r p ⟨m, l, n⟩ = (.ok ⟨r.loc, r.id, n⟩, ⟨m, (r.id, .ref k r.tag n 0 32 p) :: l, n + 1⟩) := rfl
theorem refWord_run (k : Kind) (i : Nat) (r : Ref) (m : Mem) (l : List (Nat × Event)) (n : Nat) :
    refWord k i r ⟨m, l, n⟩ = (.ok ⟨r.loc, r.id, n⟩, ⟨m, (r.id, .ref k r.tag n (16 * i) 16 false) :: l, n + 1⟩) := rfl
theorem raw_run (k : Kind) (r : Ref) (m : Mem) (l : List (Nat × Event)) (n : Nat) :
    raw k r ⟨m, l, n⟩ = (.ok ⟨r.loc, r.id, n⟩, ⟨m, (r.id, .raw k r.tag n 0 32) :: l, n + 1⟩) := rfl
theorem returning_run {α : Type} (rs : List Ref) (t : T α) (w : World) : returning rs t w = match t w with
  | (x, w) => (x, { w with log := (rs.map fun r => (r.id, .ret [r.tag])) ++ w.log }) := rfl
theorem mem_run {α : Type} (t : M α) (m : Mem) (l : List (Nat × Event)) (n : Nat) :
    mem t ⟨m, l, n⟩ = match t m with | (r, s) => (r, ⟨s, l, n⟩) := rfl
theorem withLocal_run {α : Type} (x : Cell) (k : Ref → T α) (m : Mem) (l : List (Nat × Event)) (n : Nat) :
    withLocal x k ⟨m, l, n⟩ = match k ⟨m.length, n, owner⟩ ⟨m ++ [x], l, n + 1⟩ with
      | (r, w') => (r, { w' with mem := w'.mem.take m.length, log := (n, .access .write owner 0 32) :: w'.log }) := rfl
theorem mbind_run {α β : Type} (m : M α) (k : α → M β) (w : Mem) : (m >>= k) w = match m w with
    | (.ok x, w) => k x w
    | (.error e, w) => (.error e, w) := rfl
theorem mpure_run {α : Type} (x : α) (w : Mem) : (pure x : M α) w = (.ok x, w) := rfl

/-- Runs a program symbolically; then its log is checked by computation. -/
macro "evalT" "[" t:Lean.Parser.Tactic.simpLemma,* "]" : tactic => `(tactic| simp only [$t,*, assigning, assigningShift, calling,
    callingShift, Ops.assign, Ops.shiftAssign, Ops.binop, Ops.divmod, Ops.shift, Ops.bitwise, out, outc, outShift, out2,
    call1, call2, call3, call4, bind_run, pure_run, lift_run, note_run, ref_run, refWord_run, raw_run, returning_run, mem_run,
    withLocal_run, mbind_run, mpure_run, castMut, castRef, castUninit, castOpt, iassumeRef, again, wr, iwr, set, iset, rd, ird,
    start, var, low, high, setLow, setHigh, word, setWord, Bool.false_eq_true, if_false, if_true, ↓reduceIte, eq_self, throwPanic,
    Intr.signed2, Intr.signed3, Intr.signedShift3, Intr.ishl2, Llvm.two, Llvm.three, Llvm.carry, Llvm.icarry, Llvm.shift2,
    Llvm.shift3, Llvm.ishift2, Llvm.ishift3,
    M.rd0, M.rd1, M.wr0, M.wr1, M.wr, M.iwr, M.ird, M.rd, List.getElem?_cons_zero, List.getElem?_cons_succ, List.set_cons_zero,
    List.set_cons_succ, Cell.ofU, Cell.ofI, Cell.uninit, List.map_cons, List.map_nil, List.cons_append, List.nil_append,
    Nat.reduceAdd, Nat.reduceMul, Nat.one_ne_zero, List.length_cons, List.length_nil, List.take_succ_cons, List.take_zero])
/-- The same, with a case distinction on the conditions that are left -/
macro "runT" "[" t:Lean.Parser.Tactic.simpLemma,* "]" : tactic => `(tactic|
  (evalT [$t,*]; first | decide +kernel | (split_ifs <;> (evalT [$t,*]; decide +kernel))))

/-- The same, with a case distinction on a computation whose outcome is not known -/
macro "splitT" "[" t:Lean.Parser.Tactic.simpLemma,* "]" : tactic => `(tactic|
  (evalT [$t,*]; first | decide +kernel | (generalize (@bind Res _ _ _ _ _) = z; cases z <;> (evalT [$t,*]; decide +kernel))))

/-- The log of a program on two variables passes the check. -/
def Passes {R : Type} (t : T R) (x y : Cell) : Prop := checkLog 32 (t (start x y)).2.log.reverse = true

theorem Passes.obeys {R : Type} {t : T R} {x y : Cell} (h : Passes t x y) : Obeys 32 (t (start x y)).2.log.reverse :=
  obeys_of_check h

/-- The two possible outcomes of a computation on values -/
theorem outcome {α : Type} (r : Res α) : (∃ e, r = .error e) ∨ ∃ x, r = .ok x := by
  cases r
  · exact .inl ⟨_, rfl⟩
  · exact .inr ⟨_, rfl⟩

/-- The paths through `udivmod4` -/
theorem paths (c : Cfg) (xh xl yh yl : U128) (x y : Ethnum.U256) :
    (∃ e, xh ||| yh = 0 ∧ divC xl yl = .error e)
    ∨ (∃ q e, xh ||| yh = 0 ∧ divC xl yl = .ok q ∧ remC xl yl = .error e)
    ∨ (∃ q r, xh ||| yh = 0 ∧ divC xl yl = .ok q ∧ remC xl yl = .ok r)
    ∨ (¬ xh ||| yh = 0 ∧ y.gt c x = true)
    ∨ (∃ e, ¬ xh ||| yh = 0 ∧ y.gt c x = false ∧ (if y.high c = 0 then Ethnum.Intr.udivmodNarrow c x y
        else Ethnum.Intr.div_mod_knuth c x y) = .error e)
    ∨ (∃ q r, ¬ xh ||| yh = 0 ∧ y.gt c x = false ∧ (if y.high c = 0 then Ethnum.Intr.udivmodNarrow c x y
        else Ethnum.Intr.div_mod_knuth c x y) = .ok (q, r)) := by
  by_cases h : xh ||| yh = 0
  · rcases outcome (divC xl yl) with ⟨e, h1⟩ | ⟨q, h1⟩
    · exact .inl ⟨e, h, h1⟩
    · rcases outcome (remC xl yl) with ⟨e, h2⟩ | ⟨r, h2⟩
      · exact .inr (.inl ⟨q, e, h, h1, h2⟩)
      · exact .inr (.inr (.inl ⟨q, r, h, h1, h2⟩))
  · cases h1 : y.gt c x with
    | true => exact .inr (.inr (.inr (.inl ⟨h, rfl⟩)))
    | false =>
      rcases outcome (if y.high c = 0 then Ethnum.Intr.udivmodNarrow c x y else Ethnum.Intr.div_mod_knuth c x y)
        with ⟨e, h2⟩ | ⟨⟨q, r⟩, h2⟩
      · exact .inr (.inr (.inr (.inr (.inl ⟨e, h, rfl, h2⟩))))
      · exact .inr (.inr (.inr (.inr (.inr ⟨q, r, h, rfl, h2⟩))))

end Ethnum.Alias
