import Verif.SpecThreads
import Verif.Proofs.Steps
import Verif.Proofs.StepsWithin
import Mathlib.Tactic.SplitIfs

/-
Lemmas for C72: threads that keep to what they were given do not disturb each other.
-/

namespace Ethnum.Steps
open P

variable {α : Type}

/-! ### Steps without other threads -/

theorem run_step (p : P α) (s : Mem) : (p.step s).1.run (p.step s).2 = p.run s := by
  cases p with
  | done r => rfl
  | read i p k => rfl
  | write i p w k => rfl
  | enter x k => rfl
  | leave n k => rfl

/-- How many steps the code takes by itself -/
def P.work : P α → Mem → Nat
  | .done _, _ => 0
  | .read i p k, s => match (if i then M.rd1 p else M.rd0 p) s with | (r, s) => (k r).work s + 1
  | .write i p w k, s => match (if i then M.wr1 p w else M.wr0 p w) s with | (r, s) => (k r).work s + 1
  | .enter x k, s => (k s.length).work (s ++ [x]) + 1
  | .leave n k, s => k.work (s.take n) + 1

theorem work_step (p : P α) (s : Mem) : (p.step s).1.work (p.step s).2 = p.work s - 1 := by
  cases p with
  | done r => rfl
  | read i p k => rfl
  | write i p w k => rfl
  | enter x k => rfl
  | leave n k => rfl

theorem done_of_work {p : P α} {s : Mem} (h : p.work s = 0) : ∃ r, p = .done r := by
  cases p with
  | done r => exact ⟨r, rfl⟩
  | read i p k => simp [P.work] at h
  | write i p w k => simp [P.work] at h
  | enter x k => simp [P.work] at h
  | leave n k => simp [P.work] at h

/-! ### A step, seen from the shared memory -/

/-- The memories have the same number of objects, and those in `F` are the same. -/
def Agree (F : Loc → Prop) (s t : Mem) : Prop := s.length = t.length ∧ ∀ p, p < s.length → F p → s[p]? = t[p]?

/-- A word of an object -/
def wordOf (i : Bool) (x : Option Cell) : Res U128 :=
  match x with
  | none => throwUB .outOfBounds
  | some x => match (if i then x.w1 else x.w0) with
    | some w => .ok w
    | none => throwUB .uninit

theorem rd_eq (i : Bool) (p : Loc) (s : Mem) : (if i then M.rd1 p else M.rd0 p) s = (wordOf i s[p]?, s) := by
  cases i
  · simp only [Bool.false_eq_true, if_false, M.rd0, wordOf]
    rcases s[p]? with _ | ⟨_ | w, w'⟩ <;> rfl
  · simp only [if_true, M.rd1, wordOf]
    rcases s[p]? with _ | ⟨w', _ | w⟩ <;> rfl

/-- An object after one of its words was written -/
def putWord (i : Bool) (w : U128) (x : Cell) : Cell := if i then { x with w1 := some w } else { x with w0 := some w }

theorem wr_eq (i : Bool) (p : Loc) (w : U128) (s : Mem) : (if i then M.wr1 p w else M.wr0 p w) s =
    (match s[p]? with | some _ => .ok () | none => throwUB .outOfBounds,
     match s[p]? with | some x => s.set p (putWord i w x) | none => s) := by
  cases i
  · simp only [Bool.false_eq_true, if_false, M.wr0, putWord]
    rcases s[p]? with _ | x <;> rfl
  · simp only [if_true, M.wr1, putWord]
    rcases s[p]? with _ | x <;> rfl

theorem step_view (n : Nat) {R W : Loc → Prop} {p : P α} (h : Within n R W p) (s t l : Mem) (hn : s.length = n)
    (hst : Agree (fun p => R p ∨ W p) s t) :
    (p.step (s ++ l)).1 = (p.step (t ++ l)).1
    ∧ (p.step (s ++ l)).2.drop n = (p.step (t ++ l)).2.drop n
    ∧ Agree (fun p => R p ∨ W p) ((p.step (s ++ l)).2.take n) ((p.step (t ++ l)).2.take n)
    ∧ Agree (fun p => ¬ W p) ((p.step (s ++ l)).2.take n) s
    ∧ n ≤ (p.step (s ++ l)).2.length
    ∧ Within n R W (p.step (s ++ l)).1 := by
  have ht : t.length = n := by rw [← hst.1, hn]
  have hts : (s ++ l).take n = s := List.take_left' hn
  have htt : (t ++ l).take n = t := List.take_left' ht
  have hds : (s ++ l).drop n = l := List.drop_left' hn
  have hdt : (t ++ l).drop n = l := List.drop_left' ht
  have hself : Agree (fun p => ¬ W p) s s := ⟨rfl, fun _ _ _ => rfl⟩
  -- the object that a step may look at
  have look : ∀ p, Readable n R W p → (s ++ l)[p]? = (t ++ l)[p]? := by
    intro p hp
    rcases Nat.lt_or_ge p n with h | h
    · rw [List.getElem?_append_left (by omega), List.getElem?_append_left (by omega)]
      exact hst.2 p (by omega) (hp h)
    · rw [List.getElem?_append_right (by omega), List.getElem?_append_right (by omega), hn, ht]
  cases p with
  | done r => exact ⟨rfl, by dsimp only [P.step]; rw [hds, hdt], by dsimp only [P.step]; rw [hts, htt]; exact hst,
      by dsimp only [P.step]; rw [hts]; exact hself, by dsimp only [P.step]; rw [List.length_append]; omega, trivial⟩
  | read i p k =>
    dsimp only [P.step]
    rw [rd_eq, rd_eq]
    dsimp only
    rw [look p h.1, hts, htt, hds, hdt]
    exact ⟨rfl, rfl, hst, hself, by rw [List.length_append]; omega, h.2 _⟩
  | write i p w k =>
    dsimp only [P.step]
    rw [wr_eq, wr_eq]
    dsimp only
    rw [look p (readable_of_writable h.1)]
    rcases hx : (t ++ l)[p]? with _ | x
    · dsimp only
      rw [hts, htt, hds, hdt]
      exact ⟨rfl, rfl, hst, hself, by rw [List.length_append]; omega, h.2 _⟩
    · dsimp only
      rcases Nat.lt_or_ge p n with hp | hp
      · have e1 : (s ++ l).set p (putWord i w x) = s.set p (putWord i w x) ++ l := List.set_append_left _ _ (by omega)
        have e2 : (t ++ l).set p (putWord i w x) = t.set p (putWord i w x) ++ l := List.set_append_left _ _ (by omega)
        rw [e1, e2]
        have l1 : (s.set p (putWord i w x)).length = n := by rw [List.length_set]; exact hn
        have l2 : (t.set p (putWord i w x)).length = n := by rw [List.length_set]; exact ht
        have d1 : (s.set p (putWord i w x) ++ l).drop n = l := List.drop_left' l1
        have d2 : (t.set p (putWord i w x) ++ l).drop n = l := List.drop_left' l2
        have t1 : (s.set p (putWord i w x) ++ l).take n = s.set p (putWord i w x) := List.take_left' l1
        have t2 : (t.set p (putWord i w x) ++ l).take n = t.set p (putWord i w x) := List.take_left' l2
        rw [d1, d2, t1, t2]
        refine ⟨rfl, rfl, ⟨by rw [l1, l2], ?_⟩, ⟨by rw [l1, hn], ?_⟩, by rw [List.length_append]; omega, h.2 _⟩
        · intro q hq hF
          rw [l1] at hq
          rw [List.getElem?_set, List.getElem?_set, hn, ht]
          split_ifs with hpq
          · rfl
          · exact hst.2 q (by omega) hF
        · intro q hq hF
          rw [List.getElem?_set, if_neg]
          intro hpq
          subst hpq
          exact hF (h.1 hp)
      · have e1 : (s ++ l).set p (putWord i w x) = s ++ l.set (p - n) (putWord i w x) := by
          rw [List.set_append_right _ _ (by omega), hn]
        have e2 : (t ++ l).set p (putWord i w x) = t ++ l.set (p - n) (putWord i w x) := by
          rw [List.set_append_right _ _ (by omega), ht]
        rw [e1, e2]
        have d1 : (s ++ l.set (p - n) (putWord i w x)).drop n = l.set (p - n) (putWord i w x) := List.drop_left' hn
        have d2 : (t ++ l.set (p - n) (putWord i w x)).drop n = l.set (p - n) (putWord i w x) := List.drop_left' ht
        have t1 : (s ++ l.set (p - n) (putWord i w x)).take n = s := List.take_left' hn
        have t2 : (t ++ l.set (p - n) (putWord i w x)).take n = t := List.take_left' ht
        rw [d1, d2, t1, t2]
        exact ⟨rfl, rfl, hst, hself, by rw [List.length_append]; omega, h.2 _⟩
  | enter x k =>
    dsimp only [P.step]
    have e1 : (s ++ l ++ [x]).drop n = l ++ [x] := by rw [List.append_assoc, ← hn]; exact List.drop_left
    have e2 : (t ++ l ++ [x]).drop n = l ++ [x] := by rw [List.append_assoc, ← ht]; exact List.drop_left
    have t1 : (s ++ l ++ [x]).take n = s := by rw [List.append_assoc, ← hn]; exact List.take_left
    have t2 : (t ++ l ++ [x]).take n = t := by rw [List.append_assoc, ← ht]; exact List.take_left
    have hl : (s ++ l).length = (t ++ l).length := by rw [List.length_append, List.length_append, hn, ht]
    rw [e1, e2, t1, t2, hl]
    refine ⟨rfl, rfl, hst, hself, ?_, h _ ?_⟩
    · rw [List.length_append, List.length_append]; omega
    · rw [List.length_append]; omega
  | leave m k =>
    dsimp only [P.step]
    have hm : n ≤ m := h.1
    have e1 : (s ++ l).take m = s ++ l.take (m - n) := by rw [List.take_append, hn, List.take_of_length_le (by omega)]
    have e2 : (t ++ l).take m = t ++ l.take (m - n) := by rw [List.take_append, ht, List.take_of_length_le (by omega)]
    rw [e1, e2]
    have d1 : (s ++ l.take (m - n)).drop n = l.take (m - n) := List.drop_left' hn
    have d2 : (t ++ l.take (m - n)).drop n = l.take (m - n) := List.drop_left' ht
    have t1 : (s ++ l.take (m - n)).take n = s := List.take_left' hn
    have t2 : (t ++ l.take (m - n)).take n = t := List.take_left' ht
    rw [d1, d2, t1, t2]
    exact ⟨rfl, rfl, hst, hself, by rw [List.length_append]; omega, h.2⟩

theorem within_step {n : Nat} {R W : Loc → Prop} {p : P α} (h : Within n R W p) {s : Mem} (hs : n ≤ s.length) : Within n R W (p.step s).1 := by
  cases p with
  | done r => exact h
  | read i p k => exact h.2 _
  | write i p w k => exact h.2 _
  | enter x k => exact h _ hs
  | leave m k => exact h.2

theorem within_reaches {n : Nat} {R W : Loc → Prop} {p q : P α} (h : Within n R W p) (hr : p.Reaches n q) : Within n R W q := by
  induction hr with
  | start => exact h
  | step s hs _ ih => exact within_step ih hs

/-! ### All threads -/

/-- What is true after the threads made the steps of a schedule -/
structure Inv (c : Cfg) (s₀ : Mem) (ts : List (Thread α)) (schedule : List Nat) (w : World α) : Prop where
  len : w.shared.length = s₀.length
  threads : w.threads.length = ts.length
  others : ∀ p, (∀ t ∈ ts, p ∉ t.writes) → w.shared[p]? = s₀[p]?
  each : ∀ i t, ts[i]? = some t → ∃ q l v, w.threads[i]? = some (q, l) ∧ Within s₀.length (· ∈ t.reads) (· ∈ t.writes) q
    ∧ Agree (fun p => p ∈ t.reads ∨ p ∈ t.writes) w.shared v ∧ Agree (fun p => p ∉ t.writes) v s₀
    ∧ q.run (v ++ l) = (t.code.steps c).run s₀
    ∧ q.work (v ++ l) = (t.code.steps c).work s₀ - schedule.count i

theorem Agree.trans {F : Loc → Prop} {r s t : Mem} (h : Agree F r s) (h' : Agree F s t) : Agree F r t :=
  ⟨h.1.trans h'.1, fun p hp hF => (h.2 p hp hF).trans (h'.2 p (h.1 ▸ hp) hF)⟩
theorem Agree.mono {F G : Loc → Prop} {s t : Mem} (h : Agree F s t) (hg : ∀ p, G p → F p) : Agree G s t :=
  ⟨h.1, fun p hp hG => h.2 p hp (hg p hG)⟩
theorem Agree.rfl' {F : Loc → Prop} {s : Mem} : Agree F s s := ⟨rfl, fun _ _ _ => rfl⟩

theorem inv_step {c : Cfg} {s₀ : Mem} {ts : List (Thread α)} {schedule : List Nat} {w : World α} (hb : Borrowed ts)
    (h : Inv c s₀ ts schedule w) (i : Nat) : Inv c s₀ ts (schedule ++ [i]) (w.step i) := by
  unfold World.step
  rcases hi : w.threads[i]? with _ | ⟨q, l⟩
  · dsimp only
    refine ⟨h.len, h.threads, h.others, fun j t hj => ?_⟩
    obtain ⟨q, l, v, h1, h2, h3, h4, h5, h6⟩ := h.each j t hj
    refine ⟨q, l, v, h1, h2, h3, h4, h5, ?_⟩
    have : i ≠ j := by intro e; subst e; rw [hi] at h1; exact absurd h1 (by simp)
    rw [h6, List.count_append, List.count_singleton, if_neg (by simpa using this), Nat.add_zero]
  · dsimp only
    have hlt : i < ts.length := by
      rw [← h.threads]
      exact (List.getElem?_eq_some_iff.mp hi).1
    obtain ⟨t, ht⟩ : ∃ t, ts[i]? = some t := ⟨ts[i], List.getElem?_eq_getElem hlt⟩
    obtain ⟨q', l', v, h1, h2, h3, h4, h5, h6⟩ := h.each i t ht
    rw [hi] at h1
    injection h1 with h1
    injection h1 with e1 e2
    subst e1 e2
    have hv : v.length = s₀.length := h4.1
    obtain ⟨s1, s2, s3, s4, s5, s6⟩ := step_view s₀.length h2 w.shared v l h.len h3
    obtain ⟨-, -, -, v4, v5, -⟩ := step_view s₀.length h2 v v l hv Agree.rfl'
    rw [h.len]
    have hlen : ((q.step (w.shared ++ l)).2.take s₀.length).length = s₀.length := by
      rw [List.length_take]; omega
    refine ⟨hlen, by rw [List.length_set]; exact h.threads, ?_, ?_⟩
    · intro p hp
      rw [← h.others p hp]
      rcases Nat.lt_or_ge p s₀.length with hlt | hge
      · exact s4.2 p (by rw [hlen]; exact hlt) (hp t (List.mem_of_getElem? ht))
      · rw [List.getElem?_eq_none (by rw [hlen]; exact hge), List.getElem?_eq_none (by rw [h.len]; exact hge)]
    · intro j u hj
      by_cases hij : i = j
      · subst hij
        rw [ht] at hj
        injection hj with hj
        subst hj
        refine ⟨(q.step (w.shared ++ l)).1, (q.step (w.shared ++ l)).2.drop s₀.length, (q.step (v ++ l)).2.take s₀.length, ?_, s6, s3,
          (v4.trans h4), ?_, ?_⟩
        · dsimp only
          rw [List.getElem?_set_self (by rw [h.threads]; exact hlt)]
        · rw [s1, s2, List.take_append_drop, run_step, h5]
        · rw [s1, s2, List.take_append_drop, work_step, h6, List.count_append, List.count_singleton, if_pos (by simp)]
          omega
      · obtain ⟨q', l', v', g1, g2, g3, g4, g5, g6⟩ := h.each j u hj
        refine ⟨q', l', v', ?_, g2, ?_, g4, g5, ?_⟩
        · dsimp only
          rw [List.getElem?_set_ne hij]
          exact g1
        · refine Agree.trans (s4.mono ?_) g3
          intro p hp hw
          have := hb.2 i j t u hij ht hj p hw
          rcases hp with hp | hp
          · exact this.1 hp
          · exact this.2 hp
        · rw [g6, List.count_append, List.count_singleton, if_neg (by simpa using hij), Nat.add_zero]

theorem inv_run {c : Cfg} {s₀ : Mem} {ts : List (Thread α)} (hb : Borrowed ts) (h : Inv c s₀ ts [] (World.start c s₀ ts))
    (schedule : List Nat) : Inv c s₀ ts schedule ((World.start c s₀ ts).run schedule) := by
  have : ∀ (xs done : List Nat) (w : World α), Inv c s₀ ts done w → Inv c s₀ ts (done ++ xs) (w.run xs) := by
    intro xs
    induction xs with
    | nil => intro done w h; rw [List.append_nil]; exact h
    | cons x xs ih =>
      intro done w h
      have := ih (done ++ [x]) (w.step x) (inv_step hb h x)
      rwa [List.append_assoc] at this
  exact this schedule [] _ h

/-! ### The calls of the crate -/

theorem steps_assign_run (c : Cfg) (k : Kind) (o : Assign) (a b : Loc) : (o.steps c a b k).run = o.run c a b k := by
  cases k <;> cases o <;> dsimp only [Assign.steps, Assign.run]
  · exact U256.run_add_assignM c a b
  · exact U256.run_sub_assignM c a b
  · exact U256.run_mul_assignM c a b
  · exact U256.run_div_assignM c a b
  · exact U256.run_rem_assignM c a b
  · exact U256.run_bitand_assignM a b
  · exact U256.run_bitor_assignM a b
  · exact U256.run_bitxor_assignM a b
  · exact I256.run_add_assignM c a b
  · exact I256.run_sub_assignM c a b
  · exact I256.run_mul_assignM c a b
  · exact I256.run_div_assignM c a b
  · exact I256.run_rem_assignM c a b
  · exact I256.run_bitand_assignM a b
  · exact I256.run_bitor_assignM a b
  · exact I256.run_bitxor_assignM a b

theorem steps_assignVal_run (c : Cfg) (k : Kind) (o : Assign) (a b : Loc) :
    (MemOps.byValue b fun b => o.steps c a b k).run = o.runVal c a b k := by
  rw [MemOps.run_byValue]
  unfold Assign.runVal
  simp only [steps_assign_run]

theorem op_run (c : Cfg) (o : Op α) : (o.steps c).run = o.mem c := by
  cases o with
  | load k a =>
    cases k
    · exact run_rd a
    · exact run_ird a
  | store k d v =>
    cases k
    · exact run_wr d v
    · exact run_iwr d v
  | bin k o a b =>
    cases k <;> cases o
    · exact U256.run_addM c a b
    · exact U256.run_subM c a b
    · exact U256.run_mulM c a b
    · exact U256.run_divM c a b
    · exact U256.run_remM c a b
    · exact I256.run_addM c a b
    · exact I256.run_subM c a b
    · exact I256.run_mulM c a b
    · exact I256.run_divM c a b
    · exact I256.run_remM c a b
  | shift k o a n =>
    cases k <;> cases o
    · exact U256.run_shlM c a n
    · exact U256.run_shrM c a n
    · exact U256.run_wrapping_shlM c a n
    · exact U256.run_wrapping_shrM c a n
    · exact U256.run_rotate_leftM c a n
    · exact U256.run_rotate_rightM c a n
    · exact I256.run_shlM c a n
    · exact I256.run_shrM c a n
    · exact I256.run_wrapping_shlM c a n
    · exact I256.run_wrapping_shrM c a n
    · exact I256.run_rotate_leftM c a n
    · exact I256.run_rotate_rightM c a n
  | assign k o d b => exact steps_assign_run c k o d b
  | assignVal k o d b => exact steps_assignVal_run c k o d b
  | shlAssign k d n =>
    cases k
    · exact U256.run_shl_assignM c d n
    · exact I256.run_shl_assignM c d n
  | shrAssign k d n =>
    cases k
    · exact U256.run_shr_assignM c d n
    · exact I256.run_shr_assignM c d n
  | wrapping k o a b =>
    cases k <;> cases o
    · exact U256.run_wrapping_addM c a b
    · exact U256.run_wrapping_subM c a b
    · exact U256.run_wrapping_mulM c a b
    · exact I256.run_wrapping_addM c a b
    · exact I256.run_wrapping_subM c a b
    · exact I256.run_wrapping_mulM c a b
  | overflowing k o a b =>
    cases k <;> cases o
    · exact U256.run_overflowing_addM c a b
    · exact U256.run_overflowing_subM c a b
    · exact U256.run_overflowing_mulM c a b
    · exact I256.run_overflowing_addM c a b
    · exact I256.run_overflowing_subM c a b
    · exact I256.run_overflowing_mulM c a b
  | divRem a b => exact U256.run_div_remM c a b
  | wrappingDivRem a b => exact I256.run_wrapping_div_remM c a b
  | checkedDivRem a b => exact I256.run_checked_div_remM c a b
  | checkedDiv a b => exact I256.run_checked_divM c a b
  | checkedRem a b => exact I256.run_checked_remM c a b
  | intr2 o r a =>
    cases o
    · exact MemIntr.run_add2 c r a
    · exact MemIntr.run_sub2 c r a
    · exact MemIntr.run_mul2 c r a
    · exact MemIntr.run_udiv2 c r a
    · exact MemIntr.run_urem2 c r a
    · exact MemIntr.run_idiv2 c r a
    · exact MemIntr.run_irem2 c r a
    · exact MemIntr.run_iadd2 c r a
    · exact MemIntr.run_isub2 c r a
    · exact MemIntr.run_imul2 c r a
  | intr3 o r a b =>
    cases o
    · exact MemIntr.run_add3 c r a b
    · exact MemIntr.run_sub3 c r a b
    · exact MemIntr.run_mul3 c r a b
    · exact MemIntr.run_udiv3 c r a b
    · exact MemIntr.run_urem3 c r a b
    · exact MemIntr.run_idiv3 c r a b
    · exact MemIntr.run_irem3 c r a b
    · exact MemIntr.run_iadd3 c r a b
    · exact MemIntr.run_isub3 c r a b
    · exact MemIntr.run_imul3 c r a b
  | intrC o r a b =>
    cases o
    · exact MemIntr.run_uaddc c r a b
    · exact MemIntr.run_iaddc c r a b
    · exact MemIntr.run_usubc c r a b
    · exact MemIntr.run_isubc c r a b
    · exact MemIntr.run_umulc c r a b
    · exact MemIntr.run_imulc c r a b
  | intrS2 o r n =>
    cases o
    · exact MemIntr.run_shl2 c r n
    · exact MemIntr.run_sar2 c r n
    · exact MemIntr.run_shr2 c r n
    · exact MemIntr.run_ishl2 c r n
  | intrS3 o r a n =>
    cases o
    · exact MemIntr.run_shl3 c r a n
    · exact MemIntr.run_sar3 c r a n
    · exact MemIntr.run_shr3 c r a n
    · exact MemIntr.run_rol3 c r a n
    · exact MemIntr.run_ror3 c r a n
    · exact MemIntr.run_ishl3 c r a n
    · exact MemIntr.run_irol3 c r a n
    · exact MemIntr.run_iror3 c r a n
  | udivmod4 r a b rem => exact MemIntr.run_udivmod4 c r a b rem
  | idivmod4 r a b rem => exact MemIntr.run_idivmod4 c r a b rem

theorem code_run (c : Cfg) (p : Code α) : (p.steps c).run = p.mem c := by
  induction p with
  | ret r => rfl
  | call o k ih =>
    unfold Code.steps Code.mem
    rw [run_bind, op_run]
    simp only [ih]

variable {n : Nat} {R W : Loc → Prop}

theorem steps_assign_within (c : Cfg) (k : Kind) (o : Assign) (a b : Loc) (ha : Writable n W a) (hb : Readable n R W b) :
    Within n R W (o.steps c a b k) := by
  cases k <;> cases o <;> dsimp only [Assign.steps]
  · exact U256.within_add_assignM c a b ha hb
  · exact U256.within_sub_assignM c a b ha hb
  · exact U256.within_mul_assignM c a b ha hb
  · exact U256.within_div_assignM c a b ha hb
  · exact U256.within_rem_assignM c a b ha hb
  · exact U256.within_bitand_assignM a b ha hb
  · exact U256.within_bitor_assignM a b ha hb
  · exact U256.within_bitxor_assignM a b ha hb
  · exact I256.within_add_assignM c a b ha hb
  · exact I256.within_sub_assignM c a b ha hb
  · exact I256.within_mul_assignM c a b ha hb
  · exact I256.within_div_assignM c a b ha hb
  · exact I256.within_rem_assignM c a b ha hb
  · exact I256.within_bitand_assignM a b ha hb
  · exact I256.within_bitor_assignM a b ha hb
  · exact I256.within_bitxor_assignM a b ha hb

theorem steps_assignVal_within (c : Cfg) (k : Kind) (o : Assign) (a b : Loc) (ha : Writable n W a) (hb : Readable n R W b) :
    Within n R W (MemOps.byValue b fun b => o.steps c a b k) := by
  unfold MemOps.byValue
  exact within_bind (within_rd hb) fun _ => within_local fun l hl => steps_assign_within c k o a l ha (readable_of_le hl)

theorem op_within (c : Cfg) (o : Op α) (hs : ∀ p ∈ o.shared, Readable n R W p) (hm : ∀ p ∈ o.mut, Writable n W p) :
    Within n R W (o.steps c) := by
  cases o with
  | load k a =>
    have ha := hs a (by simp [Op.shared])
    cases k
    · exact within_rd ha
    · exact within_ird ha
  | store k d v =>
    have hd := hm d (by simp [Op.mut])
    cases k
    · exact within_wr hd
    · exact within_iwr hd
  | bin k o a b =>
    have ha := hs a (by simp [Op.shared])
    have hb := hs b (by simp [Op.shared])
    cases k <;> cases o
    · exact U256.within_addM c a b ha hb
    · exact U256.within_subM c a b ha hb
    · exact U256.within_mulM c a b ha hb
    · exact U256.within_divM c a b ha hb
    · exact U256.within_remM c a b ha hb
    · exact I256.within_addM c a b ha hb
    · exact I256.within_subM c a b ha hb
    · exact I256.within_mulM c a b ha hb
    · exact I256.within_divM c a b ha hb
    · exact I256.within_remM c a b ha hb
  | shift k o a m =>
    have ha := hs a (by simp [Op.shared])
    cases k <;> cases o
    · exact U256.within_shlM c a m ha
    · exact U256.within_shrM c a m ha
    · exact U256.within_wrapping_shlM c a m ha
    · exact U256.within_wrapping_shrM c a m ha
    · exact U256.within_rotate_leftM c a m ha
    · exact U256.within_rotate_rightM c a m ha
    · exact I256.within_shlM c a m ha
    · exact I256.within_shrM c a m ha
    · exact I256.within_wrapping_shlM c a m ha
    · exact I256.within_wrapping_shrM c a m ha
    · exact I256.within_rotate_leftM c a m ha
    · exact I256.within_rotate_rightM c a m ha
  | assign k o d b => exact steps_assign_within c k o d b (hm d (by simp [Op.mut])) (hs b (by simp [Op.shared]))
  | assignVal k o d b => exact steps_assignVal_within c k o d b (hm d (by simp [Op.mut])) (hs b (by simp [Op.shared]))
  | shlAssign k d m =>
    have hd := hm d (by simp [Op.mut])
    cases k
    · exact U256.within_shl_assignM c d m hd
    · exact I256.within_shl_assignM c d m hd
  | shrAssign k d m =>
    have hd := hm d (by simp [Op.mut])
    cases k
    · exact U256.within_shr_assignM c d m hd
    · exact I256.within_shr_assignM c d m hd
  | wrapping k o a b =>
    have ha := hs a (by simp [Op.shared])
    have hb := hs b (by simp [Op.shared])
    cases k <;> cases o
    · exact U256.within_wrapping_addM c a b ha hb
    · exact U256.within_wrapping_subM c a b ha hb
    · exact U256.within_wrapping_mulM c a b ha hb
    · exact I256.within_wrapping_addM c a b ha hb
    · exact I256.within_wrapping_subM c a b ha hb
    · exact I256.within_wrapping_mulM c a b ha hb
  | overflowing k o a b =>
    have ha := hs a (by simp [Op.shared])
    have hb := hs b (by simp [Op.shared])
    cases k <;> cases o
    · exact U256.within_overflowing_addM c a b ha hb
    · exact U256.within_overflowing_subM c a b ha hb
    · exact U256.within_overflowing_mulM c a b ha hb
    · exact I256.within_overflowing_addM c a b ha hb
    · exact I256.within_overflowing_subM c a b ha hb
    · exact I256.within_overflowing_mulM c a b ha hb
  | divRem a b => exact U256.within_div_remM c a b (hs a (by simp [Op.shared])) (hs b (by simp [Op.shared]))
  | wrappingDivRem a b => exact I256.within_wrapping_div_remM c a b (hs a (by simp [Op.shared])) (hs b (by simp [Op.shared]))
  | checkedDivRem a b => exact I256.within_checked_div_remM c a b (hs a (by simp [Op.shared])) (hs b (by simp [Op.shared]))
  | checkedDiv a b => exact I256.within_checked_divM c a b (hs a (by simp [Op.shared])) (hs b (by simp [Op.shared]))
  | checkedRem a b => exact I256.within_checked_remM c a b (hs a (by simp [Op.shared])) (hs b (by simp [Op.shared]))
  | intr2 o r a =>
    have hr := hm r (by simp [Op.mut])
    have ha := hs a (by simp [Op.shared])
    cases o
    · exact MemIntr.within_add2 c r a hr ha
    · exact MemIntr.within_sub2 c r a hr ha
    · exact MemIntr.within_mul2 c r a hr ha
    · exact MemIntr.within_udiv2 c r a hr ha
    · exact MemIntr.within_urem2 c r a hr ha
    · exact MemIntr.within_idiv2 c r a hr ha
    · exact MemIntr.within_irem2 c r a hr ha
    · exact MemIntr.within_iadd2 c r a hr ha
    · exact MemIntr.within_isub2 c r a hr ha
    · exact MemIntr.within_imul2 c r a hr ha
  | intr3 o r a b =>
    have hr := hm r (by simp [Op.mut])
    have ha := hs a (by simp [Op.shared])
    have hb := hs b (by simp [Op.shared])
    cases o
    · exact MemIntr.within_add3 c r a b hr ha hb
    · exact MemIntr.within_sub3 c r a b hr ha hb
    · exact MemIntr.within_mul3 c r a b hr ha hb
    · exact MemIntr.within_udiv3 c r a b hr ha hb
    · exact MemIntr.within_urem3 c r a b hr ha hb
    · exact MemIntr.within_idiv3 c r a b hr ha hb
    · exact MemIntr.within_irem3 c r a b hr ha hb
    · exact MemIntr.within_iadd3 c r a b hr ha hb
    · exact MemIntr.within_isub3 c r a b hr ha hb
    · exact MemIntr.within_imul3 c r a b hr ha hb
  | intrC o r a b =>
    have hr := hm r (by simp [Op.mut])
    have ha := hs a (by simp [Op.shared])
    have hb := hs b (by simp [Op.shared])
    cases o
    · exact MemIntr.within_uaddc c r a b hr ha hb
    · exact MemIntr.within_iaddc c r a b hr ha hb
    · exact MemIntr.within_usubc c r a b hr ha hb
    · exact MemIntr.within_isubc c r a b hr ha hb
    · exact MemIntr.within_umulc c r a b hr ha hb
    · exact MemIntr.within_imulc c r a b hr ha hb
  | intrS2 o r m =>
    have hr := hm r (by simp [Op.mut])
    cases o
    · exact MemIntr.within_shl2 c r m hr
    · exact MemIntr.within_sar2 c r m hr
    · exact MemIntr.within_shr2 c r m hr
    · exact MemIntr.within_ishl2 c r m hr
  | intrS3 o r a m =>
    have hr := hm r (by simp [Op.mut])
    have ha := hs a (by simp [Op.shared])
    cases o
    · exact MemIntr.within_shl3 c r a m hr ha
    · exact MemIntr.within_sar3 c r a m hr ha
    · exact MemIntr.within_shr3 c r a m hr ha
    · exact MemIntr.within_rol3 c r a m hr ha
    · exact MemIntr.within_ror3 c r a m hr ha
    · exact MemIntr.within_ishl3 c r a m hr ha
    · exact MemIntr.within_irol3 c r a m hr ha
    · exact MemIntr.within_iror3 c r a m hr ha
  | udivmod4 r a b rem =>
    refine MemIntr.within_udivmod4 c r a b rem (hm r (by simp [Op.mut])) (hs a (by simp [Op.shared])) (hs b (by simp [Op.shared])) ?_
    cases rem with
    | none => trivial
    | some q => exact hm q (by simp [Op.mut])
  | idivmod4 r a b rem =>
    refine MemIntr.within_idivmod4 c r a b rem (hm r (by simp [Op.mut])) (hs a (by simp [Op.shared])) (hs b (by simp [Op.shared])) ?_
    cases rem with
    | none => trivial
    | some q => exact hm q (by simp [Op.mut])

theorem code_within (c : Cfg) (n : Nat) {rs ws : List Loc} (p : Code α) (h : p.Uses rs ws) :
    Within n (· ∈ rs) (· ∈ ws) (p.steps c) := by
  induction p with
  | ret r => trivial
  | call o k ih =>
    unfold Code.steps
    exact within_bind (op_within c o (fun p hp _ => h.1 p hp) (fun p hp _ => h.2.1 p hp)) fun x => ih x (h.2.2 x)

theorem inv_start {c : Cfg} {s₀ : Mem} {ts : List (Thread α)} (hb : Borrowed ts) : Inv c s₀ ts [] (World.start c s₀ ts) := by
  refine ⟨rfl, List.length_map _, fun _ _ => rfl, fun i t hi => ⟨t.code.steps c, [], s₀, ?_, ?_, Agree.rfl', Agree.rfl', ?_, ?_⟩⟩
  · unfold World.start
    dsimp only
    rw [List.getElem?_map, hi]
    rfl
  · exact code_within c _ _ (hb.1 t (List.mem_of_getElem? hi))
  · rw [List.append_nil]
  · rw [List.append_nil]
    rfl

theorem inv {c : Cfg} {s₀ : Mem} {ts : List (Thread α)} (hb : Borrowed ts) (schedule : List Nat) :
    Inv c s₀ ts schedule ((World.start c s₀ ts).run schedule) := inv_run hb (inv_start hb) schedule

theorem access_within {p : P α} (h : Within n R W p) {q : Loc} {i b : Bool} (ha : p.access = some (q, i, b)) :
    Readable n R W q ∧ (b = true → Writable n W q) := by
  cases p with
  | done r => exact absurd ha (by simp [P.access])
  | read j q' k =>
    simp only [P.access, Option.some.injEq, Prod.mk.injEq] at ha
    obtain ⟨rfl, rfl, rfl⟩ := ha
    exact ⟨h.1, fun e => absurd e (by decide)⟩
  | write j q' w k =>
    simp only [P.access, Option.some.injEq, Prod.mk.injEq] at ha
    obtain ⟨rfl, rfl, rfl⟩ := ha
    exact ⟨readable_of_writable h.1, fun _ => h.1⟩
  | enter x k => exact absurd ha (by simp [P.access])
  | leave m k => exact absurd ha (by simp [P.access])

theorem ofStmts_uses (k : Kind) (rs ws : List Loc) : ∀ ts : List Stmt, (∀ t ∈ ts, t.target ∈ ws ∧ ∀ p ∈ t.operand, p ∈ rs) →
    (Code.ofStmts k ts).Uses rs ws := by
  intro ts
  induction ts with
  | nil => intro _; trivial
  | cons t ts ih =>
    intro h
    have h1 := h t (List.mem_cons_self ..)
    have h2 := ih fun t ht => h t (List.mem_cons_of_mem _ ht)
    cases t with
    | op o d v =>
      refine ⟨fun p hp => .inl (h1.2 p ?_), fun p hp => ?_, fun _ => h2⟩
      · simpa [Op.shared, Stmt.operand] using hp
      · have : p = d := by simpa [Op.mut] using hp
        rw [this]; exact h1.1
    | shl d n =>
      refine ⟨fun p hp => absurd hp (by simp [Op.shared]), fun p hp => ?_, fun _ => h2⟩
      have : p = d := by simpa [Op.mut] using hp
      rw [this]; exact h1.1
    | shr d n =>
      refine ⟨fun p hp => absurd hp (by simp [Op.shared]), fun p hp => ?_, fun _ => h2⟩
      have : p = d := by simpa [Op.mut] using hp
      rw [this]; exact h1.1

theorem ofStmts_mem (c : Cfg) (k : Kind) : ∀ ts : List Stmt, (Code.ofStmts k ts).mem c = runAll c k ts := by
  intro ts
  induction ts with
  | nil => rfl
  | cons t ts ih =>
    cases t with
    | op o d v => unfold Code.ofStmts Code.mem runAll; rw [← ih]; rfl
    | shl d n => unfold Code.ofStmts Code.mem runAll; rw [← ih]; cases k <;> rfl
    | shr d n => unfold Code.ofStmts Code.mem runAll; rw [← ih]; cases k <;> rfl

end Ethnum.Steps
