import Verif.Proofs.Threads
import Verif.Props.Mem

/-
C72: threads. The theorems are about `World.run` (SpecThreads.lean), for every schedule.
-/

namespace Ethnum
open Steps

variable {α : Type} {c : Cfg} {s : Mem}

/-- C72: whatever other threads do to the memory meanwhile, a call of the crate reads no shared object that it was not passed,
and writes none that it was not passed by `&mut`. -/
theorem C72_access (c : Cfg) (o : Op α) (n : Nat) (q : P α) (h : (o.steps c).Reaches n q) (p : Loc) (word write : Bool)
    (ha : q.access = some (p, word, write)) (hp : p < n) :
    p ∈ o.mut ∨ (write = false ∧ p ∈ o.shared) := by
  have hw := within_reaches (op_within (n := n) (R := (· ∈ o.shared)) (W := (· ∈ o.mut)) c o (fun p hp _ => .inl hp) (fun p hp _ => hp)) h
  have := access_within hw ha
  cases write with
  | true => exact .inl (this.2 rfl hp)
  | false => exact (this.1 hp).elim (fun h => .inr ⟨rfl, h⟩) .inl

/-- C72: if no object that one thread may write was given to another, then no two threads ever come to conflicting accesses,
in any order of their steps. -/
theorem C72_no_race (c : Cfg) (s : Mem) (ts : List (Thread α)) (hb : Borrowed ts) (schedule : List Nat) :
    ¬ ((World.start c s ts).run schedule).Race := by
  rintro ⟨i, j, x, y, p, word, a, b, hij, hx, hy, hp, ax, ay, hab⟩
  have h := inv (c := c) (s₀ := s) hb schedule
  have lt : ∀ {i : Nat} {x}, ((World.start c s ts).run schedule).threads[i]? = some x → ∃ t, ts[i]? = some t := by
    intro i x hx
    have := (List.getElem?_eq_some_iff.mp hx).1
    rw [h.threads] at this
    exact ⟨ts[i], List.getElem?_eq_getElem this⟩
  obtain ⟨t, ht⟩ := lt hx
  obtain ⟨u, hu⟩ := lt hy
  obtain ⟨q, l, v, t1, t2, -⟩ := h.each i t ht
  obtain ⟨q', l', v', u1, u2, -⟩ := h.each j u hu
  rw [hx] at t1
  rw [hy] at u1
  injection t1 with t1
  injection u1 with u1
  subst t1 u1
  rw [h.len] at hp
  obtain ⟨rx, wx⟩ := access_within t2 ax
  obtain ⟨ry, wy⟩ := access_within u2 ay
  rcases hab with ha | hb'
  · have := hb.2 i j t u hij ht hu p (wx ha hp)
    exact (ry hp).elim this.1 this.2
  · have := hb.2 j i u t (Ne.symm hij) hu ht p (wy hb' hp)
    exact (rx hp).elim this.1 this.2

/-- C72: whatever the schedule, a thread that has finished has the result (or the panic) that it has by itself, and the objects
it may write are as if it had run by itself. Objects that no thread may write are never changed. -/
theorem C72_results (c : Cfg) (s : Mem) (ts : List (Thread α)) (hb : Borrowed ts) (schedule : List Nat) :
    (∀ i t r, ts[i]? = some t → ((World.start c s ts).run schedule).Finished i r →
      (t.code.mem c s).1 = r ∧ ∀ p ∈ t.writes, p < s.length → ((World.start c s ts).run schedule).shared[p]? = (t.code.mem c s).2[p]?)
    ∧ (∀ p, (∀ t ∈ ts, p ∉ t.writes) → ((World.start c s ts).run schedule).shared[p]? = s[p]?)
    ∧ ((World.start c s ts).run schedule).shared.length = s.length := by
  have h := inv (c := c) (s₀ := s) hb schedule
  refine ⟨fun i t r ht hf => ?_, h.others, h.len⟩
  obtain ⟨l, hl⟩ := hf
  obtain ⟨q, l', v, t1, t2, t3, t4, t5, -⟩ := h.each i t ht
  rw [hl] at t1
  injection t1 with t1
  injection t1 with e1 e2
  subst e1 e2
  rw [code_run] at t5
  rw [← t5]
  refine ⟨rfl, fun p hp hlt => ?_⟩
  rw [t3.2 p (by rw [h.len]; exact hlt) (.inr hp)]
  exact (List.getElem?_append_left (by rw [t4.1]; exact hlt)).symm

/-- C72: every thread finishes after a number of its own steps that does not depend on the schedule. -/
theorem C72_progress (c : Cfg) (s : Mem) (ts : List (Thread α)) (hb : Borrowed ts) :
    ∃ N : Nat → Nat, ∀ schedule i, i < ts.length →
      ((∃ r, ((World.start c s ts).run schedule).Finished i r) ↔ N i ≤ schedule.count i) := by
  refine ⟨fun i => match ts[i]? with | some t => (t.code.steps c).work s | none => 0, fun schedule i hi => ?_⟩
  have h := inv (c := c) (s₀ := s) hb schedule
  have ht : ts[i]? = some ts[i] := List.getElem?_eq_getElem hi
  obtain ⟨q, l, v, t1, t2, t3, t4, t5, t6⟩ := h.each i _ ht
  dsimp only
  rw [ht]
  dsimp only
  constructor
  · rintro ⟨r, l', hl⟩
    rw [hl] at t1
    injection t1 with t1
    injection t1 with e1 e2
    subst e1
    have : (P.done r).work (v ++ l) = 0 := rfl
    omega
  · intro hN
    obtain ⟨r, hr⟩ := done_of_work (p := q) (s := v ++ l) (by omega)
    exact ⟨r, l, by rw [t1, hr]⟩

/-- C72: when all threads have finished, the memory does not depend on the schedule, and neither do the results. -/
theorem C72_deterministic (c : Cfg) (s : Mem) (ts : List (Thread α)) (hb : Borrowed ts) (σ τ : List Nat)
    (hσ : ∀ i < ts.length, ∃ r, ((World.start c s ts).run σ).Finished i r)
    (hτ : ∀ i < ts.length, ∃ r, ((World.start c s ts).run τ).Finished i r) :
    ((World.start c s ts).run σ).shared = ((World.start c s ts).run τ).shared
    ∧ ∀ i < ts.length, ∀ r, ((World.start c s ts).run σ).Finished i r ↔ ((World.start c s ts).run τ).Finished i r := by
  obtain ⟨a1, a2, a3⟩ := C72_results c s ts hb σ
  obtain ⟨b1, b2, b3⟩ := C72_results c s ts hb τ
  constructor
  · apply List.ext_getElem?
    intro p
    by_cases hp : ∀ t ∈ ts, p ∉ t.writes
    · rw [a2 p hp, b2 p hp]
    · have : ∃ t ∈ ts, p ∈ t.writes := by
        apply Classical.byContradiction
        intro hn
        exact hp fun t ht hpt => hn ⟨t, ht, hpt⟩
      obtain ⟨t, ht, hpt⟩ := this
      obtain ⟨i, hi, e⟩ := List.getElem_of_mem ht
      have hti : ts[i]? = some t := by rw [List.getElem?_eq_getElem hi, e]
      obtain ⟨r, hr⟩ := hσ i hi
      obtain ⟨r', hr'⟩ := hτ i hi
      rcases Nat.lt_or_ge p s.length with hlt | hge
      · rw [(a1 i t r hti hr).2 p hpt hlt, (b1 i t r' hti hr').2 p hpt hlt]
      · rw [List.getElem?_eq_none (by omega), List.getElem?_eq_none (by omega)]
  · intro i hi r
    have hti : ts[i]? = some ts[i] := List.getElem?_eq_getElem hi
    constructor
    · intro h
      obtain ⟨r', hr'⟩ := hτ i hi
      have e1 := (a1 i _ r hti h).1
      have e2 := (b1 i _ r' hti hr').1
      rw [← e1, e2]
      exact hr'
    · intro h
      obtain ⟨r', hr'⟩ := hσ i hi
      have e1 := (b1 i _ r hti h).1
      have e2 := (a1 i _ r' hti hr').1
      rw [← e1, e2]
      exact hr'

/-- C72: threads that run assignments, none of which assigns to a variable that another uses, leave in each variable the number
that its own thread computes by itself, whatever the schedule; a thread that panics does so as it does by itself. -/
theorem C72_numbers (c : Cfg) (k : Kind) (progs : List (List Stmt)) (s : Mem) (vs : List Int) (hs : s.map (Cell.num c k) = vs.map some)
    (hp : ∀ ts ∈ progs, ∀ t ∈ ts, t.Below vs.length)
    (hx : ∀ (i j : Nat) (xs ys : List Stmt), i ≠ j → progs[i]? = some xs → progs[j]? = some ys → ∀ x ∈ xs, ∀ y ∈ ys, x.target ≠ y.target ∧ x.target ∉ y.operand)
    (schedule : List Nat) :
    ¬ ((World.start c s (progs.map (Thread.ofStmts k))).run schedule).Race
    ∧ ∀ i ts r, progs[i]? = some ts → ((World.start c s (progs.map (Thread.ofStmts k))).run schedule).Finished i r →
      (∀ t ∈ ts, Mem.num c k ((World.start c s (progs.map (Thread.ofStmts k))).run schedule).shared t.target
        = (history c.debugAssertions k vs ts).1[t.target]?)
      ∧ ((history c.debugAssertions k vs ts).2 = true → r = .ok ())
      ∧ ((history c.debugAssertions k vs ts).2 = false → Panics r) := by
  have hb : Borrowed (progs.map (Thread.ofStmts k)) := by
    constructor
    · intro t ht
      obtain ⟨ts, -, rfl⟩ := List.mem_map.mp ht
      exact ofStmts_uses k _ _ ts fun t ht => ⟨List.mem_map.mpr ⟨t, ht, rfl⟩, fun p hp => List.mem_flatMap.mpr ⟨t, ht, hp⟩⟩
    · intro i j a b hij ha hb p hpa
      rw [List.getElem?_map, Option.map_eq_some_iff] at ha hb
      obtain ⟨xs, hxs, rfl⟩ := ha
      obtain ⟨ys, hys, rfl⟩ := hb
      obtain ⟨x, hxm, rfl⟩ := List.mem_map.mp hpa
      constructor
      · intro h
        obtain ⟨y, hy, hy'⟩ := List.mem_flatMap.mp h
        exact (hx i j xs ys hij hxs hys x hxm y hy).2 hy'
      · intro h
        obtain ⟨y, hy, hy'⟩ := List.mem_map.mp h
        exact (hx i j xs ys hij hxs hys x hxm y hy).1 hy'.symm
  refine ⟨C72_no_race c s _ hb schedule, fun i ts r hi hf => ?_⟩
  have hi' : (progs.map (Thread.ofStmts k))[i]? = some (Thread.ofStmts k ts) := by rw [List.getElem?_map, hi]; rfl
  obtain ⟨h1, h2⟩ := (C72_results c s _ hb schedule).1 i _ r hi' hf
  have hm : (Thread.ofStmts k ts).code.mem c = runAll c k ts := ofStmts_mem c k ts
  rw [hm] at h1 h2
  obtain ⟨res, s', e1, e2, e3, e4⟩ := C55_history k ts s vs hs (hp ts (List.mem_of_getElem? hi))
  rw [e1] at h1 h2
  dsimp only at h1 h2
  subst h1
  refine ⟨fun t ht => ?_, e3, e4⟩
  have hlen : s.length = vs.length := by
    have := congrArg List.length hs
    rwa [List.length_map, List.length_map] at this
  have hlt : t.target < s.length := by
    have := hp ts (List.mem_of_getElem? hi) t ht
    rw [hlen]
    cases t with
    | op o d v => exact this.1
    | shl d n => exact this
    | shr d n => exact this
  have := h2 t.target (List.mem_map.mpr ⟨t, ht, rfl⟩) hlt
  unfold Mem.num
  rw [this]
  have e := congrArg (·[t.target]?) e2
  rw [List.getElem?_map, List.getElem?_map] at e
  rcases hc : s'[t.target]? with _ | x
  · rw [hc] at e
    rcases hh : (history c.debugAssertions k vs ts).1[t.target]? with _ | z
    · rfl
    · rw [hh] at e; exact absurd e (by simp)
  · rw [hc] at e
    rcases hh : (history c.debugAssertions k vs ts).1[t.target]? with _ | z
    · rw [hh] at e; exact absurd e (by simp)
    · rw [hh] at e
      simp only [Option.map_some, Option.some.injEq] at e
      exact e

/-! Examples -/

/-- Five variables. -/
def fiveVars (c : Cfg) : Mem := [7, 10, 100, 1, 0].map fun n => Cell.ofU (U256.ofInt c n)
/-- Three threads that all use variable 0; the last one divides by zero. -/
def threeThreads : List (List Stmt) :=
  [[.op .add 1 0, .op .mul 1 0, .shl 1 2], [.op .sub 2 0, .op .rem 2 0], [.op .add 3 0, .op .div 3 4, .op .add 3 0]]

example (schedule : List Nat) : ¬ ((World.start dbg (fiveVars dbg) (threeThreads.map (Thread.ofStmts .u))).run schedule).Race :=
  (C72_numbers dbg .u threeThreads (fiveVars dbg) [7, 10, 100, 1, 0] (by decide +kernel) (by decide +kernel)
    (by
      have : ∀ i ∈ [0, 1, 2], ∀ j ∈ [0, 1, 2], i ≠ j → ∀ x ∈ threeThreads.getD i [], ∀ y ∈ threeThreads.getD j [],
          x.target ≠ y.target ∧ x.target ∉ y.operand := by decide +kernel
      intro i j xs ys hij hi hj
      have h1 := (List.getElem?_eq_some_iff.mp hi).1
      have h2 := (List.getElem?_eq_some_iff.mp hj).1
      have h0 : ∀ n < 3, n ∈ [0, 1, 2] := by decide
      have := this i (h0 i h1) j (h0 j h2) hij
      rw [List.getD_eq_getElem?_getD, List.getD_eq_getElem?_getD, hi, hj] at this
      exact this)
    schedule).1

-- one step each in turn, and one thread after the other, in both back-ends and both kinds of builds
example : ∀ c ∈ [dbg, rel, dll, rll], ∀ schedule ∈ [(List.range 300).map (· % 3), (List.range 300).map (· / 100),
      (List.range 300).map fun i => 2 - i / 100],
    ((World.start c (fiveVars c) (threeThreads.map (Thread.ofStmts .u))).run schedule).shared.map (Cell.num c .u)
      = [some 7, some 476, some 2, some 8, some 0] := by decide +kernel

/-- `let (v, o) = a.overflowing_add(*b); if o { panic!() } *d = v; v` -/
def addOrPanic (d a b : Loc) : Code U256 :=
  .call (.overflowing .u .add a b) fun r => if r.2 then .ret (throwPanic .explicit) else .call (.store .u d r.1) fun _ => .ret (.ok r.1)
/-- `*r = &*r / a; r.div_rem(*a).1` -/
def divTwice (r a : Loc) : Code U256 :=
  .call (.intr2 .udiv2 r a) fun _ => .call (.divRem r a) fun x => .ret (.ok x.2)
/-- Two threads that share variable 0. -/
def twoThreads : List (Thread U256) := [⟨addOrPanic 1 0 1, [0], [1]⟩, ⟨divTwice 2 0, [0], [2]⟩]

theorem twoThreads_borrowed : Borrowed twoThreads := by
  constructor
  · intro t ht
    simp only [twoThreads, List.mem_cons, List.not_mem_nil, or_false] at ht
    rcases ht with rfl | rfl
    · refine ⟨by decide, by decide, fun r => ?_⟩
      dsimp only
      split
      · trivial
      · exact ⟨by simp [Op.shared], by simp [Op.mut], fun _ => trivial⟩
    · exact ⟨by decide, by decide, fun _ => ⟨by decide, by decide, fun _ => trivial⟩⟩
  · have : ∀ i ∈ [0, 1], ∀ j ∈ [0, 1], i ≠ j → ∀ p ∈ (twoThreads.map (·.writes)).getD i [],
        p ∉ (twoThreads.map (·.reads)).getD j [] ∧ p ∉ (twoThreads.map (·.writes)).getD j [] := by decide
    intro i j s t hij hi hj p hp
    have h0 : ∀ n < 2, n ∈ [0, 1] := by decide
    have := this i (h0 i (List.getElem?_eq_some_iff.mp hi).1) j (h0 j (List.getElem?_eq_some_iff.mp hj).1) hij p
    simp only [List.getD_eq_getElem?_getD, List.getElem?_map, hi, hj, Option.map_some, Option.getD_some] at this
    exact this hp

example (schedule : List Nat) : ¬ ((World.start rll (fiveVars rll) twoThreads).run schedule).Race :=
  C72_no_race rll _ _ twoThreads_borrowed schedule
example : ∀ c ∈ [dbg, rel, dll, rll], ∀ schedule ∈ [(List.range 100).map (· % 2), (List.range 100).map (· / 50)],
    ((World.start c (fiveVars c) twoThreads).run schedule).shared.map (Cell.num c .u) = [some 7, some 17, some 14, some 1, some 0]
    ∧ ((World.start c (fiveVars c) twoThreads).run schedule).threads.map (fun t => match t.1 with
        | .done (.ok v) => some (v.toNat c)
        | _ => none) = [some 17, some 0] := by decide +kernel
-- a step that a call comes to, and the object that it is about to write
example : ∃ q, ((Op.assign .u .add 3 1).steps rel).Reaches 5 q ∧ q.access = some (3, rel.bigEndian, true) :=
  ⟨_, .step (fiveVars rel) (by decide) (.step (fiveVars rel) (by decide) .start), rfl⟩

-- the hypothesis matters: two threads that both add to variable 1 come to a race, and one of the additions can be lost
example : ((World.start rel (fiveVars rel) ([[.op .add 1 0], [.op .add 1 0]].map (Thread.ofStmts .u))).run [0, 0, 0, 1, 1, 1, 0, 0]).Race :=
  ⟨0, 1, _, _, 1, true, true, false, by decide, rfl, rfl, by decide, rfl, rfl, .inl rfl⟩
example : ((World.start rel (fiveVars rel) ([[.op .add 1 0], [.op .add 1 0]].map (Thread.ofStmts .u))).run
    (List.replicate 5 0 ++ List.replicate 50 1 ++ List.replicate 50 0)).shared.map (Cell.num rel .u)
      = [some 7, some 17, some 100, some 1, some 0] := by decide +kernel

end Ethnum
