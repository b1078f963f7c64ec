import Verif.Proofs.Serde
import Verif.Model.Borrows
import Verif.Proofs.Fmt
import Mathlib.Tactic.SplitIfs
import Mathlib.Tactic.FinCases

/-
Lemmas for C67: what the traces of Model/Borrows.lean contain, and what the two aliasing models make of them.
-/

namespace Ethnum.Borrow
open Event

/-! ### The results are those of Model/Fmt.lean and Model/Serde.lean -/

theorem copy2_result (d i : Int) (buf : Buf) : Except.map Prod.fst (copy2 d i buf) = Ethnum.copy2 d i buf := by
  unfold copy2
  cases Ethnum.copy2 d i buf <;> rfl

theorem decLoop_result (c : Cfg) : ∀ (fuel : Nat) (n : U256) (curr : Int) (buf : Buf),
    Except.map (fun x => (x.1, x.2.1, x.2.2.1)) (decLoop c fuel n curr buf) = Ethnum.decLoop c fuel n curr buf := by
  intro fuel
  induction fuel with
  | zero => intro n curr buf; rfl
  | succ fuel ih =>
    intro n curr buf
    unfold decLoop Ethnum.decLoop
    split
    · cases n.div_rem c (U256.new c 10000) with
      | error e => rfl
      | ok qr =>
        obtain ⟨q, r⟩ := qr
        simp only [bind, Except.bind]
        cases isizeC c (curr - 4) .subOverflow with
        | error e => rfl
        | ok k =>
          simp only [copy2, bind, Except.bind]
          cases Ethnum.copy2 (isizeShl1 c ((r.as_isize c).tdiv 100)) k buf with
          | error e => rfl
          | ok b1 =>
            simp only [pure, Except.pure]
            cases isizeC c (k + 2) .addOverflow with
            | error e => rfl
            | ok k2 =>
              simp only []
              cases Ethnum.copy2 (isizeShl1 c ((r.as_isize c).tmod 100)) k2 b1 with
              | error e => rfl
              | ok b2 =>
                simp only []
                rw [← ih]
                cases decLoop c fuel q k b2 <;> rfl
    · rfl

theorem decTail_result (c : Cfg) (n curr : Int) (buf : Buf) :
    Except.map (fun x => (x.1, x.2.1)) (decTail c n curr buf) = Ethnum.decTail c n curr buf := by
  have last : ∀ (n curr : Int) (buf : Buf) (es : List Event),
      Except.map (fun x => (x.1, x.2.1)) (if n < 10 then do
        let curr ← isizeC c (curr - 1) .subOverflow
        let d ← addC c (BitVec.ofInt 8 n) 48
        let buf ← buf.write curr d
        return (curr, buf, es ++ [access .write tPtr curr.toNat 1])
      else do
        let d1 := isizeShl1 c n
        let curr ← isizeC c (curr - 2) .subOverflow
        let (buf, e) ← copy2 d1 curr buf
        return (curr, buf, es ++ e) : Res (Int × Buf × List Event))
      = (if n < 10 then do
        let curr ← isizeC c (curr - 1) .subOverflow
        let d ← addC c (BitVec.ofInt 8 n) 48
        let buf ← buf.write curr d
        return (curr, buf)
      else do
        let d1 := isizeShl1 c n
        let curr ← isizeC c (curr - 2) .subOverflow
        let buf ← Ethnum.copy2 d1 curr buf
        return (curr, buf) : Res (Int × Buf)) := by
    intro n curr buf es
    split
    · simp only [bind, Except.bind]
      cases isizeC c (curr - 1) .subOverflow with
      | error e => rfl
      | ok k =>
        simp only []
        cases addC c (BitVec.ofInt 8 n) 48 with
        | error e => rfl
        | ok d =>
          simp only []
          cases buf.write k d <;> rfl
    · simp only [bind, Except.bind]
      cases isizeC c (curr - 2) .subOverflow with
      | error e => rfl
      | ok k =>
        simp only [copy2, bind, Except.bind]
        cases Ethnum.copy2 (isizeShl1 c n) k buf <;> rfl
  unfold decTail Ethnum.decTail
  by_cases h : n ≥ 100
  · simp only [if_pos h]
    cases h1 : isizeC c (curr - 2) .subOverflow with
    | error e => rfl
    | ok k =>
      cases h2 : Ethnum.copy2 (isizeShl1 c (n.tmod 100)) k buf with
      | error e => simp only [copy2, h2, bind, Except.bind, Except.map]
      | ok b =>
        simp only [copy2, h2, bind, Except.bind, pure, Except.pure]
        exact last _ _ _ _
  · simp only [if_neg h]
    exact last _ _ _ _

theorem fmt_u256_result (w : Nat) (c : Cfg) (n : U256) (nn : Bool) (f : Formatter) :
    Except.map Prod.fst (fmt_u256 w c n nn f) = Ethnum.fmt_u256 c n nn f := by
  unfold fmt_u256 Ethnum.fmt_u256
  rw [← decLoop_result]
  cases decLoop c 100 n 79 (Buf.uninit 79) with
  | error e => rfl
  | ok x =>
    obtain ⟨n', curr, buf, e1⟩ := x
    simp only [bind, Except.bind, Except.map]
    rw [← decTail_result]
    cases decTail c (n'.as_isize c) curr buf with
    | error e => rfl
    | ok x =>
      obtain ⟨curr, buf, e2⟩ := x
      simp only [Except.map]
      by_cases hc : curr < 0 ∨ (79 : Int) < curr
      · simp only [if_pos hc]
        rfl
      · simp only [if_neg hc]
        cases Buf.init (buf.drop curr.toNat) with
        | error e => rfl
        | ok s =>
          simp only []
          cases strUnchecked s <;> rfl

theorem radixLoop_result (c : Cfg) (r : Radix) (base : U256) : ∀ (k : Nat) (x : U256) (buf : Buf),
    Except.map (fun x => (x.1, x.2.1)) (radixLoop c r base k x buf) = Radix.loop c r base k x buf := by
  intro k
  induction k with
  | zero => intro x buf; rfl
  | succ k ih =>
    intro x buf
    unfold radixLoop Radix.loop
    cases x.rem c base with
    | error e => rfl
    | ok n =>
      simp only [bind, Except.bind]
      cases x.div_assign c base with
      | error e => rfl
      | ok x =>
        simp only []
        cases r.digit c (n.as_u8 c) with
        | error e => rfl
        | ok d =>
          simp only []
          split
          · rfl
          · rw [← ih]
            cases radixLoop c r base k x (buf.set k (some d)) <;> rfl

theorem radix_fmt_u256_result (c : Cfg) (r : Radix) (x : U256) (nn : Bool) (f : Formatter) :
    Except.map Prod.fst (radix_fmt_u256 c r x nn f) = r.fmt_u256 c x nn f := by
  unfold radix_fmt_u256 Radix.fmt_u256
  simp only []
  rw [← radixLoop_result]
  cases radixLoop c r (U256.from_prim c .u8 r.BASE) 256 x (Buf.uninit 256) with
  | error e => rfl
  | ok y =>
    obtain ⟨curr, buf, es⟩ := y
    simp only [bind, Except.bind, Except.map]
    by_cases hc : (buf.drop curr).isEmpty = true
    · simp only [if_pos hc]
      rfl
    · simp only [if_neg hc]
      cases Buf.init (buf.drop curr) with
      | error e => rfl
      | ok s =>
        simp only []
        cases strUnchecked s <;> rfl

theorem write_all_result (c : Cfg) : ∀ (l : List (List U8)) (k : Nat) (f : Serde.FormatBuffer),
    Except.map Prod.fst (write_all c k f l) = f.write_all c l := by
  intro l
  induction l with
  | nil => intro k f; rfl
  | cons s l ih =>
    intro k f
    unfold write_all Serde.FormatBuffer.write_all
    simp only [write_str, bind, Except.bind]
    cases f.write_str c s with
    | error e => rfl
    | ok r =>
      cases r with
      | none => rfl
      | some g =>
        simp only [pure, Except.pure]
        rw [← ih (k + 1) g]
        cases write_all c (k + 1) g l <;> rfl

theorem serialize_text_result (c : Cfg) (k : Serde.Chunking) (N : Nat) (text : List Char) :
    Except.map Prod.fst (serialize_text c k N text) = Serde.serialize_text c k N text := by
  unfold serialize_text Serde.serialize_text
  rw [← write_all_result c _ 0]
  cases write_all c 0 (Serde.FormatBuffer.new N) (k.split (text.map (fun ch => BitVec.ofNat 8 ch.toNat))) with
  | error e => rfl
  | ok x =>
    obtain ⟨r, es⟩ := x
    cases r with
    | none => rfl
    | some f =>
      simp only [bind, Except.bind, Except.map, as_str]
      cases f.as_str <;> rfl

/-! ### Stacked Borrows -/

namespace Stacked

theorem run_append (i : Nat) : ∀ (a b : List Event) (s : Stack), run i (a ++ b) s = (run i a s).bind (run i b) := by
  intro a
  induction a with
  | nil => intro b s; rfl
  | cons e a ih =>
    intro b s
    simp only [List.cons_append, run]
    cases step i s e with
    | none => rfl
    | some s => exact ih b s

theorem granting_split {t : Tag} {a : Access} : ∀ {s u l : Stack} {j : Item}, granting t a s = some (u, j, l) → s = u ++ j :: l := by
  intro s
  induction s with
  | nil => intro u l j h; cases h
  | cons x s ih =>
    intro u l j h
    unfold granting at h
    split at h
    · cases h; rfl
    · cases hg : granting t a s with
      | none => rw [hg] at h; cases h
      | some y =>
        obtain ⟨u', j', l'⟩ := y
        rw [hg] at h
        cases h
        rw [ih hg]
        rfl

theorem granting_none {t : Tag} {a : Access} : ∀ {s : Stack}, (∀ j ∈ s, j.tag ≠ t) → granting t a s = none := by
  intro s
  induction s with
  | nil => intro _; rfl
  | cons x s ih =>
    intro h
    unfold granting
    rw [if_neg (fun e => h x List.mem_cons_self e.1), ih fun j hj => h j (List.mem_cons_of_mem _ hj)]

theorem access_none {t : Tag} {a : Access} {s : Stack} (h : ∀ j ∈ s, j.tag ≠ t) : access t a s = none := by
  unfold access
  rw [granting_none h]

theorem disable_tag (j : Item) : (disable j).tag = j.tag := by
  unfold disable
  split <;> rfl

theorem mem_rev_take {l : Stack} {p : Item → Bool} {j : Item} (h : j ∈ (l.reverse.takeWhile p).reverse) : j ∈ l := by
  have := (List.takeWhile_sublist p).mem (List.mem_reverse.1 h)
  exact List.mem_reverse.1 this

theorem access_tags {t : Tag} {a : Access} {s s' : Stack} (h : access t a s = some s') :
    ∀ j ∈ s', ∃ j' ∈ s, j'.tag = j.tag := by
  unfold access at h
  cases hg : granting t a s with
  | none => rw [hg] at h; cases h
  | some x =>
    obtain ⟨u, j, l⟩ := x
    rw [hg] at h
    rw [granting_split hg]
    cases a with
    | read =>
      simp only [] at h
      split at h
      · cases h
      · cases h
        intro x hx
        rcases List.mem_append.1 hx with hx | hx
        · obtain ⟨y, hy, rfl⟩ := List.mem_map.1 hx
          exact ⟨y, List.mem_append.2 (.inl hy), (disable_tag y).symm⟩
        · exact ⟨x, List.mem_append.2 (.inr hx), rfl⟩
    | write =>
      simp only [] at h
      by_cases hp : j.perm = .sharedRW
      · simp only [if_pos hp] at h
        split at h
        · cases h
        · cases h
          intro x hx
          rcases List.mem_append.1 hx with hx | hx
          · exact ⟨x, List.mem_append.2 (.inl (mem_rev_take hx)), rfl⟩
          · exact ⟨x, List.mem_append.2 (.inr hx), rfl⟩
      · simp only [if_neg hp] at h
        split at h
        · cases h
        · cases h
          intro x hx
          exact ⟨x, List.mem_append.2 (.inr hx), rfl⟩

end Stacked

/-- The event gives the byte a pointer with this tag. -/
def Event.Makes (t : Tag) (i : Nat) : Event → Prop
  | ref _ _ new lo len _ => new = t ∧ lo ≤ i ∧ i < lo + len
  | raw _ _ new lo len => new = t ∧ lo ≤ i ∧ i < lo + len
  | _ => False

/-- The event uses the pointer with this tag on the byte. -/
def Event.Uses (t : Tag) (i : Nat) : Event → Prop
  | ref _ p _ lo len _ => p = t ∧ lo ≤ i ∧ i < lo + len
  | raw _ p _ lo len => p = t ∧ lo ≤ i ∧ i < lo + len
  | access _ p lo len => p = t ∧ lo ≤ i ∧ i < lo + len
  | ret _ => False

namespace Stacked

/-- Stacked Borrows rejects the use of a pointer on a byte that it was never made for. -/
theorem rejects (t : Tag) (i : Nat) : ∀ (es : List Event) (s : Stack), (∀ j ∈ s, j.tag ≠ t) → (∀ e ∈ es, ¬ e.Makes t i) →
    (∃ e ∈ es, e.Uses t i) → run i es s = none := by
  intro es
  induction es with
  | nil => rintro s _ _ ⟨e, he, _⟩; cases he
  | cons e es ih =>
    intro s hs hm hu
    have keep : ∀ {p : Tag} {a : Access} {s' : Stack}, access p a s = some s' → ∀ j ∈ s', j.tag ≠ t := by
      intro p a s' h j hj
      obtain ⟨j', hj', e'⟩ := access_tags h j hj
      rw [← e']
      exact hs j' hj'
    have me := hm e List.mem_cons_self
    have rest : ∀ s', (∀ j ∈ s', j.tag ≠ t) → ¬ e.Uses t i → run i es s' = none := by
      intro s' hs' ne
      refine ih s' hs' (fun x hx => hm x (List.mem_cons_of_mem _ hx)) ?_
      obtain ⟨x, hx, hxu⟩ := hu
      rcases List.mem_cons.1 hx with rfl | hx
      · exact absurd hxu ne
      · exact ⟨x, hx, hxu⟩
    have push : ∀ (o : Option Stack) (x : Item), (∀ s', o = some s' → ∀ j ∈ s', j.tag ≠ t) → x.tag ≠ t → ¬ e.Uses t i →
        (match o.map (x :: ·) with | none => none | some s => run i es s) = none := by
      intro o x ho hx ne
      cases o with
      | none => rfl
      | some s' =>
        refine rest (x :: s') (fun j hj => ?_) ne
        rcases List.mem_cons.1 hj with rfl | hj
        · exact hx
        · exact ho s' rfl j hj
    unfold run
    cases e with
    | ref k p new lo len prot =>
      unfold step
      by_cases hr : lo ≤ i ∧ i < lo + len
      · simp only [if_pos hr]
        by_cases hp : p = t
        · subst hp
          cases k <;> simp only [access_none hs, Option.map_none]
        · have hnew : new ≠ t := fun h => me ⟨h, hr⟩
          have ne : ¬ (ref k p new lo len prot).Uses t i := fun h => hp h.1
          cases k
          · exact push _ _ (fun s' h => keep h) hnew ne
          · exact push _ _ (fun s' h => keep h) hnew ne
      · simp only [if_neg hr]
        exact rest s hs fun h => hr h.2
    | raw k p new lo len =>
      unfold step
      by_cases hr : lo ≤ i ∧ i < lo + len
      · simp only [if_pos hr]
        by_cases hp : p = t
        · subst hp
          cases k <;> simp only [access_none hs, Option.map_none]
        · have hnew : new ≠ t := fun h => me ⟨h, hr⟩
          have ne : ¬ (raw k p new lo len).Uses t i := fun h => hp h.1
          cases k
          · exact push _ _ (fun s' h => keep h) hnew ne
          · exact push _ _ (fun s' h => keep h) hnew ne
      · simp only [if_neg hr]
        exact rest s hs fun h => hr h.2
    | access a p lo len =>
      unfold step
      by_cases hr : lo ≤ i ∧ i < lo + len
      · simp only [if_pos hr]
        by_cases hp : p = t
        · subst hp
          simp only [access_none hs]
        · cases ha : Stacked.access p a s with
          | none => rfl
          | some s' => exact rest s' (keep ha) fun h => hp h.1
      · simp only [if_neg hr]
        exact rest s hs fun h => hr h.2
    | ret ts =>
      refine rest _ (fun j hj => ?_) fun h => h
      obtain ⟨y, hy, rfl⟩ := List.mem_map.1 hj
      split
      · exact hs y hy
      · exact hs y hy

end Stacked

/-! ### What the decimal trace contains -/

theorem write_ok {buf buf' : Buf} {i : Int} {b : U8} (h : buf.write i b = .ok buf') :
    0 ≤ i ∧ i < buf.length ∧ buf'.length = buf.length := by
  unfold Buf.write at h
  split at h
  · rename_i hi
    cases h
    exact ⟨hi.1, hi.2, List.length_set⟩
  · cases h

theorem copy2_ok {d i : Int} {buf buf' : Buf} {es : List Event} (h : copy2 d i buf = .ok (buf', es)) :
    0 ≤ i ∧ i + 2 ≤ buf.length ∧ buf'.length = buf.length ∧ es = [access .write tPtr i.toNat 2] := by
  unfold copy2 at h
  cases hc : Ethnum.copy2 d i buf with
  | error e => rw [hc] at h; cases h
  | ok b =>
    rw [hc] at h
    cases h
    unfold Ethnum.copy2 at hc
    split at hc
    · split at hc
      · rename_i a b' _ _
        cases h1 : buf.write i a with
        | error e => rw [h1] at hc; cases hc
        | ok b1 =>
          rw [h1] at hc
          obtain ⟨g1, g2, g3⟩ := write_ok h1
          obtain ⟨g4, g5, g6⟩ := write_ok (show b1.write (i + 1) b' = .ok buf' from hc)
          exact ⟨g1, by omega, by omega, rfl⟩
      · cases hc
    · cases hc

/-- Only writes through `buf_ptr`, within the buffer. -/
def PtrWrites (es : List Event) : Prop := ∀ e ∈ es, ∃ lo len, e = access .write tPtr lo len ∧ lo + len ≤ 79

theorem PtrWrites.append {a b : List Event} (ha : PtrWrites a) (hb : PtrWrites b) : PtrWrites (a ++ b) := by
  intro e he
  rcases List.mem_append.1 he with h | h
  · exact ha e h
  · exact hb e h

theorem ptrWrites_copy2 {i : Int} (h1 : 0 ≤ i) (h2 : i + 2 ≤ 79) : PtrWrites [access .write tPtr i.toNat 2] := by
  intro e he
  cases List.mem_singleton.1 he
  exact ⟨_, _, rfl, by omega⟩

theorem decLoop_events (c : Cfg) : ∀ (fuel : Nat) (n : U256) (curr : Int) (buf : Buf) (n' : U256) (curr' : Int) (buf' : Buf)
    (es : List Event), decLoop c fuel n curr buf = .ok (n', curr', buf', es) → buf.length = 79 →
    buf'.length = 79 ∧ PtrWrites es ∧ (curr = 79 → (es = [] ∧ curr' = 79) ∨ ∃ e ∈ es, e.Uses tPtr 78) := by
  intro fuel
  induction fuel with
  | zero => intro n curr buf n' curr' buf' es h; cases h
  | succ fuel ih =>
    intro n curr buf n' curr' buf' es h hb
    unfold decLoop at h
    split at h
    · cases hd : n.div_rem c (U256.new c 10000) with
      | error e => rw [hd] at h; cases h
      | ok qr =>
        obtain ⟨q, r⟩ := qr
        rw [hd] at h
        simp only [bind, Except.bind] at h
        cases h1 : isizeC c (curr - 4) .subOverflow with
        | error e => rw [h1] at h; cases h
        | ok k =>
          rw [h1] at h
          simp only [] at h
          cases h2 : copy2 (isizeShl1 c ((r.as_isize c).tdiv 100)) k buf with
          | error e => rw [h2] at h; cases h
          | ok x =>
            obtain ⟨b1, e1⟩ := x
            rw [h2] at h
            simp only [] at h
            cases h3 : isizeC c (k + 2) .addOverflow with
            | error e => rw [h3] at h; cases h
            | ok k2 =>
              rw [h3] at h
              simp only [] at h
              cases h4 : copy2 (isizeShl1 c ((r.as_isize c).tmod 100)) k2 b1 with
              | error e => rw [h4] at h; cases h
              | ok x =>
                obtain ⟨b2, e2⟩ := x
                rw [h4] at h
                simp only [] at h
                cases h5 : decLoop c fuel q k b2 with
                | error e => rw [h5] at h; cases h
                | ok y =>
                  obtain ⟨n3, k3, b3, e3⟩ := y
                  rw [h5] at h
                  cases h
                  obtain ⟨g1, g2, g3, rfl⟩ := copy2_ok h2
                  obtain ⟨g4, g5, g6, rfl⟩ := copy2_ok h4
                  obtain ⟨g7, g8, _⟩ := ih _ _ _ _ _ _ _ h5 (by omega)
                  refine ⟨g7, (ptrWrites_copy2 g1 (by omega)).append ((ptrWrites_copy2 g4 (by omega)).append g8), fun hc => .inr ?_⟩
                  subst hc
                  rw [isizeC_ok c _ _ (by omega) (by omega)] at h1
                  cases h1
                  rw [isizeC_ok c _ _ (by omega) (by omega)] at h3
                  cases h3
                  exact ⟨access .write tPtr 77 2, by simp, rfl, by omega, by omega⟩
    · cases h
      exact ⟨hb, (fun e he => by cases he), fun hc => .inl ⟨rfl, hc⟩⟩

theorem decTail_events (c : Cfg) (n curr : Int) (buf : Buf) (curr' : Int) (buf' : Buf) (es : List Event)
    (h : decTail c n curr buf = .ok (curr', buf', es)) (hb : buf.length = 79) :
    PtrWrites es ∧ (curr = 79 → ∃ e ∈ es, e.Uses tPtr 78) := by
  have last : ∀ (n curr : Int) (buf : Buf) (e0 : List Event), buf.length = 79 → PtrWrites e0 →
      (if n < 10 then do
        let curr ← isizeC c (curr - 1) .subOverflow
        let d ← addC c (BitVec.ofInt 8 n) 48
        let buf ← buf.write curr d
        return (curr, buf, e0 ++ [access .write tPtr curr.toNat 1])
      else do
        let d1 := isizeShl1 c n
        let curr ← isizeC c (curr - 2) .subOverflow
        let (buf, e) ← copy2 d1 curr buf
        return (curr, buf, e0 ++ e) : Res (Int × Buf × List Event)) = .ok (curr', buf', es) →
      PtrWrites es ∧ (∀ e ∈ e0, e ∈ es) ∧ (curr = 79 → ∃ e ∈ es, e.Uses tPtr 78) := by
    intro n curr buf e0 hb h0 h
    split at h
    · cases h1 : isizeC c (curr - 1) .subOverflow with
      | error e => rw [h1] at h; cases h
      | ok k =>
        rw [h1] at h
        simp only [bind, Except.bind] at h
        cases h2 : addC c (BitVec.ofInt 8 n) 48 with
        | error e => rw [h2] at h; cases h
        | ok d =>
          rw [h2] at h
          simp only [] at h
          cases h3 : buf.write k d with
          | error e => rw [h3] at h; cases h
          | ok b =>
            rw [h3] at h
            cases h
            obtain ⟨g1, g2, g3⟩ := write_ok h3
            refine ⟨h0.append fun e he => ?_, fun e he => List.mem_append.2 (.inl he), fun hc => ?_⟩
            · cases List.mem_singleton.1 he
              exact ⟨_, _, rfl, by omega⟩
            · subst hc
              rw [isizeC_ok c _ _ (by omega) (by omega)] at h1
              cases h1
              exact ⟨access .write tPtr 78 1, by simp, rfl, by omega, by omega⟩
    · cases h1 : isizeC c (curr - 2) .subOverflow with
      | error e => rw [h1] at h; cases h
      | ok k =>
        rw [h1] at h
        simp only [bind, Except.bind] at h
        cases h2 : copy2 (isizeShl1 c n) k buf with
        | error e => rw [h2] at h; cases h
        | ok x =>
          obtain ⟨b, e1⟩ := x
          rw [h2] at h
          cases h
          obtain ⟨g1, g2, g3, rfl⟩ := copy2_ok h2
          refine ⟨h0.append (ptrWrites_copy2 g1 (by omega)), fun e he => List.mem_append.2 (.inl he), fun hc => ?_⟩
          subst hc
          rw [isizeC_ok c _ _ (by omega) (by omega)] at h1
          cases h1
          exact ⟨access .write tPtr 77 2, by simp, rfl, by omega, by omega⟩
  unfold decTail at h
  by_cases hn : n ≥ 100
  · simp only [if_pos hn] at h
    cases h1 : isizeC c (curr - 2) .subOverflow with
    | error e => rw [h1] at h; cases h
    | ok k =>
      rw [h1] at h
      simp only [bind, Except.bind] at h
      cases h2 : copy2 (isizeShl1 c (n.tmod 100)) k buf with
      | error e => rw [h2] at h; cases h
      | ok x =>
        obtain ⟨b, e1⟩ := x
        rw [h2] at h
        obtain ⟨g1, g2, g3, rfl⟩ := copy2_ok h2
        obtain ⟨r1, r2, _⟩ := last _ k b _ (by omega) (ptrWrites_copy2 g1 (by omega)) h
        refine ⟨r1, fun hc => ⟨_, r2 _ (List.mem_singleton.2 rfl), rfl, ?_⟩⟩
        subst hc
        rw [isizeC_ok c _ _ (by omega) (by omega)] at h1
        cases h1
        omega
  · simp only [if_neg hn] at h
    obtain ⟨r1, _, r3⟩ := last n curr buf [] hb (fun e he => by cases he) h
    exact ⟨r1, r3⟩

/-- The trace of a call: the beginning, writes through `buf_ptr` within the buffer, one of them to the last byte, the end. -/
theorem fmt_u256_events (w : Nat) (c : Cfg) (n : U256) (nn : Bool) (f : Formatter) (text : List Char) (es : List Event)
    (h : fmt_u256 w c n nn f = .ok (text, es)) :
    ∃ ws curr, es = decHead w ++ (ws ++ decEnd curr) ∧ PtrWrites ws ∧ (∃ e ∈ ws, e.Uses tPtr 78) ∧ curr ≤ 79 := by
  unfold fmt_u256 at h
  cases h1 : decLoop c 100 n 79 (Buf.uninit 79) with
  | error e => rw [h1] at h; cases h
  | ok x =>
    obtain ⟨n', k, b, e1⟩ := x
    rw [h1] at h
    simp only [bind, Except.bind] at h
    cases h2 : decTail c (n'.as_isize c) k b with
    | error e => rw [h2] at h; cases h
    | ok x =>
      obtain ⟨k2, b2, e2⟩ := x
      rw [h2] at h
      simp only [] at h
      obtain ⟨g1, g2, g3⟩ := decLoop_events c 100 n 79 _ _ _ _ _ h1 (Buf.length_uninit 79)
      obtain ⟨g4, g5⟩ := decTail_events c _ _ _ _ _ _ h2 g1
      by_cases hc : k2 < 0 ∨ (79 : Int) < k2
      · simp only [if_pos hc] at h
        cases h
      · simp only [if_neg hc] at h
        cases h3 : Buf.init (b2.drop k2.toNat) with
        | error e => rw [h3] at h; cases h
        | ok s =>
          rw [h3] at h
          simp only [] at h
          cases h4 : strUnchecked s with
          | error e => rw [h4] at h; cases h
          | ok t =>
            rw [h4] at h
            cases h
            refine ⟨e1 ++ e2, k2.toNat, by rw [List.append_assoc], g2.append g4, ?_, by omega⟩
            rcases g3 rfl with ⟨rfl, hk⟩ | ⟨e, he, hu⟩
            · obtain ⟨e, he, hu⟩ := g5 hk
              exact ⟨e, List.mem_append.2 (.inr he), hu⟩
            · exact ⟨e, List.mem_append.2 (.inl he), hu⟩

/-! ### The decimal trace under Stacked Borrows -/

theorem decHead_other (i : Nat) (h : 1 ≤ i) : ∀ e ∈ decHead 1, ¬ e.Makes tPtr i := by
  intro e he
  simp only [decHead, List.mem_cons, List.not_mem_nil, or_false] at he
  rcases he with rfl | rfl | rfl
  · exact fun h => by cases h.1
  · exact fun h => by cases h.1
  · rintro ⟨_, _, h'⟩; omega

theorem decEnd_other (i curr : Nat) : ∀ e ∈ decEnd curr, ¬ e.Makes tPtr i := by
  intro e he
  simp only [decEnd, List.mem_cons, List.not_mem_nil, or_false] at he
  rcases he with rfl | rfl | rfl | rfl | rfl
  · exact fun h => by cases h.1
  · exact fun h => by cases h.1
  · exact fun h => by cases h.1
  · exact id
  · exact id

theorem dec_rejected {ws : List Event} (curr : Nat) (hw : PtrWrites ws) (hu : ∃ e ∈ ws, e.Uses tPtr 78) :
    ¬ Stacked.Accepts 79 (decHead 1 ++ (ws ++ decEnd curr)) := by
  intro h
  refine h 78 (Stacked.rejects tPtr 78 _ _ (by decide) ?_ ?_)
  · intro e he
    rcases List.mem_append.1 he with he | he
    · exact decHead_other 78 (by omega) e he
    rcases List.mem_append.1 he with he | he
    · obtain ⟨lo, len, rfl, _⟩ := hw e he
      exact id
    · exact decEnd_other 78 curr e he
  · obtain ⟨e, he, hu⟩ := hu
    exact ⟨e, List.mem_append.2 (.inr (List.mem_append.2 (.inl he))), hu⟩

/-- The stack of a byte of the buffer while the digits are written, if the pointer is for the whole buffer. -/
def decStack : Stacked.Stack := [⟨.sharedRW, tPtr, false⟩, ⟨.unique, tElem, false⟩, ⟨.unique, owner, false⟩]

theorem dec_whole {ws : List Event} (curr : Nat) (hc : curr ≤ 79) (hw : PtrWrites ws) :
    Stacked.Accepts 79 (decHead 79 ++ (ws ++ decEnd curr)) := by
  intro i
  by_cases hi : i < 79
  · have h1 : Stacked.run i (decHead 79) (Stacked.start 79 i) = some decStack := by
      have hr : 0 ≤ i ∧ i < 0 + 79 := by omega
      simp only [decHead, Stacked.run, Stacked.step, Stacked.start, if_pos hr, if_pos hi]
      rfl
    have h2 : Stacked.run i ws decStack = some decStack := by
      clear h1
      induction ws with
      | nil => rfl
      | cons e ws ih =>
        obtain ⟨lo, len, rfl, _⟩ := hw e List.mem_cons_self
        have h3 : Stacked.step i decStack (access .write tPtr lo len) = some decStack := by
          by_cases hr : lo ≤ i ∧ i < lo + len
          · simp only [Stacked.step, if_pos hr]
            decide
          · simp only [Stacked.step, if_neg hr]
        simp only [Stacked.run, h3]
        exact ih fun e he => hw e (List.mem_cons_of_mem _ he)
    have h3 : Stacked.run i (decEnd curr) decStack ≠ none := by
      have hr : 0 ≤ i ∧ i < 0 + 79 := by omega
      by_cases hk : curr ≤ i
      · have hr2 : curr ≤ i ∧ i < curr + (79 - curr) := by omega
        simp only [decEnd, Stacked.run, Stacked.step, if_pos hr, if_pos hr2]
        decide
      · have hr2 : ¬ (curr ≤ i ∧ i < curr + (79 - curr)) := by omega
        simp only [decEnd, Stacked.run, Stacked.step, if_pos hr, if_neg hr2]
        decide
    rw [Stacked.run_append, h1, Option.bind_some, Stacked.run_append, h2, Option.bind_some]
    exact h3
  · have out : ∀ (es : List Event), (∀ e ∈ es, match e with
        | ref _ _ _ lo len _ => lo + len ≤ 79
        | raw _ _ _ lo len => lo + len ≤ 79
        | access _ _ lo len => lo + len ≤ 79
        | ret _ => True) → Stacked.run i es [] = some [] := by
      intro es
      induction es with
      | nil => intro _; rfl
      | cons e es ih =>
        intro h
        have he := h e List.mem_cons_self
        have hs : Stacked.step i [] e = some [] := by
          cases e with
          | ref k p new lo len prot =>
            have hr : ¬ (lo ≤ i ∧ i < lo + len) := by simp only [] at he; omega
            simp only [Stacked.step, if_neg hr]
          | raw k p new lo len =>
            have hr : ¬ (lo ≤ i ∧ i < lo + len) := by simp only [] at he; omega
            simp only [Stacked.step, if_neg hr]
          | access a p lo len =>
            have hr : ¬ (lo ≤ i ∧ i < lo + len) := by simp only [] at he; omega
            simp only [Stacked.step, if_neg hr]
          | ret ts => rfl
        simp only [Stacked.run, hs]
        exact ih fun e he => h e (List.mem_cons_of_mem _ he)
    have h0 : Stacked.start 79 i = [] := if_neg hi
    rw [h0, out]
    · simp
    · intro e he
      rcases List.mem_append.1 he with he | he
      · simp only [decHead, List.mem_cons, List.not_mem_nil, or_false] at he
        rcases he with rfl | rfl | rfl <;> simp
      rcases List.mem_append.1 he with he | he
      · obtain ⟨lo, len, rfl, hl⟩ := hw e he
        exact hl
      · simp only [decEnd, List.mem_cons, List.not_mem_nil, or_false] at he
        rcases he with rfl | rfl | rfl | rfl | rfl <;> simp <;> omega

/-! ### Tree Borrows -/

namespace Tree

theorem run_append (N i : Nat) : ∀ (a b : List Event) (s : State), run N i (a ++ b) s = (run N i a s).bind (run N i b) := by
  intro a
  induction a with
  | nil => intro b s; rfl
  | cons e a ih =>
    intro b s
    simp only [List.cons_append, run]
    cases step N i s e with
    | none => rfl
    | some s => exact ih b s

/-- All nodes of the path may be written through. -/
def Writable (s : State) (path : List Tag) : Prop := ∀ n ∈ s.nodes, n.tag ∈ path → n.perm = .reserved ∨ n.perm = .active
/-- All nodes of the path may be read through. -/
def Readable (s : State) (path : List Tag) : Prop := ∀ n ∈ s.nodes, n.tag ∈ path → n.perm ≠ .disabled
/-- What is protected is on the path. -/
def Guarded (s : State) (path : List Tag) : Prop := ∀ n ∈ s.nodes, n.prot = true → n.tag ∈ path
/-- What is protected is frozen. -/
def Calm (s : State) : Prop := ∀ n ∈ s.nodes, n.prot = true → n.perm = .frozen
/-- All nodes have tags like this. -/
def Tags (s : State) (p : Tag → Prop) : Prop := ∀ n ∈ s.nodes, p n.tag

theorem access_some {t : Tag} {a : Access} {s : State} {path : List Tag} (hl : s.ptrs.lookup t = some path)
    (h : ∀ n ∈ s.nodes, (n.next path a).isSome = true) :
    access t a s = some { s with nodes := s.nodes.map fun n => { n with perm := (n.next path a).getD n.perm } } := by
  unfold access
  rw [hl]
  simp only []
  rw [if_pos (List.all_eq_true.2 h)]

/-- An access through a path that may be written, and that has all that is protected on it. -/
theorem use_ok {t : Tag} (a : Access) {s : State} {path : List Tag} (hl : s.ptrs.lookup t = some path) (hw : Writable s path)
    (hg : Guarded s path) : ∃ s', access t a s = some s' ∧ s'.ptrs = s.ptrs ∧ Writable s' path
      ∧ s'.nodes.map (fun n => (n.tag, n.prot)) = s.nodes.map (fun n => (n.tag, n.prot)) := by
  refine ⟨_, access_some hl ?_, rfl, ?_, ?_⟩
  · intro n hn
    unfold Node.next
    by_cases ht : n.tag ∈ path
    · rw [if_pos ht]
      rcases hw n hn ht with h | h <;> rw [h] <;> cases a <;> rfl
    · rw [if_neg ht]
      have : n.prot = false := by
        cases hp : n.prot with
        | false => rfl
        | true => exact absurd (hg n hn hp) ht
      rw [this]
      cases a <;> cases n.perm <;> rfl
  · intro n hn ht
    obtain ⟨m, hm, rfl⟩ := List.mem_map.1 hn
    simp only [] at ht ⊢
    unfold Node.next
    rw [if_pos ht]
    rcases hw m hm ht with h | h <;> rw [h] <;> cases a
    · exact .inl rfl
    · exact .inr rfl
    · exact .inr rfl
    · exact .inr rfl
  · simp only [List.map_map]
    rfl

/-- A read through a path that may be read, when all that is protected is frozen. -/
theorem read_ok {t : Tag} {s : State} {path : List Tag} (hl : s.ptrs.lookup t = some path) (hr : Readable s path) (hc : Calm s) :
    ∃ s', access t .read s = some s' ∧ s'.ptrs = s.ptrs ∧ (∀ p, Readable s p → Readable s' p) ∧ Calm s'
      ∧ s'.nodes.map (fun n => (n.tag, n.prot)) = s.nodes.map (fun n => (n.tag, n.prot)) := by
  have key : ∀ n ∈ s.nodes, (n.next path .read).isSome = true ∧ (n.perm ≠ .disabled → (n.next path .read).getD n.perm ≠ .disabled)
      ∧ (n.prot = true → (n.next path .read).getD n.perm = .frozen) := by
    intro n hn
    have h1 := hr n hn
    have h2 := hc n hn
    unfold Node.next
    obtain ⟨tag, perm, prot⟩ := n
    simp only [] at h1 h2 ⊢
    by_cases ht : tag ∈ path
    · rw [if_pos ht]
      have := h1 ht
      cases perm <;> cases prot <;> simp_all [inside]
    · rw [if_neg ht]
      cases perm <;> cases prot <;> simp_all [outside]
  refine ⟨_, access_some hl fun n hn => (key n hn).1, rfl, ?_, ?_, ?_⟩
  · intro p hp n hn ht
    obtain ⟨m, hm, rfl⟩ := List.mem_map.1 hn
    exact (key m hm).2.1 (hp m hm ht)
  · intro n hn ht
    obtain ⟨m, hm, rfl⟩ := List.mem_map.1 hn
    exact (key m hm).2.2 ht
  · simp only [List.map_map]
    rfl

theorem tags_of_map {s s' : State} (h : s'.nodes.map (fun n => (n.tag, n.prot)) = s.nodes.map (fun n => (n.tag, n.prot)))
    {P : Tag → Bool → Prop} (hs : ∀ n ∈ s.nodes, P n.tag n.prot) : ∀ n ∈ s'.nodes, P n.tag n.prot := by
  intro n hn
  have : (n.tag, n.prot) ∈ s.nodes.map (fun n => (n.tag, n.prot)) := by
    rw [← h]
    exact List.mem_map.2 ⟨n, hn, rfl⟩
  obtain ⟨m, hm, e⟩ := List.mem_map.1 this
  obtain ⟨e1, e2⟩ := Prod.mk.inj e
  rw [← e1, ← e2]
  exact hs m hm

/-- A new mutable reference from a pointer that may be written through. -/
theorem unique_ok {N i : Nat} {s : State} {p new : Tag} {path : List Tag} (lo len : Nat) (prot : Bool)
    (hl : s.ptrs.lookup p = some path) (hw : Writable s path) (hg : Guarded s path) (hf : Tags s (· ≠ new)) (hN : lo + len ≤ N) :
    ∃ s', step N i s (.ref .unique p new lo len prot) = some s' ∧ s'.ptrs = (new, new :: path) :: s.ptrs
      ∧ Writable s' (new :: path)
      ∧ s'.nodes.map (fun n => (n.tag, n.prot)) = (new, prot) :: s.nodes.map (fun n => (n.tag, n.prot)) := by
  have hw' : Writable ⟨(new, new :: path) :: s.ptrs, ⟨new, .reserved, prot⟩ :: s.nodes⟩ (new :: path) := by
    intro n hn ht
    rcases List.mem_cons.1 hn with rfl | hn
    · exact .inl rfl
    · rcases List.mem_cons.1 ht with h | h
      · exact absurd h (hf n hn)
      · exact hw n hn h
  have hg' : Guarded ⟨(new, new :: path) :: s.ptrs, ⟨new, .reserved, prot⟩ :: s.nodes⟩ (new :: path) := by
    intro n hn ht
    rcases List.mem_cons.1 hn with rfl | hn
    · exact List.mem_cons_self
    · exact List.mem_cons_of_mem _ (hg n hn ht)
  simp only [step, hl]
  split
  · rw [if_pos (by omega)]
    obtain ⟨s', e1, e2, e3, e4⟩ := use_ok (t := new) .read (path := new :: path) (by simp [List.lookup]) hw' hg'
    exact ⟨s', e1, e2, e3, e4⟩
  · exact ⟨_, rfl, rfl, hw', rfl⟩

/-- A new shared reference from a pointer that may be read through. -/
theorem shared_ok {N i : Nat} {s : State} {p new : Tag} {path : List Tag} (lo len : Nat) (prot : Bool)
    (hl : s.ptrs.lookup p = some path) (hr : Readable s path) (hc : Calm s) (hf : Tags s (· ≠ new)) (hN : lo + len ≤ N) :
    ∃ s', step N i s (.ref .shared p new lo len prot) = some s' ∧ s'.ptrs = (new, new :: path) :: s.ptrs
      ∧ (∀ q, Readable s q → Readable s' q) ∧ Readable s' (new :: path) ∧ Calm s'
      ∧ s'.nodes.map (fun n => (n.tag, n.prot)) = (new, prot) :: s.nodes.map (fun n => (n.tag, n.prot)) := by
  have hr0 : ∀ q, Readable s q → Readable ⟨(new, new :: path) :: s.ptrs, ⟨new, .frozen, prot⟩ :: s.nodes⟩ q := by
    intro q hq n hn ht
    rcases List.mem_cons.1 hn with rfl | hn
    · simp
    · exact hq n hn ht
  have hr' : Readable ⟨(new, new :: path) :: s.ptrs, ⟨new, .frozen, prot⟩ :: s.nodes⟩ (new :: path) := by
    intro n hn ht
    rcases List.mem_cons.1 hn with rfl | hn
    · simp
    · rcases List.mem_cons.1 ht with h | h
      · exact absurd h (hf n hn)
      · exact hr n hn h
  have hc' : Calm ⟨(new, new :: path) :: s.ptrs, ⟨new, .frozen, prot⟩ :: s.nodes⟩ := by
    intro n hn ht
    rcases List.mem_cons.1 hn with rfl | hn
    · rfl
    · exact hc n hn ht
  simp only [step, hl]
  split
  · rw [if_pos (by omega)]
    obtain ⟨s', e1, e2, e3, e4, e5⟩ := read_ok (t := new) (path := new :: path) (by simp [List.lookup]) hr' hc'
    exact ⟨s', e1, e2, fun q hq => e3 q (hr0 q hq), e3 _ hr', e4, e5⟩
  · exact ⟨_, rfl, rfl, hr0, hr', hc', rfl⟩

theorem raw_ok {N i : Nat} {s : State} {k : Kind} {p new : Tag} {path : List Tag} (lo len : Nat) (hl : s.ptrs.lookup p = some path) :
    step N i s (.raw k p new lo len) = some { s with ptrs := (new, path) :: s.ptrs } := by
  simp only [step, hl]

theorem lookup_new {s : State} {new : Tag} {path : List Tag} : List.lookup new ((new, path) :: s.ptrs) = some path := by
  simp [List.lookup]

theorem lookup_old {l : List (Tag × List Tag)} {t new : Tag} {path : List Tag} (h : t ≠ new) :
    List.lookup t ((new, path) :: l) = List.lookup t l := by
  have : (t == new) = false := beq_eq_false_iff_ne.2 h
  simp only [List.lookup, this]

/-- Events that only read, through pointers `R` that may be read or through new ones with the tags `F`, in this order. -/
def Reads (N : Nat) : List Tag → List Tag → List Event → Prop
  | _, _, [] => True
  | R, new' :: F, .ref .shared p new lo len _ :: es => new = new' ∧ p ∈ R ∧ lo + len ≤ N ∧ Reads N (new :: R) F es
  | R, new' :: F, .raw .shared p new _ _ :: es => new = new' ∧ p ∈ R ∧ Reads N (new :: R) F es
  | R, F, .access .read p lo len :: es => p ∈ R ∧ lo + len ≤ N ∧ Reads N R F es
  | R, F, .ret _ :: es => Reads N R F es
  | _, _, _ => False

theorem reads_ok (N i : Nat) : ∀ (es : List Event) (R F : List Tag) (s : State), Reads N R F es → Calm s →
    (∀ t ∈ R, ∃ path, s.ptrs.lookup t = some path ∧ Readable s path) → Tags s (· ∉ F) → F.Nodup → (∀ t ∈ R, t ∉ F) →
    run N i es s ≠ none := by
  intro es
  induction es with
  | nil => intro R F s _ _ _ _ _ _ h; cases h
  | cons e es ih =>
    intro R F s he hc hR hF hn hd
    match e, F, he with
    | .ref .shared p new lo len prot, new' :: F, he =>
      obtain ⟨rfl, hp, hN, he⟩ := he
      obtain ⟨path, hl, hr⟩ := hR p hp
      obtain ⟨s', e1, e2, e3, e4, e5, e6⟩ := shared_ok (N := N) (i := i) (s := s) (p := p) (new := new) lo len prot hl hr hc
        (fun n hn h => hF n hn (h ▸ List.mem_cons_self)) hN
      simp only [run, e1]
      refine ih (new :: R) F s' he e5 ?_ ?_ (List.nodup_cons.1 hn).2 ?_
      · intro t ht
        rcases List.mem_cons.1 ht with rfl | ht
        · exact ⟨t :: path, by rw [e2]; exact lookup_new, e4⟩
        · obtain ⟨q, hq, hqr⟩ := hR t ht
          refine ⟨q, ?_, e3 q hqr⟩
          rw [e2, lookup_old (fun h : t = new => hd t ht (h ▸ List.mem_cons_self)), hq]
      · intro n hnn hin
        have : (n.tag, n.prot) ∈ (new, prot) :: s.nodes.map (fun n => (n.tag, n.prot)) := by
          rw [← e6]
          exact List.mem_map.2 ⟨n, hnn, rfl⟩
        rcases List.mem_cons.1 this with h | h
        · rw [(Prod.mk.inj h).1] at hin
          exact (List.nodup_cons.1 hn).1 hin
        · obtain ⟨m, hm, e⟩ := List.mem_map.1 h
          exact hF m hm (List.mem_cons_of_mem _ ((Prod.mk.inj e).1 ▸ hin))
      · intro t ht hin
        rcases List.mem_cons.1 ht with rfl | ht
        · exact (List.nodup_cons.1 hn).1 hin
        · exact hd t ht (List.mem_cons_of_mem _ hin)
    | .raw .shared p new lo len, new' :: F, he =>
      obtain ⟨rfl, hp, he⟩ := he
      obtain ⟨path, hl, hr⟩ := hR p hp
      simp only [run, raw_ok lo len hl]
      refine ih (new :: R) F _ he hc ?_ (fun n hn h => hF n hn (List.mem_cons_of_mem _ h)) (List.nodup_cons.1 hn).2 ?_
      · intro t ht
        rcases List.mem_cons.1 ht with rfl | ht
        · exact ⟨path, lookup_new, hr⟩
        · obtain ⟨q, hq, hqr⟩ := hR t ht
          refine ⟨q, ?_, hqr⟩
          simp only []
          rw [lookup_old (fun h : t = new => hd t ht (h ▸ List.mem_cons_self)), hq]
      · intro t ht hin
        rcases List.mem_cons.1 ht with rfl | ht
        · exact (List.nodup_cons.1 hn).1 hin
        · exact hd t ht (List.mem_cons_of_mem _ hin)
    | .access .read p lo len, F, he =>
      have he : p ∈ R ∧ lo + len ≤ N ∧ Reads N R F es := by cases F <;> exact he
      obtain ⟨hp, hN, he⟩ := he
      obtain ⟨path, hl, hr⟩ := hR p hp
      simp only [run, step]
      by_cases hi : lo ≤ i ∧ i < lo + len
      · obtain ⟨s', e1, e2, e3, e4, e5⟩ := read_ok (t := p) hl hr hc
        simp only [if_pos hi, if_pos (show i < N by omega), e1]
        refine ih R F s' he e4 ?_ (tags_of_map e5 (P := fun t _ => t ∉ F) hF) hn hd
        intro t ht
        obtain ⟨q, hq, hqr⟩ := hR t ht
        exact ⟨q, by rw [e2]; exact hq, e3 q hqr⟩
      · simp only [if_neg hi]
        exact ih R F s he hc hR hF hn hd
    | .ret ts, F, he =>
      have he : Reads N R F es := by cases F <;> exact he
      simp only [run, step]
      have key : ∀ n ∈ (s.nodes.map fun n => if n.tag ∈ ts then { n with prot := false } else n), ∃ m ∈ s.nodes,
          n.tag = m.tag ∧ n.perm = m.perm ∧ (n.prot = true → m.prot = true) := by
        intro n hn
        obtain ⟨m, hm, rfl⟩ := List.mem_map.1 hn
        refine ⟨m, hm, ?_⟩
        split
        · exact ⟨rfl, rfl, fun h => by cases h⟩
        · exact ⟨rfl, rfl, id⟩
      refine ih R F _ he ?_ ?_ ?_ hn hd
      · intro n hn hp
        obtain ⟨m, hm, h1, h2, h3⟩ := key n hn
        rw [h2]
        exact hc m hm (h3 hp)
      · intro t ht
        obtain ⟨q, hq, hqr⟩ := hR t ht
        refine ⟨q, hq, ?_⟩
        intro n hn hp
        obtain ⟨m, hm, h1, h2, h3⟩ := key n hn
        rw [h2]
        exact hqr m hm (h1 ▸ hp)
      · intro n hn hp
        obtain ⟨m, hm, h1, h2, h3⟩ := key n hn
        exact hF m hm (h1 ▸ hp)

theorem Writable.readable {s : State} {path : List Tag} (h : Writable s path) : Readable s path := by
  intro n hn ht hd
  rcases h n hn ht with h | h <;> rw [h] at hd <;> cases hd

theorem Writable.mono {s : State} {p q : List Tag} (h : Writable s p) (hq : ∀ t ∈ q, t ∈ p) : Writable s q :=
  fun n hn ht => h n hn (hq _ ht)

end Tree

/-- The tree while the digits are written. -/
structure DecTree (s : Tree.State) : Prop where
  ptrs : s.ptrs = [(tPtr, [tElem, owner]), (tElem, [tElem, owner]), (tLen1, [tLen1, owner]), (owner, [owner])]
  keys : s.nodes.map (fun n => (n.tag, n.prot)) = [(tElem, false), (tLen1, false), (owner, false)]
  writable : Tree.Writable s [tElem, owner]

theorem noProt_of_keys {s : Tree.State} {l : List (Tag × Bool)} (h : s.nodes.map (fun n => (n.tag, n.prot)) = l)
    (hl : ∀ x ∈ l, x.2 = false) : ∀ n ∈ s.nodes, n.prot = false := by
  intro n hn
  exact hl (n.tag, n.prot) (h ▸ List.mem_map.2 ⟨n, hn, rfl⟩)

theorem tag_of_keys {s : Tree.State} {l : List (Tag × Bool)} (h : s.nodes.map (fun n => (n.tag, n.prot)) = l)
    {P : Tag → Prop} (hl : ∀ x ∈ l, P x.1) : Tree.Tags s P := by
  intro n hn
  exact hl (n.tag, n.prot) (h ▸ List.mem_map.2 ⟨n, hn, rfl⟩)

theorem dec_head_tree (w i : Nat) (hw : w ≤ 79) : ∃ s, Tree.run 79 i (decHead w) Tree.start = some s ∧ DecTree s := by
  refine ⟨⟨[(tPtr, [tElem, owner]), (tElem, [tElem, owner]), (tLen1, [tLen1, owner]), (owner, [owner])],
    [⟨tElem, .reserved, false⟩, ⟨tLen1, .frozen, false⟩, ⟨owner, .active, false⟩]⟩, ?_, rfl, rfl, ?_⟩
  · by_cases h : i < 79
    · have h1 : 0 ≤ i ∧ i < 0 + 79 := by omega
      by_cases h' : i < w
      · have h2 : 0 ≤ i ∧ i < 0 + w := by omega
        simp only [decHead, Tree.run, Tree.step, Tree.start, if_pos h, if_pos h1, if_pos h2]
        rfl
      · have h2 : ¬ (0 ≤ i ∧ i < 0 + w) := by omega
        simp only [decHead, Tree.run, Tree.step, Tree.start, if_pos h, if_pos h1, if_neg h2]
        rfl
    · have h1 : ¬ (0 ≤ i ∧ i < 0 + 79) := by omega
      have h2 : ¬ (0 ≤ i ∧ i < 0 + w) := by omega
      simp only [decHead, Tree.run, Tree.step, Tree.start, if_neg h1, if_neg h2]
      rfl
  · intro n hn ht
    fin_cases hn
    · exact .inl rfl
    · exact absurd ht (by decide)
    · exact .inr rfl

theorem dec_accepted {ws : List Event} (w curr : Nat) (hw : w ≤ 79) (hc : curr ≤ 79) (hws : PtrWrites ws) :
    Tree.Accepts 79 (decHead w ++ (ws ++ decEnd curr)) := by
  intro i
  obtain ⟨s, h1, hs⟩ := dec_head_tree w i hw
  rw [Tree.run_append, h1, Option.bind_some, Tree.run_append]
  have h2 : ∀ s, DecTree s → ∃ s', Tree.run 79 i ws s = some s' ∧ DecTree s' := by
    clear h1 hs
    induction ws with
    | nil => intro s hs; exact ⟨s, rfl, hs⟩
    | cons e ws ih =>
      intro s hs
      obtain ⟨lo, len, rfl, hl⟩ := hws e List.mem_cons_self
      have rest := ih fun e he => hws e (List.mem_cons_of_mem _ he)
      simp only [Tree.run, Tree.step]
      by_cases hi : lo ≤ i ∧ i < lo + len
      · obtain ⟨s', e1, e2, e3, e4⟩ := Tree.use_ok (t := tPtr) .write (s := s) (path := [tElem, owner]) (by rw [hs.ptrs]; rfl)
          hs.writable (fun n hn h => by
            rw [noProt_of_keys hs.keys (by decide) n hn] at h
            cases h)
        simp only [if_pos hi, if_pos (show i < 79 by omega), e1]
        exact rest s' ⟨e2.trans hs.ptrs, e4.trans hs.keys, e3⟩
      · simp only [if_neg hi]
        exact rest s hs
  obtain ⟨s', h3, hs'⟩ := h2 s hs
  rw [h3, Option.bind_some]
  refine Tree.reads_ok 79 i _ [owner, tPtr] [tLen2, tSlice, tArg] s' ?_ ?_ ?_ (tag_of_keys hs'.keys (by decide)) (by decide) (by decide)
  · refine ⟨rfl, by decide, by omega, rfl, by decide, by omega, rfl, by decide, by omega, by decide, by omega, trivial⟩
  · intro n hn h
    rw [noProt_of_keys hs'.keys (by decide) n hn] at h
    cases h
  · intro t ht
    rcases List.mem_cons.1 ht with rfl | ht
    · exact ⟨[owner], by rw [hs'.ptrs]; rfl, (hs'.writable.mono (by decide)).readable⟩
    · cases List.mem_singleton.1 ht
      exact ⟨[tElem, owner], by rw [hs'.ptrs]; rfl, hs'.writable.readable⟩

/-! ### The trace of `GenericRadix` -/

/-- `omega` on tags -/
local macro "tomega" : tactic => `(tactic| ((try simp only [Tag] at *); omega))

/-- The turns of the loop for the bytes below `k`, from the last to byte `curr` -/
def turns (curr : Nat) : Nat → List Event
  | 0 => []
  | k + 1 => if curr ≤ k then radixTurn k ++ turns curr k else []

theorem radixLoop_events (c : Cfg) (r : Radix) (base : U256) : ∀ (k : Nat) (x : U256) (buf : Buf) (curr : Nat) (buf' : Buf)
    (es : List Event), radixLoop c r base k x buf = .ok (curr, buf', es) → curr ≤ k ∧ es = turns curr k := by
  intro k
  induction k with
  | zero =>
    intro x buf curr buf' es h
    cases h
    exact ⟨le_refl _, rfl⟩
  | succ k ih =>
    intro x buf curr buf' es h
    unfold radixLoop at h
    cases h1 : x.rem c base with
    | error e => rw [h1] at h; cases h
    | ok n =>
      rw [h1] at h
      simp only [bind, Except.bind] at h
      cases h2 : x.div_assign c base with
      | error e => rw [h2] at h; cases h
      | ok x' =>
        rw [h2] at h
        simp only [] at h
        cases h3 : r.digit c (n.as_u8 c) with
        | error e => rw [h3] at h; cases h
        | ok d =>
          rw [h3] at h
          simp only [] at h
          split at h
          · cases h
            have : turns k k = [] := by
              cases k with
              | zero => rfl
              | succ k => unfold turns; rw [if_neg (by omega)]
            exact ⟨by omega, by rw [turns, if_pos (le_refl _), this, List.append_nil]⟩
          · cases h4 : radixLoop c r base k x' (buf.set k (some d)) with
            | error e => rw [h4] at h; cases h
            | ok y =>
              obtain ⟨cu, b, e⟩ := y
              rw [h4] at h
              cases h
              obtain ⟨g1, rfl⟩ := ih _ _ _ _ _ h4
              exact ⟨by omega, by rw [turns, if_pos g1]⟩

theorem radix_fmt_u256_events (c : Cfg) (r : Radix) (x : U256) (nn : Bool) (f : Formatter) (text : List Char) (es : List Event)
    (h : radix_fmt_u256 c r x nn f = .ok (text, es)) :
    ∃ curr buf, r.loop c (U256.from_prim c .u8 r.BASE) 256 x (Buf.uninit 256) = .ok (curr, buf) ∧ curr ≤ 256
      ∧ es = radixHead ++ (turns curr 256 ++ radixEnd 1 curr) := by
  unfold radix_fmt_u256 at h
  simp only [] at h
  rw [← radixLoop_result]
  cases h1 : radixLoop c r (U256.from_prim c .u8 r.BASE) 256 x (Buf.uninit 256) with
  | error e => rw [h1] at h; cases h
  | ok y =>
    obtain ⟨curr, buf, e1⟩ := y
    rw [h1] at h
    simp only [bind, Except.bind] at h
    obtain ⟨g1, rfl⟩ := radixLoop_events c r _ _ _ _ _ _ _ h1
    refine ⟨curr, buf, rfl, g1, ?_⟩
    by_cases hc : (buf.drop curr).isEmpty = true
    · simp only [if_pos hc] at h
      cases h
    · simp only [if_neg hc] at h
      cases h3 : Buf.init (buf.drop curr) with
      | error e => rw [h3] at h; cases h
      | ok s =>
        rw [h3] at h
        simp only [] at h
        cases h4 : strUnchecked s with
        | error e => rw [h4] at h; cases h
        | ok t =>
          rw [h4] at h
          cases h
          rfl

theorem turns_other (t : Tag) (ht : t < 10) (i curr : Nat) : ∀ k, ∀ e ∈ turns curr k, ¬ e.Makes t i := by
  intro k
  induction k with
  | zero => intro e he; cases he
  | succ k ih =>
    intro e he
    unfold turns at he
    split at he
    · rcases List.mem_append.1 he with he | he
      · simp only [radixTurn, List.mem_cons, List.not_mem_nil, or_false] at he
        rcases he with rfl | rfl | rfl | rfl
        · rintro ⟨h, _⟩; unfold rByte at h; tomega
        · rintro ⟨h, _⟩; unfold rSelf at h; tomega
        · exact id
        · exact id
      · exact ih e he
    · cases he

theorem radix_rejected (curr : Nat) (h : curr < 255) : ¬ Stacked.Accepts 256 (radixHead ++ (turns curr 256 ++ radixEnd 1 curr)) := by
  intro ha
  refine ha 255 (Stacked.rejects rPtr 255 _ _ (by decide) ?_ ?_)
  · intro e he
    rcases List.mem_append.1 he with he | he
    · simp only [radixHead, List.mem_cons, List.not_mem_nil, or_false] at he
      rcases he with rfl | rfl | rfl <;> exact fun h => by cases h.1
    rcases List.mem_append.1 he with he | he
    · exact turns_other rPtr (by decide) 255 curr 256 e he
    · simp only [radixEnd, List.mem_cons, List.not_mem_nil, or_false] at he
      rcases he with rfl | rfl | rfl | rfl | rfl | rfl | rfl | rfl
      · exact fun h => by cases h.1
      · exact fun h => by cases h.1
      · exact fun h => by cases h.1
      · rintro ⟨_, _, h'⟩; omega
      · exact fun h => by cases h.1
      · exact fun h => by cases h.1
      · exact id
      · exact id
  · refine ⟨ref .shared rPtr rSlice curr (256 - curr) false, ?_, rfl, by omega, by omega⟩
    refine List.mem_append.2 (.inr (List.mem_append.2 (.inr ?_)))
    simp [radixEnd]

theorem turns_255 : turns 255 256 = radixTurn 255 := rfl

theorem radix_one : Stacked.Accepts 256 (radixHead ++ (turns 255 256 ++ radixEnd 1 255)) := by
  intro i
  rw [turns_255]
  by_cases h : i = 255
  · subst h
    decide +kernel
  · have h1 : ¬ (255 ≤ i ∧ i < 255 + 1) := by omega
    by_cases h' : i < 256
    · have h2 : 0 ≤ i ∧ i < 0 + 256 := by omega
      simp only [radixHead, radixTurn, radixEnd, Stacked.run, Stacked.step, Stacked.start, List.cons_append, List.nil_append,
        if_neg h1, if_pos h2, if_pos h']
      decide
    · have h2 : ¬ (0 ≤ i ∧ i < 0 + 256) := by omega
      simp only [radixHead, radixTurn, radixEnd, Stacked.run, Stacked.step, Stacked.start, List.cons_append, List.nil_append,
        if_neg h1, if_neg h2, if_neg h']
      decide

/-- The tree between two turns: byte `k` comes next. -/
structure RadixTree (k : Nat) (s : Tree.State) : Prop where
  next : s.ptrs.lookup rNext = some [rIter, owner]
  owner : s.ptrs.lookup owner = some [owner]
  prot : ∀ n ∈ s.nodes, n.prot = false
  tags : Tree.Tags s fun t => t < 4 ∨ (10 ≤ t ∧ t < 10 + 2 * (256 - k))
  writable : Tree.Writable s [rIter, Borrow.owner]

theorem mem_keys {s : Tree.State} {n : Tree.Node} (h : n ∈ s.nodes) {l : List (Tag × Bool)}
    (e : s.nodes.map (fun n => (n.tag, n.prot)) = l) : (n.tag, n.prot) ∈ l := e ▸ List.mem_map.2 ⟨n, h, rfl⟩

theorem keys_mem {s : Tree.State} {t : Tag} {b : Bool} (h : (t, b) ∈ s.nodes.map (fun n => (n.tag, n.prot))) :
    ∃ n ∈ s.nodes, n.tag = t ∧ n.prot = b := by
  obtain ⟨n, hn, e⟩ := List.mem_map.1 h
  exact ⟨n, hn, (Prod.mk.inj e).1, (Prod.mk.inj e).2⟩

theorem turn_ok {i k : Nat} (hk : k < 256) {s : Tree.State} (h : RadixTree (k + 1) s) :
    ∃ s', Tree.run 256 i (radixTurn k) s = some s' ∧ RadixTree k s' := by
  have n1 : rByte k = 10 + 2 * (256 - (k + 1)) := by unfold rByte; tomega
  have n2 : rSelf k = 11 + 2 * (256 - (k + 1)) := by unfold rSelf; tomega
  obtain ⟨s1, a1, a2, a3, a4⟩ := Tree.unique_ok (N := 256) (i := i) (new := rByte k) k 1 false h.next h.writable
    (fun n hn hp => by rw [h.prot n hn] at hp; cases hp)
    (fun n hn ht => by have := h.tags n hn; simp only [] at this; rw [ht, n1] at this; tomega) (by tomega)
  have k1 : ∀ n ∈ s1.nodes, n.prot = false ∧ (n.tag = rByte k ∨ n.tag < 4 ∨ (10 ≤ n.tag ∧ n.tag < 10 + 2 * (256 - (k + 1)))) := by
    intro n hn
    rcases List.mem_cons.1 (mem_keys hn a4) with e | e
    · exact ⟨(Prod.mk.inj e).2, .inl (Prod.mk.inj e).1⟩
    · obtain ⟨m, hm, e1, e2⟩ := keys_mem e
      rw [← e1, ← e2]
      exact ⟨h.prot m hm, .inr (h.tags m hm)⟩
  obtain ⟨s2, b1, b2, b3, b4⟩ := Tree.unique_ok (N := 256) (i := i) (s := s1) (p := rByte k) (path := [rByte k, rIter, owner])
    (new := rSelf k) k 1 true (by rw [a2]; exact Tree.lookup_new) a3
    (fun n hn hp => by rw [(k1 n hn).1] at hp; cases hp)
    (fun n hn ht => by have := (k1 n hn).2; rw [ht, n1, n2] at this; tomega) (by tomega)
  have k2 : ∀ n ∈ s2.nodes, (n.prot = true → n.tag = rSelf k) ∧ (n.tag = rSelf k ∨ n.tag = rByte k ∨ n.tag < 4
      ∨ (10 ≤ n.tag ∧ n.tag < 10 + 2 * (256 - (k + 1)))) := by
    intro n hn
    rcases List.mem_cons.1 (mem_keys hn b4) with e | e
    · exact ⟨fun _ => (Prod.mk.inj e).1, .inl (Prod.mk.inj e).1⟩
    · obtain ⟨m, hm, e1, e2⟩ := keys_mem e
      rw [← e1, ← e2]
      exact ⟨fun hp => (by rw [(k1 m hm).1] at hp; cases hp), .inr (k1 m hm).2⟩
  have fin : ∀ s3 : Tree.State, s3.ptrs = s2.ptrs → Tree.Writable s3 [rSelf k, rByte k, rIter, owner] →
      s3.nodes.map (fun n => (n.tag, n.prot)) = s2.nodes.map (fun n => (n.tag, n.prot)) →
      RadixTree k ⟨s3.ptrs, s3.nodes.map fun n => if n.tag ∈ [rSelf k] then { n with prot := false } else n⟩ := by
    intro s3 c1 c2 c3
    have key : ∀ n ∈ (s3.nodes.map fun n => if n.tag ∈ [rSelf k] then { n with prot := false } else n), ∃ m ∈ s3.nodes,
        n.tag = m.tag ∧ n.perm = m.perm ∧ n.prot = false := by
      intro n hn
      obtain ⟨m, hm, rfl⟩ := List.mem_map.1 hn
      refine ⟨m, hm, ?_⟩
      split
      · exact ⟨rfl, rfl, rfl⟩
      · rename_i hne
        refine ⟨rfl, rfl, ?_⟩
        cases hp : m.prot with
        | false => rfl
        | true =>
          have := (Tree.tags_of_map c3 (P := fun t b => b = true → t = rSelf k) (fun n hn => (k2 n hn).1)) m hm hp
          exact absurd (List.mem_singleton.2 this) hne
    have ne : ∀ t : Tag, t < 4 → t ≠ rSelf k ∧ t ≠ rByte k := fun t ht => by rw [n1, n2]; tomega
    refine ⟨?_, ?_, fun n hn => ?_, fun n hn => ?_, fun n hn ht => ?_⟩
    · simp only []
      rw [c1, b2, Tree.lookup_old (ne rNext (by decide)).1, a2, Tree.lookup_old (ne rNext (by decide)).2, h.next]
    · simp only []
      rw [c1, b2, Tree.lookup_old (ne Borrow.owner (by decide)).1, a2, Tree.lookup_old (ne Borrow.owner (by decide)).2, h.owner]
    · obtain ⟨m, _, _, _, e⟩ := key n hn
      exact e
    · obtain ⟨m, hm, e1, _, _⟩ := key n hn
      have := (Tree.tags_of_map c3 (P := fun t _ => t = rSelf k ∨ t = rByte k ∨ t < 4
        ∨ (10 ≤ t ∧ t < 10 + 2 * (256 - (k + 1)))) (fun n hn => (k2 n hn).2)) m hm
      rw [n1, n2] at this
      rw [e1]
      tomega
    · obtain ⟨m, hm, e1, e2, _⟩ := key n hn
      rw [e2]
      exact c2 m hm (List.mem_cons_of_mem _ (List.mem_cons_of_mem _ (e1 ▸ ht)))
  simp only [radixTurn, Tree.run, a1, b1]
  by_cases hi : k ≤ i ∧ i < k + 1
  · obtain ⟨s3, c1, c2, c3, c4⟩ := Tree.use_ok (t := rSelf k) .write (s := s2) (path := [rSelf k, rByte k, rIter, owner])
      (by rw [b2]; exact Tree.lookup_new) b3 (fun n hn hp => by rw [(k2 n hn).1 hp]; exact List.mem_cons_self)
    simp only [Tree.step, if_pos hi, if_pos (show i < 256 by omega), c1]
    exact ⟨_, rfl, fin s3 c2 c3 c4⟩
  · simp only [Tree.step, if_neg hi]
    exact ⟨_, rfl, fin s2 rfl b3 rfl⟩

theorem turns_ok (i curr : Nat) : ∀ (k : Nat), k ≤ 256 → ∀ s, RadixTree k s →
    ∃ s' k', Tree.run 256 i (turns curr k) s = some s' ∧ RadixTree k' s' := by
  intro k
  induction k with
  | zero => intro _ s hs; exact ⟨s, 0, rfl, hs⟩
  | succ k ih =>
    intro hk s hs
    unfold turns
    split
    · obtain ⟨s1, e1, h1⟩ := turn_ok (i := i) (by omega) hs
      obtain ⟨s2, k', e2, h2⟩ := ih (by omega) s1 h1
      exact ⟨s2, k', by rw [Tree.run_append, e1, Option.bind_some, e2], h2⟩
    · exact ⟨s, k + 1, rfl, hs⟩

theorem radix_accepted (curr : Nat) (hc : curr < 256) : Tree.Accepts 256 (radixHead ++ (turns curr 256 ++ radixEnd 1 curr)) := by
  intro i
  have h1 : ∃ s, Tree.run 256 i radixHead Tree.start = some s ∧ RadixTree 256 s := by
    refine ⟨⟨[(rNext, [rIter, owner]), (rIter, [rIter, owner]), (rLen, [rLen, owner]), (owner, [owner])],
      [⟨rIter, .reserved, false⟩, ⟨rLen, .frozen, false⟩, ⟨owner, .active, false⟩]⟩, ?_, rfl, rfl, by decide, ?_, ?_⟩
    · by_cases h : i < 256
      · have h1 : 0 ≤ i ∧ i < 0 + 256 := by omega
        simp only [radixHead, Tree.run, Tree.step, Tree.start, if_pos h, if_pos h1]
        rfl
      · have h1 : ¬ (0 ≤ i ∧ i < 0 + 256) := by omega
        simp only [radixHead, Tree.run, Tree.step, Tree.start, if_neg h1]
        rfl
    · intro n hn
      fin_cases hn <;> decide
    · intro n hn ht
      fin_cases hn
      · exact .inl rfl
      · exact absurd ht (by decide)
      · exact .inr rfl
  obtain ⟨s, e1, hs⟩ := h1
  obtain ⟨s', k', e2, hs'⟩ := turns_ok i curr 256 (le_refl _) s hs
  rw [Tree.run_append, e1, Option.bind_some, Tree.run_append, e2, Option.bind_some]
  refine Tree.reads_ok 256 i _ [owner] [rBuf, rTail, rElem, rPtr, rSlice, rArg] s' ?_ ?_ ?_ ?_ (by decide) (by decide)
  · exact ⟨rfl, by decide, by omega, rfl, by decide, by omega, rfl, by decide, by omega, rfl, by decide, rfl, by decide, by omega,
      rfl, by decide, by omega, by decide, by omega, trivial⟩
  · intro n hn h
    rw [hs'.prot n hn] at h
    cases h
  · intro t ht
    cases List.mem_singleton.1 ht
    exact ⟨[owner], hs'.owner, (hs'.writable.mono (by decide)).readable⟩
  · intro n hn ht
    have := hs'.tags n hn
    simp only [List.mem_cons, List.not_mem_nil, or_false, rBuf, rTail, rElem, rPtr, rSlice, rArg] at ht
    tomega

theorem radix_loop_length (c : Cfg) (r : Radix) (base : U256) : ∀ (k : Nat) (x : U256) (buf : Buf) (k' : Nat) (buf' : Buf),
    r.loop c base k x buf = .ok (k', buf') → buf'.length = buf.length := by
  intro k
  induction k with
  | zero => intro x buf k' buf' h; cases h; rfl
  | succ k ih =>
    intro x buf k' buf' h
    unfold Radix.loop at h
    cases h1 : x.rem c base with
    | error e => rw [h1] at h; cases h
    | ok n =>
      rw [h1] at h
      simp only [bind, Except.bind] at h
      cases h2 : x.div_assign c base with
      | error e => rw [h2] at h; cases h
      | ok x' =>
        rw [h2] at h
        simp only [] at h
        cases h3 : r.digit c (n.as_u8 c) with
        | error e => rw [h3] at h; cases h
        | ok d =>
          rw [h3] at h
          simp only [] at h
          split at h
          · cases h
            exact List.length_set
          · rw [ih _ _ _ _ h, List.length_set]

/-- A call of `GenericRadix::fmt_u256`: its trace, and where the digits begin. -/
theorem radix_call (c : Cfg) (r : Radix) (x : U256) (nn : Bool) (f : Formatter) :
    ∃ text curr, r.fmt_u256 c x nn f = .ok text
      ∧ radix_fmt_u256 c r x nn f = .ok (text, radixHead ++ (turns curr 256 ++ radixEnd 1 curr))
      ∧ curr < 256 ∧ (curr = 255 ↔ x.toNat c < r.b) := by
  have hb := r.one_lt_b
  have h := radix_fmt_u256_result c r x nn f
  have hok := Radix.fmt_u256_eq r c x nn f
  rw [hok] at h
  cases hr : radix_fmt_u256 c r x nn f with
  | error e => rw [hr] at h; cases h
  | ok y =>
    obtain ⟨text, es⟩ := y
    rw [hr] at h
    obtain ⟨curr, buf, e1, e2, rfl⟩ := radix_fmt_u256_events c r x nn f text es hr
    have hbase : (U256.from_prim c .u8 r.BASE).toNat c = r.b := by
      have e : PrimTy.u8.toInt (c := c) r.BASE = r.b := by cases r <;> rfl
      have h16 := r.b_le
      have hn : (0 : Int) ≤ PrimTy.u8.toInt (c := c) r.BASE := by omega
      have hle : PrimTy.u8.toInt (c := c) r.BASE < 2 ^ 256 := by omega
      have := U256.from_prim_eq c .u8 r.BASE hn
      unfold U256.from_prim
      rw [this]
      have := U256.toNat_ofInt_of_range c hn hle
      omega
    have hlen : (r.numeral (x.toNat c)).length ≤ 256 := by
      rw [Radix.length_numeral_le r (by omega)]
      exact Nat.lt_of_lt_of_le (U256.toNat_lt c x) (Nat.pow_le_pow_left r.one_lt_b 256)
    obtain ⟨k', buf', g1, g2⟩ := r.loop_spec c _ hbase 256 x (Buf.uninit 256) []
      (by rw [Buf.length_uninit]) (by rw [Buf.drop_uninit]; rfl) hlen
    have hl := radix_loop_length c r _ _ _ _ _ _ e1
    rw [e1] at g1
    cases g1
    have hd := congrArg List.length g2
    rw [List.length_drop, hl, Buf.length_uninit, List.append_nil, txt, List.length_map] at hd
    have hne : (r.numeral (x.toNat c)).length ≠ 0 := fun h => r.numeral_ne_nil _ (List.length_eq_zero_iff.1 h)
    have h1 := Radix.length_numeral_le r (n := x.toNat c) (k := 1) (by omega)
    rw [Nat.pow_one] at h1
    refine ⟨text, curr, hok.trans h.symm, rfl, by omega, ?_⟩
    rw [← h1]
    omega

/-! ### The trace of `FormatBuffer` -/

/-- One call of `write_str` that succeeds -/
def chunk (N k off n : Nat) : List Event :=
  [ref .unique fWriter (fSelf k) 0 N true, ref .unique (fSelf k) (fMut k) 0 1 false, raw .unique (fMut k) (fMutPtr k) 0 1,
    access .write (fMutPtr k) off n, ret [fSelf k]]

def chunks (N : Nat) : Nat → Nat → List Nat → List Event
  | _, _, [] => []
  | k, off, n :: l => chunk N k off n ++ chunks N (k + 1) (off + n) l

/-- The reads of `as_str` and `serialize_str` -/
def textEnd (N off : Nat) : List Event :=
  [ref .shared owner fRead 0 N true, ref .shared fRead fElem 0 1 false, raw .shared fElem fPtr 0 1,
    ref .shared fPtr fSlice 0 off false, ret [fRead], ref .shared fSlice fArg 0 off true, access .read fArg 0 off, ret [fArg]]

theorem write_all_events (c : Cfg) {N : Nat} (hN : N < 2 ^ 16) (h0 : 0 < N) : ∀ (l : List (List U8)) (k : Nat)
    (f : Serde.FormatBuffer) (s : List U8), f.Holds N s → s.length + l.flatten.length ≤ N →
    ∃ f', write_all c k f l = .ok (some f', chunks N k s.length (l.map List.length)) ∧ f'.Holds N (s ++ l.flatten) := by
  intro l
  induction l with
  | nil => intro k f s h _; exact ⟨f, rfl, by simpa using h⟩
  | cons t l ih =>
    intro k f s h hl
    rw [List.flatten_cons, List.length_append] at hl
    obtain ⟨f1, e1, k1⟩ := Serde.FormatBuffer.write_str_eq c (t := t) h hN h0 (by omega)
    obtain ⟨f2, e2, k2⟩ := ih (k + 1) f1 (s ++ t) k1 (by rw [List.length_append]; omega)
    refine ⟨f2, ?_, by rw [List.flatten_cons, ← List.append_assoc]; exact k2⟩
    unfold write_all write_str
    rw [e1]
    simp only [bind, Except.bind, pure, Except.pure, e2, h.1, h.2.1, List.length_append, List.map_cons, chunks, chunk]

theorem serialize_text_events (c : Cfg) (k : Serde.Chunking) {N : Nat} (hN : N < 2 ^ 16) (h0 : 0 < N) {text : List Char}
    (ha : IsAscii text) (hl : text.length ≤ N) : ∃ ns : List Nat, ns.sum = text.length ∧
      serialize_text c k N text = .ok (.str (text.map asc),
        [ref .unique owner fWriter 0 N false] ++ (chunks N 0 0 ns ++ textEnd N text.length)) := by
  obtain ⟨f, e, h⟩ := write_all_events c hN h0 (k.split (text.map asc)) 0 (Serde.FormatBuffer.new N) []
    ⟨Buf.length_uninit N, rfl, rfl⟩ (by rw [k.join]; simpa using hl)
  rw [k.join, List.nil_append] at h
  refine ⟨(k.split (text.map asc)).map List.length, ?_, ?_⟩
  · rw [← List.length_flatten, k.join, List.length_map]
  · unfold serialize_text as_str
    have e' : write_all c 0 (Serde.FormatBuffer.new N) (k.split (text.map fun ch => BitVec.ofNat 8 ch.toNat)) = _ := e
    rw [e']
    simp only [bind, Except.bind]
    rw [Serde.FormatBuffer.as_str_eq h h0 (by rw [List.length_map]; exact hl) (Serde.utf8Valid_ascii (Serde.ascii_map_asc ha))]
    simp only [pure, Except.pure, h.1, h.2.1, List.length_map, textEnd, List.length_nil]
    rfl

theorem chunks_other (t : Tag) (ht : t < 10) (N i : Nat) : ∀ (l : List Nat) (k off : Nat), ∀ e ∈ chunks N k off l, ¬ e.Makes t i := by
  intro l
  induction l with
  | nil => intro k off e he; cases he
  | cons n l ih =>
    intro k off e he
    unfold chunks at he
    rcases List.mem_append.1 he with he | he
    · simp only [chunk, List.mem_cons, List.not_mem_nil, or_false] at he
      rcases he with rfl | rfl | rfl | rfl | rfl
      · rintro ⟨h, _⟩; unfold fSelf at h; tomega
      · rintro ⟨h, _⟩; unfold fMut at h; tomega
      · rintro ⟨h, _⟩; unfold fMutPtr at h; tomega
      · exact id
      · exact id
    · exact ih _ _ e he

theorem text_rejected (N n : Nat) (ns : List Nat) (h : 2 ≤ n) :
    ¬ Stacked.Accepts N ([ref .unique owner fWriter 0 N false] ++ (chunks N 0 0 ns ++ textEnd N n)) := by
  intro ha
  refine ha 1 (Stacked.rejects fPtr 1 _ _ ?_ ?_ ?_)
  · unfold Stacked.start
    split <;> decide
  · intro e he
    rcases List.mem_append.1 he with he | he
    · cases List.mem_singleton.1 he
      exact fun h => by cases h.1
    rcases List.mem_append.1 he with he | he
    · exact chunks_other fPtr (by decide) N 1 ns 0 0 e he
    · simp only [textEnd, List.mem_cons, List.not_mem_nil, or_false] at he
      rcases he with rfl | rfl | rfl | rfl | rfl | rfl | rfl | rfl
      · exact fun h => by cases h.1
      · exact fun h => by cases h.1
      · rintro ⟨_, _, h'⟩; omega
      · exact fun h => by cases h.1
      · exact id
      · exact fun h => by cases h.1
      · exact id
      · exact id
  · refine ⟨ref .shared fPtr fSlice 0 n false, ?_, rfl, by omega, by omega⟩
    refine List.mem_append.2 (.inr (List.mem_append.2 (.inr ?_)))
    simp [textEnd]

/-- Between two calls, the writer is below items that nothing protects. -/
def TextStack (s : Stacked.Stack) : Prop :=
  ∃ top : Stacked.Stack, (∀ j ∈ top, 10 ≤ j.tag ∧ j.prot = false) ∧
    s = top ++ [⟨.unique, fWriter, false⟩, ⟨.unique, owner, false⟩]

theorem granting_skip {t : Tag} {a : Access} {l : Stacked.Stack} : ∀ {top : Stacked.Stack}, (∀ j ∈ top, j.tag ≠ t) →
    Stacked.granting t a (top ++ l) = (Stacked.granting t a l).map fun x => (top ++ x.1, x.2) := by
  intro top
  induction top with
  | nil => intro _; cases h : Stacked.granting t a l <;> simp [h]
  | cons j top ih =>
    intro h
    have hj := h j List.mem_cons_self
    simp only [List.cons_append, Stacked.granting]
    rw [if_neg (by simp [hj]), ih fun j hj => h j (List.mem_cons_of_mem _ hj)]
    cases Stacked.granting t a l <;> rfl

theorem writer_ok {s : Stacked.Stack} (h : TextStack s) :
    Stacked.access fWriter .write s = some [⟨.unique, fWriter, false⟩, ⟨.unique, owner, false⟩] := by
  obtain ⟨top, ht, rfl⟩ := h
  unfold Stacked.access
  rw [granting_skip (fun j hj => by have := (ht j hj).1; unfold fWriter; tomega)]
  have : top.any (·.prot) = false := by
    rw [List.any_eq_false]
    intro j hj
    rw [(ht j hj).2]
    simp
  have hg : Stacked.granting fWriter .write [⟨.unique, fWriter, false⟩, ⟨.unique, owner, false⟩]
      = some ([], ⟨.unique, fWriter, false⟩, [⟨.unique, owner, false⟩]) := rfl
  rw [hg]
  simp [this]

/-- The item on top grants. -/
theorem top_write (t : Tag) (b : Bool) (l : Stacked.Stack) :
    Stacked.access t .write (⟨.unique, t, b⟩ :: l) = some (⟨.unique, t, b⟩ :: l) := by
  simp [Stacked.access, Stacked.granting, Stacked.Perm.grants]

theorem top_write_raw (t : Tag) (b : Bool) (l : Stacked.Stack) :
    Stacked.access t .write (⟨.sharedRW, t, b⟩ :: l) = some (⟨.sharedRW, t, b⟩ :: l) := by
  simp [Stacked.access, Stacked.granting, Stacked.Perm.grants]

theorem top_read (t : Tag) (b : Bool) (l : Stacked.Stack) :
    Stacked.access t .read (⟨.sharedRO, t, b⟩ :: l) = some (⟨.sharedRO, t, b⟩ :: l) := by
  simp [Stacked.access, Stacked.granting, Stacked.Perm.grants]

theorem chunk_stack {N i k off n : Nat} (hi : i < N) (hn : off + n ≤ 1) {s : Stacked.Stack} (h : TextStack s) :
    ∃ s', Stacked.run i (chunk N k off n) s = some s' ∧ TextStack s' := by
  have e1 : (fWriter = fSelf k) = False := by unfold fWriter fSelf; simp only [eq_iff_iff, iff_false]; tomega
  have e2 : (owner = fSelf k) = False := by unfold owner fSelf; simp only [eq_iff_iff, iff_false]; tomega
  have e3 : (fMut k = fSelf k) = False := by unfold fMut fSelf; simp only [eq_iff_iff, iff_false]; tomega
  have e4 : (fMutPtr k = fSelf k) = False := by unfold fMutPtr fSelf; simp only [eq_iff_iff, iff_false]; tomega
  have g1 : 10 ≤ fSelf k := by unfold fSelf; tomega
  have g2 : 10 ≤ fMut k := by unfold fMut; tomega
  have g3 : 10 ≤ fMutPtr k := by unfold fMutPtr; tomega
  have c0 : 0 ≤ i ∧ i < 0 + N := by omega
  by_cases hz : i = 0
  · have c1 : 0 ≤ i ∧ i < 0 + 1 := by omega
    by_cases c2 : off ≤ i ∧ i < off + n
    · refine ⟨_, by simp only [chunk, Stacked.run, Stacked.step, if_pos c0, if_pos c1, if_pos c2, writer_ok h, Option.map_some,
        top_write, top_write_raw]; rfl, [⟨.sharedRW, fMutPtr k, false⟩, ⟨.unique, fMut k, false⟩, ⟨.unique, fSelf k, false⟩], ?_, ?_⟩
      · simp [g1, g2, g3]
      · simp [e1, e2, e3, e4]
    · refine ⟨_, by simp only [chunk, Stacked.run, Stacked.step, if_pos c0, if_pos c1, if_neg c2, writer_ok h, Option.map_some,
        top_write]; rfl, [⟨.sharedRW, fMutPtr k, false⟩, ⟨.unique, fMut k, false⟩, ⟨.unique, fSelf k, false⟩], ?_, ?_⟩
      · simp [g1, g2, g3]
      · simp [e1, e2, e3, e4]
  · have c1 : ¬ (0 ≤ i ∧ i < 0 + 1) := by omega
    have c2 : ¬ (off ≤ i ∧ i < off + n) := by omega
    refine ⟨_, by simp only [chunk, Stacked.run, Stacked.step, if_pos c0, if_neg c1, if_neg c2, writer_ok h, Option.map_some]; rfl,
      [⟨.unique, fSelf k, false⟩], ?_, ?_⟩
    · simp [g1]
    · simp [e1, e2]

theorem chunks_stack {N i : Nat} (hi : i < N) : ∀ (l : List Nat) (k off : Nat), off + l.sum ≤ 1 →
    ∀ s, TextStack s → ∃ s', Stacked.run i (chunks N k off l) s = some s' ∧ TextStack s' := by
  intro l
  induction l with
  | nil => intro k off _ s h; exact ⟨s, rfl, h⟩
  | cons n l ih =>
    intro k off hl s h
    rw [List.sum_cons] at hl
    obtain ⟨s1, e1, h1⟩ := chunk_stack (k := k) (off := off) (n := n) hi (by omega) h
    obtain ⟨s2, e2, h2⟩ := ih (k + 1) (off + n) (by omega) s1 h1
    exact ⟨s2, by rw [chunks, Stacked.run_append, e1, Option.bind_some, e2], h2⟩

theorem owner_read {s : Stacked.Stack} (h : TextStack s) : ∃ s', Stacked.access owner .read s = some s' := by
  obtain ⟨top, ht, rfl⟩ := h
  unfold Stacked.access
  rw [granting_skip (fun j hj => by have := (ht j hj).1; unfold owner; tomega)]
  have hg : Stacked.granting owner .read [⟨.unique, fWriter, false⟩, ⟨.unique, owner, false⟩]
      = some ([⟨.unique, fWriter, false⟩], ⟨.unique, owner, false⟩, []) := rfl
  rw [hg]
  have : top.any (fun j => j.prot && decide (j.perm = .unique)) = false := by
    rw [List.any_eq_false]
    intro j hj
    rw [(ht j hj).2]
    simp
  simp [this]

theorem textEnd_stack {N i n : Nat} (hi : i < N) (hn : n ≤ 1) {s : Stacked.Stack} (h : TextStack s) :
    Stacked.run i (textEnd N n) s ≠ none := by
  obtain ⟨s', hs⟩ := owner_read h
  have c0 : 0 ≤ i ∧ i < 0 + N := by omega
  by_cases hz : i = 0
  · have c1 : 0 ≤ i ∧ i < 0 + 1 := by omega
    by_cases c2 : 0 ≤ i ∧ i < 0 + n
    · simp only [textEnd, Stacked.run, Stacked.step, if_pos c0, if_pos c1, if_pos c2, hs, top_read, Option.map_some, List.map_cons,
        if_neg (show fSlice ∉ [fRead] by decide)]
      simp
    · simp only [textEnd, Stacked.run, Stacked.step, if_pos c0, if_pos c1, if_neg c2, hs, top_read, Option.map_some]
      simp
  · have c1 : ¬ (0 ≤ i ∧ i < 0 + 1) := by omega
    have c2 : ¬ (0 ≤ i ∧ i < 0 + n) := by omega
    simp only [textEnd, Stacked.run, Stacked.step, if_pos c0, if_neg c1, if_neg c2, hs, Option.map_some]
    simp

theorem outside_ok (N i : Nat) (hi : N ≤ i) : ∀ es : List Event,
    (∀ e ∈ es, match e with
      | .ref _ _ _ lo len _ => lo + len ≤ N
      | .raw _ _ _ lo len => lo + len ≤ N
      | .access _ _ lo len => lo + len ≤ N
      | .ret _ => True) → Stacked.run i es [] = some [] := by
  intro es
  induction es with
  | nil => intro _; rfl
  | cons e es ih =>
    intro h
    have he := h e List.mem_cons_self
    have : Stacked.step i [] e = some [] := by
      cases e with
      | ref k p new lo len prot => simp only [] at he; simp only [Stacked.step]; rw [if_neg (by omega)]
      | raw k p new lo len => simp only [] at he; simp only [Stacked.step]; rw [if_neg (by omega)]
      | access a p lo len => simp only [] at he; simp only [Stacked.step]; rw [if_neg (by omega)]
      | ret ts => rfl
    rw [Stacked.run, this]
    exact ih fun e he => h e (List.mem_cons_of_mem _ he)

theorem chunks_inside {N : Nat} (h0 : 0 < N) : ∀ (l : List Nat) (k off : Nat), off + l.sum ≤ N → ∀ e ∈ chunks N k off l, match e with
      | .ref _ _ _ lo len _ => lo + len ≤ N
      | .raw _ _ _ lo len => lo + len ≤ N
      | .access _ _ lo len => lo + len ≤ N
      | .ret _ => True := by
  intro l
  induction l with
  | nil => intro k off _ e he; cases he
  | cons n l ih =>
    intro k off hl e he
    rw [List.sum_cons] at hl
    unfold chunks at he
    rcases List.mem_append.1 he with he | he
    · simp only [chunk, List.mem_cons, List.not_mem_nil, or_false] at he
      rcases he with rfl | rfl | rfl | rfl | rfl
      · simp only []; omega
      · simp only []; omega
      · simp only []; omega
      · simp only []; omega
      · trivial
    · exact ih _ _ (by omega) e he

theorem text_one {N n : Nat} {ns : List Nat} (h0 : 0 < N) (hs : ns.sum = n) (h : n ≤ 1) :
    Stacked.Accepts N ([ref .unique owner fWriter 0 N false] ++ (chunks N 0 0 ns ++ textEnd N n)) := by
  intro i
  by_cases hi : i < N
  · have h1 : Stacked.run i [ref .unique owner fWriter 0 N false] (Stacked.start N i)
        = some [⟨.unique, fWriter, false⟩, ⟨.unique, owner, false⟩] := by
      have c0 : 0 ≤ i ∧ i < 0 + N := by omega
      simp only [Stacked.run, Stacked.step, Stacked.start, if_pos hi, if_pos c0]
      rfl
    obtain ⟨s', e, hs'⟩ := chunks_stack (i := i) hi ns 0 0 (by omega) _ ⟨[], by simp, rfl⟩
    rw [Stacked.run_append, h1, Option.bind_some, Stacked.run_append]
    rw [List.nil_append] at e
    rw [e, Option.bind_some]
    exact textEnd_stack hi h hs'
  · rw [Stacked.start, if_neg hi, outside_ok N i (by omega)]
    · simp
    · intro e he
      rcases List.mem_append.1 he with he | he
      · cases List.mem_singleton.1 he
        simp only []; omega
      rcases List.mem_append.1 he with he | he
      · exact chunks_inside h0 ns 0 0 (by omega) e he
      · simp only [textEnd, List.mem_cons, List.not_mem_nil, or_false] at he
        rcases he with rfl | rfl | rfl | rfl | rfl | rfl | rfl | rfl <;> simp only [] <;> omega

/-- The tree between two calls of `write_str` -/
structure TextTree (k : Nat) (s : Tree.State) : Prop where
  writer : s.ptrs.lookup fWriter = some [fWriter, owner]
  owner : s.ptrs.lookup owner = some [owner]
  prot : ∀ n ∈ s.nodes, n.prot = false
  tags : Tree.Tags s fun t => t < 2 ∨ (10 ≤ t ∧ t < 10 + 3 * k)
  writable : Tree.Writable s [fWriter, Borrow.owner]

theorem chunk_tree {N i k off n : Nat} (h0 : 0 < N) (hn : off + n ≤ N) {s : Tree.State} (h : TextTree k s) :
    ∃ s', Tree.run N i (chunk N k off n) s = some s' ∧ TextTree (k + 1) s' := by
  obtain ⟨s1, a1, a2, a3, a4⟩ := Tree.unique_ok (N := N) (i := i) (new := fSelf k) 0 N true h.writer h.writable
    (fun n hn hp => by rw [h.prot n hn] at hp; cases hp)
    (fun n hn ht => by have := h.tags n hn; simp only [] at this; rw [ht, fSelf] at this; tomega) (by omega)
  have k1 : ∀ n ∈ s1.nodes, (n.prot = true → n.tag = fSelf k) ∧ (n.tag = fSelf k ∨ n.tag < 2 ∨ (10 ≤ n.tag ∧ n.tag < 10 + 3 * k)) := by
    intro n hn
    rcases List.mem_cons.1 (mem_keys hn a4) with e | e
    · exact ⟨fun _ => (Prod.mk.inj e).1, .inl (Prod.mk.inj e).1⟩
    · obtain ⟨m, hm, e1, e2⟩ := keys_mem e
      rw [← e1, ← e2]
      exact ⟨fun hp => (by rw [h.prot m hm] at hp; cases hp), .inr (h.tags m hm)⟩
  obtain ⟨s2, b1, b2, b3, b4⟩ := Tree.unique_ok (N := N) (i := i) (s := s1) (p := fSelf k) (path := [fSelf k, fWriter, owner])
    (new := fMut k) 0 1 false (by rw [a2]; exact Tree.lookup_new) a3
    (fun n hn hp => by rw [(k1 n hn).1 hp]; exact List.mem_cons_self)
    (fun n hn ht => by have := (k1 n hn).2; rw [ht, fSelf, fMut] at this; tomega) (by omega)
  have k2 : ∀ n ∈ s2.nodes, (n.prot = true → n.tag = fSelf k) ∧ (n.tag = fSelf k ∨ n.tag = fMut k ∨ n.tag < 2
      ∨ (10 ≤ n.tag ∧ n.tag < 10 + 3 * k)) := by
    intro n hn
    rcases List.mem_cons.1 (mem_keys hn b4) with e | e
    · exact ⟨fun hp => (by rw [(Prod.mk.inj e).2] at hp; cases hp), .inr (.inl (Prod.mk.inj e).1)⟩
    · obtain ⟨m, hm, e1, e2⟩ := keys_mem e
      rw [← e1, ← e2]
      refine ⟨(k1 m hm).1, ?_⟩
      rcases (k1 m hm).2 with h | h
      · exact .inl h
      · exact .inr (.inr h)
  have fin : ∀ s3 : Tree.State, s3.ptrs = (fMutPtr k, [fMut k, fSelf k, fWriter, owner]) :: s2.ptrs →
      Tree.Writable s3 [fMut k, fSelf k, fWriter, owner] →
      s3.nodes.map (fun n => (n.tag, n.prot)) = s2.nodes.map (fun n => (n.tag, n.prot)) →
      TextTree (k + 1) ⟨s3.ptrs, s3.nodes.map fun n => if n.tag ∈ [fSelf k] then { n with prot := false } else n⟩ := by
    intro s3 c1 c2 c3
    have key : ∀ n ∈ (s3.nodes.map fun n => if n.tag ∈ [fSelf k] then { n with prot := false } else n), ∃ m ∈ s3.nodes,
        n.tag = m.tag ∧ n.perm = m.perm ∧ n.prot = false := by
      intro n hn
      obtain ⟨m, hm, rfl⟩ := List.mem_map.1 hn
      refine ⟨m, hm, ?_⟩
      split
      · exact ⟨rfl, rfl, rfl⟩
      · rename_i hne
        refine ⟨rfl, rfl, ?_⟩
        cases hp : m.prot with
        | false => rfl
        | true =>
          have := (Tree.tags_of_map c3 (P := fun t b => b = true → t = fSelf k) (fun n hn => (k2 n hn).1)) m hm hp
          exact absurd (List.mem_singleton.2 this) hne
    have ne : ∀ t : Tag, t < 2 → t ≠ fMutPtr k ∧ t ≠ fMut k ∧ t ≠ fSelf k := fun t ht => by unfold fMutPtr fMut fSelf; tomega
    refine ⟨?_, ?_, fun n hn => ?_, fun n hn => ?_, fun n hn ht => ?_⟩
    · have := ne fWriter (by decide)
      simp only []
      rw [c1, Tree.lookup_old this.1, b2, Tree.lookup_old this.2.1, a2, Tree.lookup_old this.2.2, h.writer]
    · have := ne Borrow.owner (by decide)
      simp only []
      rw [c1, Tree.lookup_old this.1, b2, Tree.lookup_old this.2.1, a2, Tree.lookup_old this.2.2, h.owner]
    · obtain ⟨m, _, _, _, e⟩ := key n hn
      exact e
    · obtain ⟨m, hm, e1, _, _⟩ := key n hn
      have := (Tree.tags_of_map c3 (P := fun t _ => t = fSelf k ∨ t = fMut k ∨ t < 2
        ∨ (10 ≤ t ∧ t < 10 + 3 * k)) (fun n hn => (k2 n hn).2)) m hm
      unfold fSelf fMut at this
      rw [e1]
      tomega
    · obtain ⟨m, hm, e1, e2, _⟩ := key n hn
      rw [e2]
      exact c2 m hm (List.mem_cons_of_mem _ (List.mem_cons_of_mem _ (e1 ▸ ht)))
  have r1 : s2.ptrs.lookup (fMut k) = some [fMut k, fSelf k, fWriter, owner] := by rw [b2]; exact Tree.lookup_new
  simp only [chunk, Tree.run, a1, b1, Tree.raw_ok 0 1 r1]
  by_cases hi : off ≤ i ∧ i < off + n
  · obtain ⟨s3, c1, c2, c3, c4⟩ := Tree.use_ok (t := fMutPtr k) .write
      (s := { s2 with ptrs := (fMutPtr k, [fMut k, fSelf k, fWriter, owner]) :: s2.ptrs }) (path := [fMut k, fSelf k, fWriter, owner])
      Tree.lookup_new b3 (fun n hn hp => by rw [(k2 n hn).1 hp]; simp)
    simp only [Tree.step, if_pos hi, if_pos (show i < N by omega), c1]
    exact ⟨_, rfl, fin s3 c2 c3 c4⟩
  · simp only [Tree.step, if_neg hi]
    exact ⟨_, rfl, fin { s2 with ptrs := (fMutPtr k, [fMut k, fSelf k, fWriter, owner]) :: s2.ptrs } rfl b3 rfl⟩

theorem chunks_tree {N i : Nat} (h0 : 0 < N) : ∀ (l : List Nat) (k off : Nat), off + l.sum ≤ N → ∀ s, TextTree k s →
    ∃ s' k', Tree.run N i (chunks N k off l) s = some s' ∧ TextTree k' s' := by
  intro l
  induction l with
  | nil => intro k off _ s hs; exact ⟨s, k, rfl, hs⟩
  | cons n l ih =>
    intro k off hl s hs
    rw [List.sum_cons] at hl
    obtain ⟨s1, e1, h1⟩ := chunk_tree (i := i) (off := off) (n := n) h0 (by omega) hs
    obtain ⟨s2, k', e2, h2⟩ := ih (k + 1) (off + n) (by omega) s1 h1
    exact ⟨s2, k', by rw [chunks, Tree.run_append, e1, Option.bind_some, e2], h2⟩

theorem text_accepted {N n : Nat} {ns : List Nat} (h0 : 0 < N) (hs : ns.sum = n) (h : n ≤ N) :
    Tree.Accepts N ([ref .unique owner fWriter 0 N false] ++ (chunks N 0 0 ns ++ textEnd N n)) := by
  intro i
  have h1 : ∃ s, Tree.run N i [ref .unique owner fWriter 0 N false] Tree.start = some s ∧ TextTree 0 s := by
    refine ⟨⟨[(fWriter, [fWriter, owner]), (owner, [owner])], [⟨fWriter, .reserved, false⟩, ⟨owner, .active, false⟩]⟩,
      ?_, rfl, rfl, by decide, ?_, ?_⟩
    · by_cases h : i < N
      · have h1 : 0 ≤ i ∧ i < 0 + N := by omega
        simp only [Tree.run, Tree.step, Tree.start, if_pos h, if_pos h1]
        rfl
      · have h1 : ¬ (0 ≤ i ∧ i < 0 + N) := by omega
        simp only [Tree.run, Tree.step, Tree.start, if_neg h1]
        rfl
    · intro n hn
      fin_cases hn <;> decide
    · intro n hn ht
      fin_cases hn
      · exact .inl rfl
      · exact .inr rfl
  obtain ⟨s, e1, hs1⟩ := h1
  obtain ⟨s', k', e2, hs'⟩ := chunks_tree (i := i) h0 ns 0 0 (by omega) s hs1
  rw [Tree.run_append, e1, Option.bind_some, Tree.run_append, e2, Option.bind_some]
  refine Tree.reads_ok N i _ [owner] [fRead, fElem, fPtr, fSlice, fArg] s' ?_ ?_ ?_ ?_ (by decide) (by decide)
  · exact ⟨rfl, by decide, by omega, rfl, by decide, by omega, rfl, by decide, rfl, by decide, by omega,
      rfl, by decide, by omega, by decide, by omega, trivial⟩
  · intro n hn h
    rw [hs'.prot n hn] at h
    cases h
  · intro t ht
    cases List.mem_singleton.1 ht
    exact ⟨[owner], hs'.owner, (hs'.writable.mono (by decide)).readable⟩
  · intro n hn ht
    have := hs'.tags n hn
    simp only [List.mem_cons, List.not_mem_nil, or_false, fRead, fElem, fPtr, fSlice, fArg] at ht
    tomega

end Ethnum.Borrow
