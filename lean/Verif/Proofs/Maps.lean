import Verif.SpecMaps
import Mathlib.Data.List.Basic
import Mathlib.Order.Compare
import Mathlib.Data.Int.Order.Basic
import Mathlib.Order.Defs.LinearOrder
import Mathlib.Tactic.SplitIfs

/-
Lemmas for C66.
-/

namespace Ethnum.Maps

variable {K V : Type} {D : Keys K} {den : K → Int}

/-- Comparison and equality are those of the numbers, and equal keys have the same hash. -/
structure Lawful (D : Keys K) (den : K → Int) : Prop where
  cmp : ∀ a b, D.cmp a b = compare (den a) (den b)
  eq : ∀ a b, D.eq a b = decide (den a = den b)
  hash : ∀ a b, den a = den b → D.hash a = D.hash b

theorem cmp_lt (h : Lawful D den) {a b : K} : D.cmp a b = .lt ↔ den a < den b := by rw [h.cmp]; exact compare_lt_iff_lt (a := den a) (b := den b)
theorem cmp_eq (h : Lawful D den) {a b : K} : D.cmp a b = .eq ↔ den a = den b := by rw [h.cmp]; exact compare_eq_iff_eq (a := den a) (b := den b)
theorem cmp_gt (h : Lawful D den) {a b : K} : D.cmp a b = .gt ↔ den b < den a := by rw [h.cmp]; exact compare_gt_iff_gt (a := den a) (b := den b)

namespace Tree

/-- The value of a number in a tree. -/
def look (den : K → Int) (x : Int) : Tree K V → Option V
  | leaf => none
  | node l k v r => if x < den k then look den x l else if den k < x then look den x r else some v

/-- All keys of a tree. -/
def All (P : Int → Prop) (den : K → Int) : Tree K V → Prop
  | leaf => True
  | node l k _ r => All P den l ∧ P (den k) ∧ All P den r

/-- A search tree. -/
def Ordered (den : K → Int) : Tree K V → Prop
  | leaf => True
  | node l k _ r => Ordered den l ∧ All (· < den k) den l ∧ All (den k < ·) den r ∧ Ordered den r

theorem All.mono {P Q : Int → Prop} (h : ∀ x, P x → Q x) : ∀ {t : Tree K V}, All P den t → All Q den t
  | leaf, _ => trivial
  | node _ _ _ _, ⟨a, b, c⟩ => ⟨a.mono h, h _ b, c.mono h⟩

theorem look_none {x : Int} : ∀ {t : Tree K V}, All (· ≠ x) den t → look den x t = none
  | leaf, _ => rfl
  | node l k v r, ⟨a, b, c⟩ => by
    unfold look
    split
    · exact look_none a
    · split
      · exact look_none c
      · exfalso; omega

theorem get_eq (h : Lawful D den) (k : K) : ∀ t : Tree K V, get D k t = look den (den k) t
  | leaf => rfl
  | node l k' v r => by
    unfold get look
    cases e : D.cmp k k' with
    | lt => rw [if_pos ((cmp_lt h).1 e)]; exact get_eq h k l
    | eq =>
      have := (cmp_eq h).1 e
      rw [if_neg (by omega), if_neg (by omega)]
    | gt =>
      have := (cmp_gt h).1 e
      rw [if_neg (by omega), if_pos this]; exact get_eq h k r

theorem look_insert (h : Lawful D den) (k : K) (v : V) (x : Int) :
    ∀ t : Tree K V, look den x (insert D k v t) = if x = den k then some v else look den x t
  | leaf => by
    unfold insert
    by_cases hx : x = den k
    · rw [if_pos hx]; unfold look; rw [if_neg (by omega), if_neg (by omega)]
    · rw [if_neg hx]; unfold look; simp only [look]; split
      · rfl
      · rw [if_pos (by omega)]
  | node l k' v' r => by
    unfold insert
    cases e : D.cmp k k' with
    | lt =>
      have := (cmp_lt h).1 e
      simp only [look]
      rw [look_insert h k v x l]
      split_ifs <;> first | rfl | (exfalso; omega)
    | eq =>
      have := (cmp_eq h).1 e
      simp only [look]
      by_cases hx : x = den k
      · rw [if_pos hx, if_neg (by omega), if_neg (by omega)]
      · rw [if_neg hx]
        by_cases h1 : x < den k'
        · rw [if_pos h1, if_pos h1]
        · rw [if_neg h1, if_neg h1, if_pos (by omega), if_pos (by omega)]
    | gt =>
      have := (cmp_gt h).1 e
      simp only [look]
      rw [look_insert h k v x r]
      split_ifs <;> first | rfl | (exfalso; omega)

theorem all_insert (h : Lawful D den) (k : K) (v : V) {P : Int → Prop} (hk : P (den k)) :
    ∀ {t : Tree K V}, All P den t → All P den (insert D k v t)
  | leaf, _ => ⟨trivial, hk, trivial⟩
  | node l k' v' r, ⟨a, b, c⟩ => by
    unfold insert
    cases D.cmp k k' with
    | lt => exact ⟨all_insert h k v hk a, b, c⟩
    | eq => exact ⟨a, b, c⟩
    | gt => exact ⟨a, b, all_insert h k v hk c⟩

theorem ordered_insert (h : Lawful D den) (k : K) (v : V) : ∀ {t : Tree K V}, Ordered den t → Ordered den (insert D k v t)
  | leaf, _ => ⟨trivial, trivial, trivial, trivial⟩
  | node l k' v' r, ⟨a, b, c, d⟩ => by
    unfold insert
    cases e : D.cmp k k' with
    | lt => exact ⟨ordered_insert h k v a, all_insert h k v (P := (· < den k')) ((cmp_lt h).1 e) b, c, d⟩
    | eq => exact ⟨a, b, c, d⟩
    | gt => exact ⟨a, b, all_insert h k v (P := (den k' < ·)) ((cmp_gt h).1 e) c, ordered_insert h k v d⟩

theorem popMin_spec {P : Int → Prop} : ∀ {t : Tree K V} {k : K} {v : V} {t' : Tree K V}, Ordered den t → All P den t →
    popMin t = some ((k, v), t') →
    Ordered den t' ∧ P (den k) ∧ All P den t' ∧ All (den k < ·) den t'
      ∧ ∀ x, look den x t = if x = den k then some v else look den x t'
  | leaf, _, _, _, _, _, e => by cases e
  | node l k' v' r, k, v, t', ⟨a, b, c, d⟩, ⟨p, q, s⟩, e => by
    unfold popMin at e
    cases hl : popMin l with
    | none =>
      rw [hl] at e
      have hleaf : l = leaf := by
        cases l with
        | leaf => rfl
        | node l1 k1 v1 r1 =>
          unfold popMin at hl
          revert hl
          cases popMin l1 <;> intro hl <;> cases hl
      subst hleaf
      cases e
      refine ⟨d, q, s, c, fun x => ?_⟩
      simp only [look]
      have hn : x < den k' → look den x r = none := fun h1 => look_none (c.mono (fun y hy => by omega))
      split_ifs with h1 h2
      · omega
      · exact (hn h1).symm
      · omega
      all_goals first | rfl | (exfalso; omega)
    | some m =>
      obtain ⟨⟨k1, v1⟩, l'⟩ := m
      rw [hl] at e
      cases e
      obtain ⟨o1, -, -, o4, o5⟩ := popMin_spec a p hl
      obtain ⟨-, o2, o3, -, -⟩ := popMin_spec a p hl
      obtain ⟨-, q2, q3, -, -⟩ := popMin_spec a b hl
      refine ⟨⟨o1, q3, c, d⟩, o2, ⟨o3, q, s⟩, ⟨o4, q2, c.mono fun y hy => by omega⟩, fun x => ?_⟩
      simp only [look]
      rw [o5 x]
      split_ifs <;> first | rfl | (exfalso; omega)

theorem popMin_none : ∀ {t : Tree K V}, popMin t = none → t = leaf
  | leaf, _ => rfl
  | node l k v r, h => by
    unfold popMin at h
    revert h
    cases popMin l <;> intro h <;> cases h

theorem remove_spec (h : Lawful D den) (k : K) : ∀ {t : Tree K V}, Ordered den t →
    Ordered den (remove D k t) ∧ (∀ P, All P den t → All P den (remove D k t))
      ∧ ∀ x, look den x (remove D k t) = if x = den k then none else look den x t
  | leaf, _ => ⟨trivial, fun _ _ => trivial, fun x => by unfold remove look; split <;> rfl⟩
  | node l k' v' r, ⟨a, b, c, d⟩ => by
    unfold remove
    cases e : D.cmp k k' with
    | lt =>
      have hk := (cmp_lt h).1 e
      obtain ⟨i1, i2, i3⟩ := remove_spec h k a
      refine ⟨⟨i1, i2 _ b, c, d⟩, fun P hP => ⟨i2 P hP.1, hP.2.1, hP.2.2⟩, fun x => ?_⟩
      simp only [look]
      rw [i3 x]
      split_ifs <;> first | rfl | (exfalso; omega)
    | gt =>
      have hk := (cmp_gt h).1 e
      obtain ⟨i1, i2, i3⟩ := remove_spec h k d
      refine ⟨⟨a, b, i2 _ c, i1⟩, fun P hP => ⟨hP.1, hP.2.1, i2 P hP.2.2⟩, fun x => ?_⟩
      simp only [look]
      rw [i3 x]
      split_ifs <;> first | rfl | (exfalso; omega)
    | eq =>
      have hk := (cmp_eq h).1 e
      cases hp : popMin r with
      | none =>
        have := popMin_none hp
        subst this
        refine ⟨a, fun P hP => hP.1, fun x => ?_⟩
        simp only [look]
        by_cases hx : x = den k
        · rw [if_pos hx]
          exact look_none (b.mono fun y hy => by omega)
        · rw [if_neg hx]
          by_cases h1 : x < den k'
          · rw [if_pos h1]
          · rw [if_neg h1, if_pos (by omega)]
            exact look_none (b.mono fun y hy => by omega)
      | some m =>
        obtain ⟨⟨k1, v1⟩, r'⟩ := m
        obtain ⟨o1, o2, o3, o4, o5⟩ := popMin_spec d c hp
        refine ⟨⟨a, b.mono fun y hy => by omega, o4, o1⟩, fun P hP => ?_, fun x => ?_⟩
        · obtain ⟨-, p2, p3, -, -⟩ := popMin_spec d hP.2.2 hp
          exact ⟨hP.1, p2, p3⟩
        · simp only [look]
          rw [o5 x]
          have n1 : den k' ≤ x → look den x l = none := fun h1 => look_none (b.mono fun y hy => by omega)
          have n2 : x ≤ den k1 → look den x r' = none := fun h1 => look_none (o4.mono fun y hy => by omega)
          have o2 : den k' < den k1 := o2
          split_ifs
          all_goals first | rfl | (exfalso; omega) | exact n1 (by omega) | (rw [n1 (by omega), n2 (by omega)])

theorem all_toList {P : Int → Prop} : ∀ {t : Tree K V}, All P den t ↔ ∀ e ∈ t.toList, P (den e.1)
  | leaf => by simp [All, toList]
  | node l k v r => by
    simp only [All, toList, List.mem_append, List.mem_cons]
    rw [all_toList, all_toList]
    constructor
    · rintro ⟨a, b, c⟩ e (he | rfl | he)
      · exact a e he
      · exact b
      · exact c e he
    · intro h
      exact ⟨fun e he => h e (Or.inl he), h (k, v) (Or.inr (Or.inl rfl)), fun e he => h e (Or.inr (Or.inr he))⟩

theorem sorted_toList : ∀ {t : Tree K V}, Ordered den t → t.toList.Pairwise (fun a b => den a.1 < den b.1)
  | leaf, _ => List.Pairwise.nil
  | node l k v r, ⟨a, b, c, d⟩ => by
    rw [all_toList] at b c
    unfold toList
    rw [List.pairwise_append, List.pairwise_cons]
    refine ⟨sorted_toList a, ⟨c, sorted_toList d⟩, fun x hx y hy => ?_⟩
    rcases List.mem_cons.1 hy with rfl | hy
    · exact b x hx
    · exact Int.lt_trans (b x hx) (c y hy)

theorem look_toList (x : Int) (v : V) : ∀ {t : Tree K V}, Ordered den t →
    (look den x t = some v ↔ ∃ k, (k, v) ∈ t.toList ∧ den k = x)
  | leaf, _ => by simp [look, toList]
  | node l k v' r, ⟨a, b, c, d⟩ => by
    rw [all_toList] at b c
    simp only [look, toList, List.mem_append, List.mem_cons, Prod.mk.injEq]
    split
    · rw [look_toList x v a]
      constructor
      · rintro ⟨k1, h1, h2⟩; exact ⟨k1, Or.inl h1, h2⟩
      · rintro ⟨k1, h1 | ⟨rfl, -⟩ | h1, h2⟩
        · exact ⟨k1, h1, h2⟩
        · omega
        · have := c _ h1; simp only at this; omega
    · split
      · rw [look_toList x v d]
        constructor
        · rintro ⟨k1, h1, h2⟩; exact ⟨k1, Or.inr (Or.inr h1), h2⟩
        · rintro ⟨k1, h1 | ⟨rfl, -⟩ | h1, h2⟩
          · have := b _ h1; simp only at this; omega
          · omega
          · exact ⟨k1, h1, h2⟩
      · constructor
        · intro e; injection e with e
          exact ⟨k, Or.inr (Or.inl ⟨rfl, e.symm⟩), by omega⟩
        · rintro ⟨k1, h1 | ⟨rfl, rfl⟩ | h1, h2⟩
          · have := b _ h1; simp only at this; omega
          · rfl
          · have := c _ h1; simp only at this; omega

theorem step_spec (h : Lawful D den) (o : Op K V) {t : Tree K V} (ht : Ordered den t) {m : Int → Option V}
    (hm : ∀ x, look den x t = m x) :
    (step D o t).1 = ((o.rename den).meaning m).1 ∧ Ordered den (step D o t).2
      ∧ ∀ x, look den x (step D o t).2 = ((o.rename den).meaning m).2 x := by
  cases o with
  | insert k v =>
    exact ⟨(get_eq h k t).trans (hm _), ordered_insert h k v ht, fun x => by
      rw [step, look_insert h, hm]; rfl⟩
  | remove k =>
    obtain ⟨i1, -, i3⟩ := remove_spec h k ht
    exact ⟨(get_eq h k t).trans (hm _), i1, fun x => by rw [step, i3, hm]; rfl⟩
  | get k => exact ⟨(get_eq h k t).trans (hm _), ht, hm⟩

theorem history_spec (h : Lawful D den) (os : List (Op K V)) {t : Tree K V} (ht : Ordered den t) {m : Int → Option V}
    (hm : ∀ x, look den x t = m x) :
    (history (step D) os t).1 = (history Op.meaning (os.map (Op.rename den)) m).1 ∧ Ordered den (history (step D) os t).2
      ∧ ∀ x, look den x (history (step D) os t).2 = (history Op.meaning (os.map (Op.rename den)) m).2 x := by
  induction os generalizing t m with
  | nil => exact ⟨rfl, ht, hm⟩
  | cons o os ih =>
    obtain ⟨s1, s2, s3⟩ := step_spec h o ht hm
    obtain ⟨i1, i2, i3⟩ := ih s2 s3
    simp only [history, List.map_cons]
    exact ⟨by rw [s1, i1], i2, i3⟩

end Tree

namespace Table

theorem find_put (h : Lawful D den) (k k' : K) (v : V) (l : List (K × V)) :
    find D k' (put D k v l) = if den k' = den k then some v else find D k' l := by
  induction l with
  | nil =>
    simp only [put, find, h.eq]
    by_cases e : den k' = den k
    · simp [e]
    · simp [e, Ne.symm e]
  | cons a l ih =>
    obtain ⟨k1, v1⟩ := a
    simp only [put, h.eq]
    by_cases e1 : den k1 = den k
    · simp only [e1, decide_true, if_true, find, h.eq]
      by_cases e : den k' = den k
      · simp [e]
      · simp [e, Ne.symm e]
    · simp only [e1, decide_false, Bool.false_eq_true, if_false, find, h.eq, ih]
      by_cases e2 : den k1 = den k'
      · rw [e2] at e1
        simp [e2, e1]
      · simp [e2]

theorem find_drop (h : Lawful D den) (k k' : K) (l : List (K × V)) :
    find D k' (drop D k l) = if den k' = den k then none else find D k' l := by
  induction l with
  | nil => simp [drop, find]
  | cons a l ih =>
    obtain ⟨k1, v1⟩ := a
    unfold drop at ih ⊢
    by_cases e1 : den k1 = den k
    · rw [List.filter_cons_of_neg (by simp [h.eq, e1]), ih]
      simp only [find, h.eq]
      by_cases e : den k' = den k
      · simp [e]
      · rw [if_neg e, if_neg e]
        have : den k1 ≠ den k' := by omega
        simp [this]
    · rw [List.filter_cons_of_pos (by simp [h.eq, e1])]
      simp only [find]
      rw [ih, h.eq]
      by_cases e2 : den k1 = den k'
      · rw [e2] at e1
        simp [e2, e1]
      · simp [e2]

theorem step_spec (h : Lawful D den) (index : List (BitVec 128) → Nat) (o : Op K V) {b : Nat → List (K × V)}
    {m : Int → Option V} (hm : ∀ k, find D k (b (index (D.hash k))) = m (den k)) :
    (step D index o b).1 = ((o.rename den).meaning m).1
      ∧ ∀ k, find D k ((step D index o b).2 (index (D.hash k))) = ((o.rename den).meaning m).2 (den k) := by
  cases o with
  | insert k v =>
    refine ⟨hm k, fun k' => ?_⟩
    simp only [step, Op.rename, Op.meaning]
    by_cases e : den k' = den k
    · rw [if_pos (by rw [h.hash _ _ e]), if_pos e, find_put h, if_pos e]
    · rw [if_neg e]
      split
      · rw [find_put h, if_neg e, hm]
      · exact hm k'
  | remove k =>
    refine ⟨hm k, fun k' => ?_⟩
    simp only [step, Op.rename, Op.meaning]
    by_cases e : den k' = den k
    · rw [if_pos (by rw [h.hash _ _ e]), if_pos e, find_drop h, if_pos e]
    · rw [if_neg e]
      split
      · rw [find_drop h, if_neg e, hm]
      · exact hm k'
  | get k => exact ⟨hm k, hm⟩

theorem history_spec (h : Lawful D den) (index : List (BitVec 128) → Nat) (os : List (Op K V)) {b : Nat → List (K × V)}
    {m : Int → Option V} (hm : ∀ k, find D k (b (index (D.hash k))) = m (den k)) :
    (history (step D index) os b).1 = (history Op.meaning (os.map (Op.rename den)) m).1 := by
  induction os generalizing b m with
  | nil => rfl
  | cons o os ih =>
    obtain ⟨s1, s2⟩ := step_spec h index o hm
    simp only [history, List.map_cons]
    rw [s1, ih s2]

end Table

/-! ### Binary search -/

theorem searchLoop_spec (h : Lawful D den) (x : K) (l : List K)
    (hs : l.Pairwise (fun a b => den a ≤ den b)) : ∀ (size base : Nat), 0 < size → base + size ≤ l.length →
    (∀ i y, l[i]? = some y → i ≤ base → 0 < base → den y ≤ den x) →
    (∀ i y, l[i]? = some y → base + size ≤ i → den x < den y) →
    searchLoop D x l base size < l.length
    ∧ (∀ i y, l[i]? = some y → i ≤ searchLoop D x l base size → 0 < searchLoop D x l base size → den y ≤ den x)
    ∧ (∀ i y, l[i]? = some y → searchLoop D x l base size + 1 ≤ i → den x < den y) := by
  intro size
  have mono : ∀ (i j : Nat) (a b : K), l[i]? = some a → l[j]? = some b → i ≤ j → den a ≤ den b := by
    intro i j a b ha hb hij
    obtain ⟨hi, rfl⟩ := List.getElem?_eq_some_iff.1 ha
    obtain ⟨hj, rfl⟩ := List.getElem?_eq_some_iff.1 hb
    rcases Nat.lt_or_eq_of_le hij with hlt | rfl
    · exact List.pairwise_iff_getElem.1 hs i j hi hj hlt
    · exact le_refl _
  induction size using Nat.strongRecOn with
  | ind size ih =>
    intro base hpos hle h1 h2
    rw [searchLoop]
    by_cases hsz : 1 < size
    · rw [if_pos hsz]
      have hmid : base + size / 2 < l.length := by omega
      rw [List.getElem?_eq_getElem hmid]
      simp only
      by_cases hg : D.cmp l[base + size / 2] x = .gt
      · rw [if_pos hg]
        have hg := (cmp_gt h).1 hg
        refine ih (size - size / 2) (by omega) base (by omega) (by omega) h1 fun i y hy hi => ?_
        exact lt_of_lt_of_le hg (mono _ _ _ _ (List.getElem?_eq_getElem hmid) hy (by omega))
      · rw [if_neg hg]
        have hg : den l[base + size / 2] ≤ den x := by
          by_contra hlt
          exact hg ((cmp_gt h).2 (by omega))
        refine ih (size - size / 2) (by omega) (base + size / 2) (by omega) (by omega) (fun i y hy hi _ => ?_)
          fun i y hy hi => h2 i y hy (by omega)
        exact le_trans (mono _ _ _ _ hy (List.getElem?_eq_getElem hmid) hi) hg
    · rw [if_neg hsz]
      exact ⟨by omega, h1, fun i y hy hi => h2 i y hy (by omega)⟩

end Ethnum.Maps
