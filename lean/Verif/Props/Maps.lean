import Verif.Proofs.Maps
import Verif.Props.Repr

/-
C66 keys of maps and sorted slices (Verif/SpecMaps.lean).
-/

namespace Ethnum
open Maps

/-- What a map sees of a `U256` key. -/
def u256Keys (c : Cfg) : Keys U256 := ⟨U256.cmp c, U256.eq c, U256.hash_words⟩

/-- What a map sees of an `I256` key. -/
def i256Keys (c : Cfg) : Keys I256 := ⟨I256.cmp c, I256.eq c, I256.hash_words⟩

theorem u256_lawful (c : Cfg) : Lawful (u256Keys c) (fun x => (x.toNat c : Int)) where
  cmp a b := by
    refine ((C20_u256_cmp c a b).1).trans ?_
    rcases Nat.lt_trichotomy (a.toNat c) (b.toNat c) with h | h | h
    · rw [compare_lt_iff_lt.2 h, compare_lt_iff_lt.2 (by exact_mod_cast h)]
    · rw [compare_eq_iff_eq.2 h, compare_eq_iff_eq.2 (by exact_mod_cast h)]
    · rw [compare_gt_iff_gt.2 h, compare_gt_iff_gt.2 (by exact_mod_cast h)]
  eq a b := by
    refine ((C20_u256_cmp c a b).2.2.1).trans ?_
    simp only [Int.natCast_inj]
  hash a b h := ((C20_hash c a b I256.ZERO I256.ZERO).1).2 (by exact_mod_cast h)

theorem i256_lawful (c : Cfg) : Lawful (i256Keys c) (I256.toInt c) where
  cmp a b := (C20_i256_cmp c a b).1
  eq a b := (C20_i256_cmp c a b).2.2.1
  hash a b h := ((C20_hash c U256.ZERO U256.ZERO a b).2).2 h

/-- C66: a search tree that compares its keys with `cmp` answers every history of calls as a map from numbers does, and at
the end iterates over exactly the entries of that map, in increasing order. -/
theorem C66_tree {V : Type} (c : Cfg) (os : List (Op U256 V)) (ps : List (Op I256 V)) :
    ((history (Tree.step (u256Keys c)) os .leaf).1
        = (history Op.meaning (os.map (Op.rename fun k => (k.toNat c : Int))) fun _ => none).1
      ∧ (history (Tree.step (u256Keys c)) os .leaf).2.toList.Pairwise (fun a b => a.1.toNat c < b.1.toNat c)
      ∧ ∀ (x : Nat) v, (history Op.meaning (os.map (Op.rename fun k => (k.toNat c : Int))) fun _ => none).2 x = some v
          ↔ ∃ k, (k, v) ∈ (history (Tree.step (u256Keys c)) os .leaf).2.toList ∧ k.toNat c = x)
    ∧ ((history (Tree.step (i256Keys c)) ps .leaf).1
        = (history Op.meaning (ps.map (Op.rename (I256.toInt c))) fun _ => none).1
      ∧ (history (Tree.step (i256Keys c)) ps .leaf).2.toList.Pairwise (fun a b => a.1.toInt c < b.1.toInt c)
      ∧ ∀ x v, (history Op.meaning (ps.map (Op.rename (I256.toInt c))) fun _ => none).2 x = some v
          ↔ ∃ k, (k, v) ∈ (history (Tree.step (i256Keys c)) ps .leaf).2.toList ∧ k.toInt c = x) := by
  constructor
  · obtain ⟨h1, h2, h3⟩ := Tree.history_spec (u256_lawful c) os (t := .leaf) trivial (m := fun _ => none) (fun _ => rfl)
    refine ⟨h1, (Tree.sorted_toList h2).imp fun h => by exact_mod_cast h, fun x v => ?_⟩
    rw [← h3, Tree.look_toList _ v h2]
    simp only [Int.natCast_inj]
  · obtain ⟨h1, h2, h3⟩ := Tree.history_spec (i256_lawful c) ps (t := .leaf) trivial (m := fun _ => none) (fun _ => rfl)
    exact ⟨h1, Tree.sorted_toList h2, fun x v => by rw [← h3, Tree.look_toList _ v h2]⟩

/-- C66: a hash table, with any hasher and any number of buckets, answers every history of calls as a map from numbers
does. -/
theorem C66_table {V : Type} (c : Cfg) (index : List (BitVec 128) → Nat) (os : List (Op U256 V)) (ps : List (Op I256 V)) :
    (history (Table.step (u256Keys c) index) os fun _ => []).1
        = (history Op.meaning (os.map (Op.rename fun k => (k.toNat c : Int))) fun _ => none).1
    ∧ (history (Table.step (i256Keys c) index) ps fun _ => []).1
        = (history Op.meaning (ps.map (Op.rename (I256.toInt c))) fun _ => none).1 :=
  ⟨Table.history_spec (u256_lawful c) index os fun _ => rfl, Table.history_spec (i256_lawful c) index ps fun _ => rfl⟩

private theorem search_spec {K : Type} {D : Keys K} {den : K → Int} (h : Lawful D den) (x : K) (l : List K)
    (hs : l.Pairwise (fun a b => den a ≤ den b)) :
    (∀ i, search D x l = .ok i → ∃ y, l[i]? = some y ∧ den y = den x)
    ∧ (∀ i, search D x l = .error i → i ≤ l.length ∧ (∀ j y, l[j]? = some y → (j < i → den y < den x) ∧ (i ≤ j → den x < den y))) := by
  cases hl : l with
  | nil =>
    refine ⟨fun i e => (by cases e), fun i e => ?_⟩
    cases e
    exact ⟨le_refl _, fun j y e => by simp at e⟩
  | cons a t =>
    have hpos : 0 < l.length := by rw [hl]; simp
    rw [← hl]
    obtain ⟨s1, s2, s3⟩ := searchLoop_spec h x l hs l.length 0 hpos (by omega) (fun i y _ _ h0 => absurd h0 (by omega))
      (fun i y hy hi => by rw [List.getElem?_eq_none (by omega)] at hy; cases hy)
    have mono : ∀ (i j : Nat) (a b : K), l[i]? = some a → l[j]? = some b → i ≤ j → den a ≤ den b := by
      intro i j a b ha hb hij
      obtain ⟨hi, rfl⟩ := List.getElem?_eq_some_iff.1 ha
      obtain ⟨hj, rfl⟩ := List.getElem?_eq_some_iff.1 hb
      rcases Nat.lt_or_eq_of_le hij with hlt | rfl
      · exact List.pairwise_iff_getElem.1 hs i j hi hj hlt
      · exact le_refl _
    have e : search D x l = (match D.cmp l[searchLoop D x l 0 l.length] x with
        | .eq => .ok (searchLoop D x l 0 l.length)
        | .lt => .error (searchLoop D x l 0 l.length + 1)
        | .gt => .error (searchLoop D x l 0 l.length)) := by
      have e' : search D x l = (match l[searchLoop D x l 0 l.length]? with
          | some y => (match D.cmp y x with
            | .eq => .ok (searchLoop D x l 0 l.length)
            | .lt => .error (searchLoop D x l 0 l.length + 1)
            | .gt => .error (searchLoop D x l 0 l.length))
          | none => .error (searchLoop D x l 0 l.length)) := by
        rw [hl]
        rfl
      rw [e', List.getElem?_eq_getElem s1]
    rw [e]
    generalize searchLoop D x l 0 l.length = b at *
    have hb := List.getElem?_eq_getElem s1
    cases ec : D.cmp l[b] x with
    | eq =>
      refine ⟨fun i e => ?_, fun i e => by cases e⟩
      cases e
      exact ⟨_, hb, (cmp_eq h).1 ec⟩
    | lt =>
      refine ⟨fun i e => (by cases e), fun i e => ?_⟩
      cases e
      have ec := (cmp_lt h).1 ec
      exact ⟨by omega, fun j y hy => ⟨fun hj => lt_of_le_of_lt (mono _ _ _ _ hy hb (by omega)) ec,
        fun hj => s3 j y hy hj⟩⟩
    | gt =>
      refine ⟨fun i e => (by cases e), fun i e => ?_⟩
      cases e
      have ec := (cmp_gt h).1 ec
      have hb0 : b = 0 := by
        by_contra hne
        have := s2 b _ hb (le_refl _) (by omega)
        omega
      exact ⟨by omega, fun j y hy => ⟨fun hj => by omega, fun hj => lt_of_lt_of_le ec (mono _ _ _ _ hb hy hj)⟩⟩

/-- C66: binary search in a sorted slice finds a position with the number if there is one, and otherwise the position
where it belongs. -/
theorem C66_binary_search (c : Cfg) (x : U256) (l : List U256) (y : I256) (m : List I256)
    (hl : l.Pairwise fun a b => a.le c b = true) (hm : m.Pairwise fun a b => a.le c b = true) :
    (∀ i, search (u256Keys c) x l = .ok i → ∃ z, l[i]? = some z ∧ z.toNat c = x.toNat c)
    ∧ (∀ i, search (u256Keys c) x l = .error i → i ≤ l.length
        ∧ ∀ j z, l[j]? = some z → (j < i → z.toNat c < x.toNat c) ∧ (i ≤ j → x.toNat c < z.toNat c))
    ∧ (∀ i, search (i256Keys c) y m = .ok i → ∃ z, m[i]? = some z ∧ z.toInt c = y.toInt c)
    ∧ (∀ i, search (i256Keys c) y m = .error i → i ≤ m.length
        ∧ ∀ j z, m[j]? = some z → (j < i → z.toInt c < y.toInt c) ∧ (i ≤ j → y.toInt c < z.toInt c)) := by
  have s1 := search_spec (u256_lawful c) x l (hl.imp fun {a b} h => by
    rw [(C20_u256_cmp c a b).2.2.2.2.2.1] at h
    exact_mod_cast of_decide_eq_true h)
  have s2 := search_spec (i256_lawful c) y m (hm.imp fun {a b} h => by
    rw [(C20_i256_cmp c a b).2.2.2.2.2.1] at h
    exact of_decide_eq_true h)
  refine ⟨fun i e => ?_, fun i e => ?_, s2.1, s2.2⟩
  · obtain ⟨z, h1, h2⟩ := s1.1 i e
    exact ⟨z, h1, by exact_mod_cast h2⟩
  · obtain ⟨h1, h2⟩ := s1.2 i e
    exact ⟨h1, fun j z hz => ⟨fun hj => by exact_mod_cast (h2 j z hz).1 hj, fun hj => by exact_mod_cast (h2 j z hz).2 hj⟩⟩

private def calls : List (Op U256 Nat) :=
  [.insert (U256.ofNat dbg (2 ^ 200)) 1, .insert (U256.ofNat dbg 5) 2, .insert U256.MAX 3, .insert (U256.ofNat dbg (2 ^ 200)) 4,
   .remove (U256.ofNat dbg 5), .get (U256.ofNat dbg 5), .remove (U256.ofNat dbg (2 ^ 200)), .get U256.MAX]

example : (history (Tree.step (u256Keys dbg)) calls .leaf).1 = [none, none, none, some 1, some 2, none, some 4, some 3]
    ∧ (history (Tree.step (u256Keys dbg)) calls .leaf).2.toList = [(U256.MAX, 3)]
    ∧ (history (Table.step (u256Keys dbg) fun l => l.length) calls fun _ => []).1
      = [none, none, none, some 1, some 2, none, some 4, some 3] := by decide +kernel

private def slice : List I256 := [-7, -2, 3, 3, 2 ^ 200].map (I256.ofInt rel)

example : slice.Pairwise (fun a b => a.le rel b = true)
    ∧ search (i256Keys rel) (I256.ofInt rel (-2)) slice = .ok 1
    ∧ search (i256Keys rel) (I256.ofInt rel (-8)) slice = .error 0
    ∧ search (i256Keys rel) (I256.ofInt rel 4) slice = .error 4
    ∧ search (i256Keys rel) (I256.MAX rel) slice = .error 5 := by
  decide +kernel

end Ethnum
