import Verif.Basic

/-
Specification: maps with 256-bit keys. `Op.meaning` is a map from numbers, with no data structure at all. The rest are
data structures of clients, which see their keys only through `Ord`, `PartialEq` and `Hash`: a search tree (`BTreeMap`),
a chained hash table with any hasher and any number of buckets (`HashMap`), and binary search in a sorted slice (written
from std's source). They are not in /repo; what they call is.
-/

namespace Ethnum.Maps

/-- What a map knows of its keys: `Ord::cmp`, `PartialEq::eq` and the words that `Hash::hash` gives to a hasher. -/
structure Keys (K : Type) where
  cmp : K → K → Ordering
  eq : K → K → Bool
  hash : K → List (BitVec 128)

/-- One call on a map. Each returns the value that the key had before. -/
inductive Op (K V : Type)
  | insert (k : K) (v : V)
  | remove (k : K)
  | get (k : K)

/-- The same call with another name for the key. -/
def Op.rename {K L V : Type} (f : K → L) : Op K V → Op L V
  | .insert k v => .insert (f k) v
  | .remove k => .remove (f k)
  | .get k => .get (f k)

/-- What a call means: the answer, and the map afterwards. -/
def Op.meaning {V : Type} : Op Int V → (Int → Option V) → Option V × (Int → Option V)
  | .insert k v, m => (m k, fun x => if x = k then some v else m x)
  | .remove k, m => (m k, fun x => if x = k then none else m x)
  | .get k, m => (m k, m)

/-- A history of calls: all answers, and the state at the end. -/
def history {O A S : Type} (step : O → S → A × S) : List O → S → List A × S
  | [], s => ([], s)
  | o :: os, s => ((step o s).1 :: (history step os (step o s).2).1, (history step os (step o s).2).2)

variable {K V : Type} (D : Keys K)

/-! ### A search tree -/

inductive Tree (K V : Type)
  | leaf
  | node (l : Tree K V) (k : K) (v : V) (r : Tree K V)

namespace Tree

def get (k : K) : Tree K V → Option V
  | leaf => none
  | node l k' v r =>
    match D.cmp k k' with
    | .lt => get k l
    | .eq => some v
    | .gt => get k r

def insert (k : K) (v : V) : Tree K V → Tree K V
  | leaf => node leaf k v leaf
  | node l k' v' r =>
    match D.cmp k k' with
    | .lt => node (insert k v l) k' v' r
    | .eq => node l k' v r
    | .gt => node l k' v' (insert k v r)

/-- The entry with the least key, and the tree without it. -/
def popMin : Tree K V → Option ((K × V) × Tree K V)
  | leaf => none
  | node l k v r =>
    match popMin l with
    | none => some ((k, v), r)
    | some (e, l') => some (e, node l' k v r)

def remove (k : K) : Tree K V → Tree K V
  | leaf => leaf
  | node l k' v' r =>
    match D.cmp k k' with
    | .lt => node (remove k l) k' v' r
    | .eq =>
      match popMin r with
      | none => l
      | some ((k'', v''), r') => node l k'' v'' r'
    | .gt => node l k' v' (remove k r)

/-- The entries in the order of iteration. -/
def toList : Tree K V → List (K × V)
  | leaf => []
  | node l k v r => toList l ++ (k, v) :: toList r

def step : Op K V → Tree K V → Option V × Tree K V
  | .insert k v, t => (get D k t, insert D k v t)
  | .remove k, t => (get D k t, remove D k t)
  | .get k, t => (get D k t, t)

end Tree

/-! ### A hash table -/

namespace Table

/-- The first entry of a bucket with an equal key. -/
def find (k : K) : List (K × V) → Option V
  | [] => none
  | (k', v) :: l => if D.eq k' k then some v else find k l

def put (k : K) (v : V) : List (K × V) → List (K × V)
  | [] => [(k, v)]
  | (k', v') :: l => if D.eq k' k then (k', v) :: l else (k', v') :: put k v l

def drop (k : K) (l : List (K × V)) : List (K × V) := l.filter fun e => !D.eq e.1 k

/-- `index` is the hasher and the number of buckets: which bucket the words of a key belong to. -/
def step (index : List (BitVec 128) → Nat) : Op K V → (Nat → List (K × V)) → Option V × (Nat → List (K × V))
  | .insert k v, b => (find D k (b (index (D.hash k))),
      fun i => if i = index (D.hash k) then put D k v (b i) else b i)
  | .remove k, b => (find D k (b (index (D.hash k))),
      fun i => if i = index (D.hash k) then drop D k (b i) else b i)
  | .get k, b => (find D k (b (index (D.hash k))), b)

end Table

/-! ### Binary search -/

/-- The loop of `slice::binary_search`: `while size > 1 { let half = size / 2; let mid = base + half; base = if`
`cmp(mid) == Greater { base } else { mid }; size -= half; }`. -/
def searchLoop (x : K) (l : List K) (base size : Nat) : Nat :=
  if 1 < size then
    searchLoop x l (match l[base + size / 2]? with
      | some y => if D.cmp y x = .gt then base else base + size / 2
      | none => base) (size - size / 2)
  else base
termination_by size
decreasing_by omega

/-- `slice::binary_search`: `Ok` with a position of the item, or `Err` with the position where it belongs. -/
def search (x : K) (l : List K) : Except Nat Nat :=
  match l with
  | [] => .error 0
  | _ =>
    let base := searchLoop D x l 0 l.length
    match l[base]? with
    | some y =>
      match D.cmp y x with
      | .eq => .ok base
      | .lt => .error (base + 1)
      | .gt => .error base
    | none => .error base

end Ethnum.Maps
