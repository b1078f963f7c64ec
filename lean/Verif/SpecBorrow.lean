import Verif.Basic

/-
Specification: two aliasing models of Rust. A pointer carries a tag; the events of a trace make tags and use them on bytes
of one allocation. Both models treat each byte on its own, so that they are given here for one byte. `none` is undefined
behaviour.

* `Stacked`: Stacked Borrows (Jung, Dang, Kang, Dreyer, POPL 2020), with tagged raw pointers as in Miri.
* `Tree`: Tree Borrows (Villani, Hostert, Dreyer, Jung, PLDI 2025). Simplified to be stricter: a protected reference is
  protected on all bytes of the allocation, and any access by another pointer that would change what it allows is
  undefined behaviour at once.

Not in /repo: the models say what its unsafe code may do.
-/

namespace Ethnum.Borrow

abbrev Tag := Nat

inductive Access
  | read | write
  deriving DecidableEq

/-- `&mut T` and `*mut T`, or `&T` and `*const T`; there is no `UnsafeCell` in the crate. -/
inductive Kind
  | unique | shared
  deriving DecidableEq

/-- What a program does with pointers into one allocation. A reference made from a pointer covers the bytes
`lo .. lo + len` of what it refers to. -/
inductive Event
  /-- `&*p` or `&mut *p`; a reference passed to a function is protected until the function returns. -/
  | ref (k : Kind) (p new : Tag) (lo len : Nat) (prot : Bool)
  /-- a reference cast to a raw pointer -/
  | raw (k : Kind) (p new : Tag) (lo len : Nat)
  | access (a : Access) (p : Tag) (lo len : Nat)
  /-- the function returns whose arguments were these references -/
  | ret (ts : List Tag)
  deriving DecidableEq

/-- The tag of the allocation itself: the local variable. -/
def owner : Tag := 0

/-! ### Stacked Borrows -/

namespace Stacked

inductive Perm
  | unique | sharedRW | sharedRO | disabled
  deriving DecidableEq

structure Item where
  perm : Perm
  tag : Tag
  prot : Bool
  deriving DecidableEq

/-- The borrow stack of a byte, the top first. -/
abbrev Stack := List Item

def Perm.grants : Perm → Access → Bool
  | .unique, _ => true
  | .sharedRW, _ => true
  | .sharedRO, .read => true
  | _, _ => false

/-- The topmost item that allows the access, with what is above and below it. -/
def granting (t : Tag) (a : Access) : Stack → Option (Stack × Item × Stack)
  | [] => none
  | i :: s => if i.tag = t ∧ i.perm.grants a = true then some ([], i, s) else
    match granting t a s with
    | none => none
    | some (above, j, below) => some (i :: above, j, below)

def disable (i : Item) : Item := if i.perm = .unique then { i with perm := .disabled } else i

/-- An access needs an item that grants it. A read disables the unique items above; a write removes everything above, but
for the shared items next to a shared granting one. What is protected must neither be disabled nor removed. -/
def access (t : Tag) (a : Access) (s : Stack) : Option Stack :=
  match granting t a s with
  | none => none
  | some (above, i, below) =>
    match a with
    | .read =>
      if above.any (fun j => j.prot && decide (j.perm = .unique)) then none else some (above.map disable ++ i :: below)
    | .write =>
      let popped := if i.perm = .sharedRW then (above.reverse.dropWhile fun j => decide (j.perm = .sharedRW)).reverse else above
      let kept := if i.perm = .sharedRW then (above.reverse.takeWhile fun j => decide (j.perm = .sharedRW)).reverse else []
      if popped.any (·.prot) then none else some (kept ++ i :: below)

/-- Making a mutable pointer counts as a write through the old one, making a shared pointer as a read; then the new item
goes on top. -/
def step (i : Nat) (s : Stack) : Event → Option Stack
  | .ref k p new lo len prot =>
    if lo ≤ i ∧ i < lo + len then
      match k with
      | .unique => (access p .write s).map (⟨.unique, new, prot⟩ :: ·)
      | .shared => (access p .read s).map (⟨.sharedRO, new, prot⟩ :: ·)
    else some s
  | .raw k p new lo len =>
    if lo ≤ i ∧ i < lo + len then
      match k with
      | .unique => (access p .write s).map (⟨.sharedRW, new, false⟩ :: ·)
      | .shared => (access p .read s).map (⟨.sharedRO, new, false⟩ :: ·)
    else some s
  | .access a p lo len => if lo ≤ i ∧ i < lo + len then access p a s else some s
  | .ret ts => some (s.map fun j => if j.tag ∈ ts then { j with prot := false } else j)

def run (i : Nat) : List Event → Stack → Option Stack
  | [], s => some s
  | e :: es, s => match step i s e with
    | none => none
    | some s => run i es s

/-- The stacks of a new local variable of `N` bytes; bytes outside have none. -/
def start (N i : Nat) : Stack := if i < N then [⟨.unique, owner, false⟩] else []

/-- No access to any byte, inside or outside of a variable of `N` bytes, is undefined behaviour. -/
def Accepts (N : Nat) (es : List Event) : Prop := ∀ i, run i es (start N i) ≠ none

end Stacked

/-! ### Tree Borrows -/

namespace Tree

inductive Perm
  | reserved | active | frozen | disabled
  deriving DecidableEq

/-- A node of the tree of references, and what it allows on the byte. -/
structure Node where
  tag : Tag
  perm : Perm
  prot : Bool
  deriving DecidableEq

/-- For every pointer the node it stands for with its ancestors (a raw pointer stands for the node of the reference it
was cast from), and the nodes. -/
structure State where
  ptrs : List (Tag × List Tag)
  nodes : List Node

/-- An access through the node or one of its descendants. -/
def inside : Access → Perm → Option Perm
  | _, .disabled => none
  | .read, p => some p
  | .write, .frozen => none
  | .write, _ => some .active

/-- An access through any other node. -/
def outside (prot : Bool) : Access → Perm → Option Perm
  | .read, .frozen => some .frozen
  | .read, .disabled => some .disabled
  | .read, .reserved => if prot then none else some .reserved
  | .read, .active => if prot then none else some .frozen
  | .write, _ => if prot then none else some .disabled

def Node.next (path : List Tag) (a : Access) (n : Node) : Option Perm :=
  if n.tag ∈ path then inside a n.perm else outside n.prot a n.perm

def access (t : Tag) (a : Access) (s : State) : Option State :=
  match s.ptrs.lookup t with
  | none => none
  | some path =>
    if s.nodes.all (fun n => (n.next path a).isSome) then
      some { s with nodes := s.nodes.map fun n => { n with perm := (n.next path a).getD n.perm } }
    else none

/-- A new reference is a child of the pointer it is made from and counts as a read of the bytes it covers. Outside of
these bytes it may be used as well, if the tree allows. -/
def step (N i : Nat) (s : State) : Event → Option State
  | .ref k p new lo len prot =>
    match s.ptrs.lookup p with
    | none => none
    | some path =>
      let s : State := ⟨(new, new :: path) :: s.ptrs,
        ⟨new, (match k with | .unique => .reserved | .shared => .frozen), prot⟩ :: s.nodes⟩
      if lo ≤ i ∧ i < lo + len then (if i < N then access new .read s else none) else some s
  | .raw _ p new _ _ =>
    match s.ptrs.lookup p with
    | none => none
    | some path => some { s with ptrs := (new, path) :: s.ptrs }
  | .access a p lo len => if lo ≤ i ∧ i < lo + len then (if i < N then access p a s else none) else some s
  | .ret ts => some { s with nodes := s.nodes.map fun n => if n.tag ∈ ts then { n with prot := false } else n }

def run (N i : Nat) : List Event → State → Option State
  | [], s => some s
  | e :: es, s => match step N i s e with
    | none => none
    | some s => run N i es s

/-- A new local variable. -/
def start : State := ⟨[(owner, [owner])], [⟨owner, .active, false⟩]⟩

/-- No access to any byte, inside or outside of a variable of `N` bytes, is undefined behaviour. -/
def Accepts (N : Nat) (es : List Event) : Prop := ∀ i, run N i es start ≠ none

end Tree

/-- The events of one allocation -/
def ofAlloc (id : Nat) (log : List (Nat × Event)) : List Event := log.filterMap fun e => if e.1 = id then some e.2 else none

/-- A program whose allocations have `N` bytes each obeys both models. -/
def Obeys (N : Nat) (log : List (Nat × Event)) : Prop :=
  ∀ id, Stacked.Accepts N (ofAlloc id log) ∧ Tree.Accepts N (ofAlloc id log)

end Ethnum.Borrow
