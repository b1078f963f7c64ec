import Verif.Spec
import Verif.Model.Mem

/-
Specification: numbers held by objects in memory, calls that write through references, and histories of assignments.
`Cell.num`, `Mem.num`, `SameExcept` and the effects of a statement on numbers do not use the model's functions.
`Assign.run`, `Assign.runVal`, `Stmt.run` and `runAll` are client code.
-/

namespace Ethnum

/-- Which of the two types an object has. -/
inductive Kind where
  | u | i
  deriving DecidableEq, Repr

/-- The range of the type. -/
def Kind.In : Kind → Int → Prop
  | .u => InU256
  | .i => InI256

instance (k : Kind) (z : Int) : Decidable (k.In z) := by unfold Kind.In; cases k <;> infer_instance

/-- The number of the type that is congruent to `z` modulo `2^256`. -/
def Kind.wrap : Kind → Int → Int
  | .u, z => z % 2 ^ 256
  | .i, z => (z + 2 ^ 255) % 2 ^ 256 - 2 ^ 255

/-- The number of the type with the given 256 bits. -/
def Kind.ofBits : Kind → BitVec 256 → Int
  | .u, b => b.toNat
  | .i, b => b.toInt

/-- The number that an object of the given type holds; `none` if it is not initialised. -/
def Cell.num (c : Cfg) (k : Kind) : Cell → Option Int
  | ⟨some w0, some w1⟩ => some (match k with
    | .u => ((⟨w0, w1⟩ : U256).toNat c : Int)
    | .i => (⟨w0, w1⟩ : I256).toInt c)
  | _ => none

/-- The number that the object at `p` holds; `none` if there is no object or it is not initialised. -/
def Mem.num (c : Cfg) (k : Kind) (s : Mem) (p : Loc) : Option Int := s[p]?.bind (Cell.num c k)

/-- The same objects exist, and all but those in `ps` are untouched (initialised or not). -/
def SameExcept (ps : List Loc) (s s' : Mem) : Prop := s'.length = s.length ∧ ∀ p, p ∉ ps → s'[p]? = s[p]?

/-- The call returns `x`; the object at `r` then holds `z` and no other object has changed. -/
def Puts {α : Type} (c : Cfg) (k : Kind) (r : Loc) (z : Int) (x : α) (m : M α) (s : Mem) : Prop :=
  ∃ s', m s = (.ok x, s') ∧ s'.num c k r = some z ∧ SameExcept [r] s s'

/-- The call returns; the objects at `q` and `r` then hold `y` and `z` and no other object has changed. -/
def Puts2 (c : Cfg) (k : Kind) (q : Loc) (y : Int) (r : Loc) (z : Int) (m : M Unit) (s : Mem) : Prop :=
  ∃ s', m s = (.ok (), s') ∧ s'.num c k q = some y ∧ s'.num c k r = some z ∧ SameExcept [q, r] s s'

/-- The call panics and every object is as before. -/
def PanicsUnchanged {α : Type} (m : M α) (s : Mem) : Prop := ∃ p, m s = (.error (.panic p), s)

/-- The object at `a` is given the number, or, if there is none, the call panics and changes nothing. -/
def Effect (c : Cfg) (k : Kind) (a : Loc) (e : Option Int) (m : M Unit) (s : Mem) : Prop :=
  match e with
  | some z => Puts c k a z () m s
  | none => PanicsUnchanged m s

/-- An assigning operator with two operands of the same type. -/
inductive Assign where
  | add | sub | mul | div | rem | and | or | xor
  deriving DecidableEq, Repr

/-- The result over the integers; `none` for a division by zero. -/
def Assign.exact (k : Kind) (x y : Int) : Assign → Option Int
  | .add => some (x + y)
  | .sub => some (x - y)
  | .mul => some (x * y)
  | .div => if y = 0 then none else some (x.tdiv y)
  | .rem => if y = 0 then none else some (x.tmod y)
  | .and => some (k.ofBits (BitVec.ofInt 256 x &&& BitVec.ofInt 256 y))
  | .or => some (k.ofBits (BitVec.ofInt 256 x ||| BitVec.ofInt 256 y))
  | .xor => some (k.ofBits (BitVec.ofInt 256 x ^^^ BitVec.ofInt 256 y))

/-- What the target holds afterwards: the exact result if it fits. If it does not, a build with debug assertions panics
(`none`), except that the one quotient that does not fit wraps, and a build without them wraps. -/
def Assign.result (debug : Bool) (k : Kind) (x y : Int) (o : Assign) : Option Int :=
  match o.exact k x y with
  | none => none
  | some z => if k.In z then some z else if debug = true ∧ o ≠ .div then none else some (k.wrap z)

/-- A statement: variable `d` is assigned to, with the value of variable `v` (perhaps `d` itself) or a shift amount. -/
inductive Stmt where
  | op (o : Assign) (d v : Loc)
  | shl (d : Loc) (n : Fin 256)
  | shr (d : Loc) (n : Fin 256)
  deriving DecidableEq, Repr

/-- The variables that the statement mentions are among the first `n`. -/
def Stmt.Below (n : Nat) : Stmt → Prop
  | .op _ d v => d < n ∧ v < n
  | .shl d _ | .shr d _ => d < n

instance (n : Nat) (t : Stmt) : Decidable (t.Below n) := by unfold Stmt.Below; cases t <;> infer_instance

/-- What the statement makes of the numbers in the variables; `none` if it panics. -/
def Stmt.effect (debug : Bool) (k : Kind) (vs : List Int) : Stmt → Option (List Int)
  | .op o d v => (o.result debug k (vs.getD d 0) (vs.getD v 0)).map (vs.set d)
  | .shl d n => some (vs.set d (k.wrap (vs.getD d 0 * 2 ^ n.val)))
  | .shr d n => some (vs.set d (vs.getD d 0 / 2 ^ n.val))

/-- The numbers after the longest sequence of statements that do not panic, and whether that is all of them. -/
def history (debug : Bool) (k : Kind) : List Int → List Stmt → List Int × Bool
  | vs, [] => (vs, true)
  | vs, t :: ts =>
    match t.effect debug k vs with
    | some vs' => history debug k vs' ts
    | none => (vs, false)

/-! Client code -/

/-- `a op= &b` -/
def Assign.run (c : Cfg) (a b : Loc) : Kind → Assign → M Unit
  | .u, .add => U256.add_assignM c a b
  | .u, .sub => U256.sub_assignM c a b
  | .u, .mul => U256.mul_assignM c a b
  | .u, .div => U256.div_assignM c a b
  | .u, .rem => U256.rem_assignM c a b
  | .u, .and => U256.bitand_assignM a b
  | .u, .or => U256.bitor_assignM a b
  | .u, .xor => U256.bitxor_assignM a b
  | .i, .add => I256.add_assignM c a b
  | .i, .sub => I256.sub_assignM c a b
  | .i, .mul => I256.mul_assignM c a b
  | .i, .div => I256.div_assignM c a b
  | .i, .rem => I256.rem_assignM c a b
  | .i, .and => I256.bitand_assignM a b
  | .i, .or => I256.bitor_assignM a b
  | .i, .xor => I256.bitxor_assignM a b

/-- `a op= b` -/
def Assign.runVal (c : Cfg) (a b : Loc) (k : Kind) (o : Assign) : M Unit := MemOps.byValue b fun b' => o.run c a b' k

/-- One statement. -/
def Stmt.run (c : Cfg) (k : Kind) : Stmt → M Unit
  | .op o d v => o.runVal c d v k
  | .shl d n => match k with
    | .u => U256.shl_assignM c d (BitVec.ofNat 32 n.val)
    | .i => I256.shl_assignM c d (BitVec.ofNat 32 n.val)
  | .shr d n => match k with
    | .u => U256.shr_assignM c d (BitVec.ofNat 32 n.val)
    | .i => I256.shr_assignM c d (BitVec.ofNat 32 n.val)

/-- The statements, one after the other. -/
def runAll (c : Cfg) (k : Kind) : List Stmt → M Unit
  | [] => pure ()
  | t :: ts => do
    t.run c k
    runAll c k ts

end Ethnum
