import Verif.Model.Ops

/-
The by-value, by-reference and primitive-operand forms of the operators: src/macros/ops.rs. Every form is a function of
its own that forwards, through the operator's own syntax, to another form; the form on two references does the work.
References are modelled by the value they refer to.
-/

namespace Ethnum

namespace Forms

section
variable {T P α : Type} (new : P → T) (op : T → T → α)

/-! ### Binary operators, src/macros/ops.rs 180-202

`op` is the form on two references, `new` is `$int::new`. In the names `r` is a reference to the 256-bit type, `v` a
value of it, `q` a reference to the primitive type, `p` a value of it. -/

/-- `(a: &int, b: int) { a $x &b }` (src/macros/ops.rs 186) -/
def rv (a b : T) : α := op a b
/-- `(a: int, b: &int) { &a $x b }` (src/macros/ops.rs 187) -/
def vr (a b : T) : α := op a b
/-- `(a: int, b: int) { &a $x &b }` (src/macros/ops.rs 188) -/
def vv (a b : T) : α := op a b
/-- `(a: &int, b: prim) { a $x $int::new(b) }` (src/macros/ops.rs 190) -/
def rp (a : T) (b : P) : α := rv op a (new b)
/-- `(a: &int, b: &prim) { a $x *b }` (src/macros/ops.rs 191) -/
def rq (a : T) (b : P) : α := rp new op a b
/-- `(a: int, b: &prim) { &a $x *b }` (src/macros/ops.rs 192) -/
def vq (a : T) (b : P) : α := rp new op a b
/-- `(a: int, b: prim) { &a $x b }` (src/macros/ops.rs 193) -/
def vp (a : T) (b : P) : α := rp new op a b
/-- `(a: prim, b: &int) { $int::new(a) $x b }` (src/macros/ops.rs 195) -/
def pr (a : P) (b : T) : α := vr op (new a) b
/-- `(a: &prim, b: &int) { *a $x b }` (src/macros/ops.rs 196) -/
def qr (a : P) (b : T) : α := pr new op a b
/-- `(a: &prim, b: int) { *a $x &b }` (src/macros/ops.rs 197) -/
def qv (a : P) (b : T) : α := pr new op a b
/-- `(a: prim, b: int) { a $x &b }` (src/macros/ops.rs 198) -/
def pv (a : P) (b : T) : α := pr new op a b

end

/-- An operand of a binary operator: a value of or a reference to the 256-bit type or its primitive. -/
inductive Operand (T P : Type) where
  | val (x : T) | ref (x : T) | prim (p : P) | primRef (p : P)

/-- The operator on the operands given: the `impl` chosen by their types. Between two primitives it is the primitive
operator, which this crate does not define (`none`). -/
def binop {T P α : Type} (new : P → T) (op : T → T → α) : Operand T P → Operand T P → Option α
  | .ref a, .ref b => some (op a b)
  | .ref a, .val b => some (rv op a b)
  | .val a, .ref b => some (vr op a b)
  | .val a, .val b => some (vv op a b)
  | .ref a, .prim b => some (rp new op a b)
  | .ref a, .primRef b => some (rq new op a b)
  | .val a, .primRef b => some (vq new op a b)
  | .val a, .prim b => some (vp new op a b)
  | .prim a, .ref b => some (pr new op a b)
  | .primRef a, .ref b => some (qr new op a b)
  | .primRef a, .val b => some (qv new op a b)
  | .prim a, .val b => some (pv new op a b)
  | .prim _, .prim _ => none
  | .prim _, .primRef _ => none
  | .primRef _, .prim _ => none
  | .primRef _, .primRef _ => none

/-! ### Assigning operators, src/macros/ops.rs 415-441. `op` is the form on `&mut` and a reference. -/

section
variable {T P α : Type} (new : P → T) (op : T → T → α)

/-- `(a, b: int) { *a $x &b }` (src/macros/ops.rs 421) -/
def av (a b : T) : α := op a b
/-- `(a, b: prim) { *a $x $int::new(b) }` (src/macros/ops.rs 423) -/
def ap (a : T) (b : P) : α := av op a (new b)
/-- `(a, b: &prim) { *a $x *b }` (src/macros/ops.rs 424) -/
def aq (a : T) (b : P) : α := ap new op a b

/-- The assigning operator on the right operand given. -/
def assign (a : T) : Operand T P → α
  | .ref b => op a b
  | .val b => av op a b
  | .prim b => ap new op a b
  | .primRef b => aq new op a b

end

/-! ### Shifts, src/macros/ops.rs 284-331 and 475-519. `op` is the form on a reference and a `u32`. -/

section
variable {T α : Type} {c : Cfg} (op : T → U32 → α)

/-- `(a: &int, b: &u32) { a $x *b }` (src/macros/ops.rs 290); the same code for the other amount types (324), whose
by-value form (316-323) has converted the amount to `u32` -/
def shr_ (a : T) (b : ShiftBy c) : α := op a b.amount
/-- `(a: int, b: &u32) { &a $x *b }` (src/macros/ops.rs 291, 325) -/
def shv_ (a : T) (b : ShiftBy c) : α := op a b.amount
/-- `(a: int, b: u32) { &a $x b }` (src/macros/ops.rs 292, 326) -/
def shv (a : T) (b : ShiftBy c) : α := op a b.amount

/-- A shift with the left operand by reference (`lref`) or by value and the amount by reference (`rref`) or by value. -/
def shift (lref rref : Bool) (a : T) (b : ShiftBy c) : α :=
  match lref, rref with
  | true, false => op a b.amount
  | true, true => shr_ op a b
  | false, true => shv_ op a b
  | false, false => shv op a b

end

end Forms

end Ethnum
