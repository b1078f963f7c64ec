import Verif.Model.Llvm

/-
The build script of the crate `ethnum-intrinsics` (intrinsics/build/main.rs), which makes the 256-bit back-end out of
the LLVM IR that rustc emits for the `u128` functions of intrinsics/build/intrinsics.rs: three textual replacements.

The first part models the replacements, on arbitrary text. The second part is the fragment of LLVM IR that the template
functions need: its text, with the integer width as a parameter, and the meaning of a function according to the LLVM
language reference, with undefined behaviour and poison as `none`. The third part is the template functions in that
fragment.

Simplifications: text is a list of characters. rustc is not modelled; the third part is the IR it has to emit if it
compiles the functions one operation at a time, without the attributes that say nothing about widths other than those
listed. Local values are numbered. A pointer is the name of the parameter that holds it, and different parameters point
to different objects (the functions take `&mut` and `&`).
-/

namespace Ethnum
namespace Build

/-- The loop of `str::replace` for a non-empty pattern: matches are searched from left to right and do not overlap.
The first argument after the strings counts the characters of a match still to be dropped. -/
def replaceFrom (pat rep : List Char) : Nat → List Char → List Char
  | _, [] => []
  | skip + 1, _ :: s => replaceFrom pat rep skip s
  | 0, c :: s =>
    if pat.isPrefixOf (c :: s) then rep ++ replaceFrom pat rep (pat.length - 1) s else c :: replaceFrom pat rep 0 s

/-- `s.replace(pat, rep)`, as called in intrinsics/build/main.rs 41-43. -/
def replace (s : List Char) (pat rep : String) : List Char := replaceFrom pat.toList rep.toList 0 s

/-- intrinsics/build/main.rs 40-43: `intrinsics.ll` from `template.ll`. -/
def rewrite (template : List Char) : List Char :=
  replace (replace (replace template "i128" "i256") " 127" " 255") "dereferenceable(16)" "dereferenceable(32)"

end Build

namespace Ir

/-- A parameter of a template function (intrinsics/build/intrinsics.rs 34-120 call them `r`, `a`, `b`). -/
inductive Param where
  | r | a | b
  deriving DecidableEq, Repr

/-- An operand: a numbered local value or a parameter. -/
inductive Opd where
  | reg (n : Nat)
  | arg (p : Param)
  deriving DecidableEq, Repr

/-- Binary operations. -/
inductive BinOp where
  | add | sub | mul | shl | lshr | ashr
  deriving DecidableEq, Repr

/-- The operations with an overflow bit. -/
inductive OvOp where
  | uadd | sadd | usub | ssub | umul
  deriving DecidableEq, Repr

/-- Instructions. `d` is the local value that is defined. -/
inductive Instr where
  /-- `%d = load iW, ptr %p, align 16` -/
  | load (d : Nat) (p : Param)
  /-- `store iW x, ptr %p, align 16` -/
  | store (x : Opd) (p : Param)
  /-- `%d = op iW x, y` -/
  | bin (op : BinOp) (d : Nat) (x y : Opd)
  /-- `%d = and i32 x, W-1` -/
  | mask (d : Nat) (x : Opd)
  /-- `%d = zext i32 x to iW` -/
  | zext (d : Nat) (x : Opd)
  /-- `%d = trunc iW x to i32` -/
  | trunc (d : Nat) (x : Opd)
  /-- `%d = tail call { iW, i1 } @llvm.op.with.overflow.iW(iW x, iW y)` -/
  | ov (op : OvOp) (d : Nat) (x y : Opd)
  /-- `%d = extractvalue { iW, i1 } x, 0` or `1` -/
  | extract (second : Bool) (d : Nat) (x : Opd)
  /-- `%d = tail call iW @llvm.fshl.iW(iW x, iW x, iW y)` or `fshr` -/
  | rotate (left : Bool) (d : Nat) (x y : Opd)
  /-- `%d = tail call iW @llvm.ctlz.iW(iW x, i1 false)` or `cttz`, with `range(iW 0, hi)` on the result if `hi` is
  given -/
  | count (leading : Bool) (d : Nat) (x : Opd) (hi : Option Nat)
  deriving DecidableEq, Repr

/-- The type of a parameter: `&mut` or `&mut MaybeUninit`, `&`, or `u32`. -/
inductive PType where
  | mutRef | ref | word
  deriving DecidableEq, Repr

/-- What a function returns. -/
inductive Ret where
  | void
  /-- a `bool` -/
  | bit (x : Opd)
  /-- a `u32`, with `range(i32 0, hi)` on the result if `hi` is given -/
  | word (x : Opd) (hi : Option Nat)
  deriving DecidableEq, Repr

/-- A function of one block. -/
structure Fn where
  name : List Char
  params : List (Param × PType)
  body : List Instr
  ret : Ret
  deriving DecidableEq, Repr

/-- A number in decimal. -/
def num (n : Nat) : List Char := Nat.toDigits 10 n

/-- The type of integers of the width. -/
def ty (w : Nat) : List Char := 'i' :: num w

def Param.name : Param → Char
  | .r => 'r' | .a => 'a' | .b => 'b'

def Opd.text : Opd → List Char
  | .reg n => '%' :: num n
  | .arg p => ['%', p.name]

def BinOp.text : BinOp → List Char
  | .add => " add".toList | .sub => " sub".toList | .mul => " mul".toList
  | .shl => " shl".toList | .lshr => " lshr".toList | .ashr => " ashr".toList

def OvOp.text : OvOp → List Char
  | .uadd => "uadd".toList | .sadd => "sadd".toList | .usub => "usub".toList
  | .ssub => "ssub".toList | .umul => "umul".toList

/-- The start of the line that defines a value. -/
def define (d : Nat) : List (List Char) := ["\n".toList, " ".toList, " %".toList ++ num d, " =".toList]

/-- The words of the attribute `range(iN 0, hi)`. -/
def range (t : List Char) : Option Nat → List (List Char)
  | none => []
  | some hi => [" range(".toList ++ t, " 0,".toList, ' ' :: num hi ++ [')']]

/-- The words of an instruction at the width `w`; each begins with the white space before it. -/
def Instr.words (w : Nat) : Instr → List (List Char)
  | .load d p => define d ++ [" load".toList, ' ' :: ty w ++ [','], " ptr".toList, [' ', '%', p.name, ','],
      " align".toList, " 16".toList]
  | .store x p => ["\n".toList, " ".toList, " store".toList, ' ' :: ty w, ' ' :: x.text ++ [','], " ptr".toList,
      [' ', '%', p.name, ','], " align".toList, " 16".toList]
  | .bin op d x y => define d ++ [op.text, ' ' :: ty w, ' ' :: x.text ++ [','], ' ' :: y.text]
  | .mask d x => define d ++ [" and".toList, " i32".toList, ' ' :: x.text ++ [','], ' ' :: num (w - 1)]
  | .zext d x => define d ++ [" zext".toList, " i32".toList, ' ' :: x.text, " to".toList, ' ' :: ty w]
  | .trunc d x => define d ++ [" trunc".toList, ' ' :: ty w, ' ' :: x.text, " to".toList, " i32".toList]
  | .ov op d x y => define d ++ [" tail".toList, " call".toList, " {".toList, ' ' :: ty w ++ [','], " i1".toList,
      " }".toList, " @llvm.".toList ++ op.text ++ ".with.overflow.".toList ++ ty w ++ ['('] ++ ty w,
      ' ' :: x.text ++ [','], ' ' :: ty w, ' ' :: y.text ++ [')']]
  | .extract second d x => define d ++ [" extractvalue".toList, " {".toList, ' ' :: ty w ++ [','], " i1".toList,
      " }".toList, ' ' :: x.text ++ [','], if second then " 1".toList else " 0".toList]
  | .rotate left d x y => define d ++ [" tail".toList, " call".toList, ' ' :: ty w,
      (if left then " @llvm.fshl.".toList else " @llvm.fshr.".toList) ++ ty w ++ ['('] ++ ty w,
      ' ' :: x.text ++ [','], ' ' :: ty w, ' ' :: x.text ++ [','], ' ' :: ty w, ' ' :: y.text ++ [')']]
  | .count leading d x hi => define d ++ [" tail".toList, " call".toList] ++ range (ty w) hi ++ [' ' :: ty w,
      (if leading then " @llvm.ctlz.".toList else " @llvm.cttz.".toList) ++ ty w ++ ['('] ++ ty w,
      ' ' :: x.text ++ [','], " i1".toList, " false)".toList]

/-- The words of a parameter. The size of the object a reference points to is that of the integer, `w / 8` bytes. -/
def paramWords (w : Nat) : Param × PType → List (List Char)
  | (p, .mutRef) => [" ptr".toList, " noalias".toList, " noundef".toList, " align".toList, " 16".toList,
      " dereferenceable(".toList ++ num (w / 8) ++ [')'], [' ', '%', p.name]]
  | (p, .ref) => [" ptr".toList, " noalias".toList, " noundef".toList, " readonly".toList, " align".toList,
      " 16".toList, " dereferenceable(".toList ++ num (w / 8) ++ [')'], [' ', '%', p.name]]
  | (p, .word) => [" i32".toList, " noundef".toList, [' ', '%', p.name]]

/-- The parameters, with commas between them. -/
def paramsWords (w : Nat) : List (Param × PType) → List (List Char)
  | [] => []
  | [p] => paramWords w p
  | p :: ps => paramWords w p ++ [" ,".toList] ++ paramsWords w ps

/-- The words of the type of the result. -/
def Ret.typeWords : Ret → List (List Char)
  | .void => [" void".toList]
  | .bit _ => [" noundef".toList, " zeroext".toList, " i1".toList]
  | .word _ hi => [" noundef".toList] ++ range " i32".toList.tail hi ++ [" i32".toList]

/-- The words of the last instruction. -/
def Ret.words : Ret → List (List Char)
  | .void => ["\n".toList, " ".toList, " ret".toList, " void".toList]
  | .bit x => ["\n".toList, " ".toList, " ret".toList, " i1".toList, ' ' :: x.text]
  | .word x _ => ["\n".toList, " ".toList, " ret".toList, " i32".toList, ' ' :: x.text]

/-- The words of a function. -/
def Fn.words (w : Nat) (f : Fn) : List (List Char) :=
  ["\ndefine".toList] ++ f.ret.typeWords ++ [" @".toList ++ f.name, " (".toList] ++ paramsWords w f.params ++
  [" )".toList, " unnamed_addr".toList, " {".toList, "\nstart:".toList] ++ (f.body.map (Instr.words w)).flatten ++
  f.ret.words ++ ["\n}".toList]

/-- The text of a function at the width `w`. -/
def Fn.text (w : Nat) (f : Fn) : List Char := (f.words w).flatten

/-- A module: functions, and words that have nothing to do with integers of the width (comments, attributes, ...). -/
inductive Item where
  | fn (f : Fn)
  | other (words : List (List Char))
  deriving DecidableEq, Repr

def Item.text (w : Nat) : Item → List Char
  | .fn f => f.text w
  | .other l => l.flatten

/-- The text of a module. -/
def text (w : Nat) (m : List Item) : List Char := (m.map (Item.text w)).flatten

/- Meaning. -/

/-- A local value. -/
inductive Value (w : Nat) where
  | wide (v : BitVec w)
  | word (v : U32)
  | pair (v : BitVec w) (o : Bool)
  | bit (o : Bool)
  deriving DecidableEq, Repr

/-- The state of a function. -/
structure State (w : Nat) where
  /-- the local values -/
  regs : Nat → Option (Value w)
  /-- what the parameters point to; `none`: the parameter is no pointer, or the object is not initialised -/
  mem : Param → Option (BitVec w)
  /-- the parameters of type `u32` -/
  args : Param → Option U32

variable {w : Nat}

def State.get (s : State w) : Opd → Option (Value w)
  | .reg n => s.regs n
  | .arg p => (s.args p).map .word
def State.wide (s : State w) (x : Opd) : Option (BitVec w) :=
  match s.get x with | some (.wide v) => some v | _ => none
def State.word (s : State w) (x : Opd) : Option U32 :=
  match s.get x with | some (.word v) => some v | _ => none
def State.pair (s : State w) (x : Opd) : Option (BitVec w × Bool) :=
  match s.get x with | some (.pair v o) => some (v, o) | _ => none
def State.bit (s : State w) (x : Opd) : Option Bool :=
  match s.get x with | some (.bit o) => some o | _ => none
def State.set (s : State w) (d : Nat) (v : Value w) : State w :=
  { s with regs := fun n => if n = d then some v else s.regs n }

/-- LLVM language reference, "Binary Operations" and "Bitwise Binary Operations": a shift by the width or more is
poison. -/
def BinOp.eval : BinOp → BitVec w → BitVec w → Option (BitVec w)
  | .add, x, y => some (x + y)
  | .sub, x, y => some (x - y)
  | .mul, x, y => some (x * y)
  | .shl, x, y => if y.toNat < w then some (x <<< y.toNat) else none
  | .lshr, x, y => if y.toNat < w then some (x >>> y.toNat) else none
  | .ashr, x, y => if y.toNat < w then some (x.sshiftRight y.toNat) else none

/-- LLVM language reference, "Arithmetic with Overflow Intrinsics". -/
def OvOp.eval : OvOp → BitVec w → BitVec w → BitVec w × Bool
  | .uadd, x, y => (x + y, decide (2 ^ w ≤ x.toNat + y.toNat))
  | .sadd, x, y => (x + y, decide ((x + y).toInt ≠ x.toInt + y.toInt))
  | .usub, x, y => (x - y, decide (x.toNat < y.toNat))
  | .ssub, x, y => (x - y, decide ((x - y).toInt ≠ x.toInt - y.toInt))
  | .umul, x, y => (x * y, decide (2 ^ w ≤ x.toNat * y.toNat))

/-- A value outside the bound of a `range` attribute is poison. -/
def inRange (n : Nat) : Option Nat → Bool
  | none => true
  | some hi => n < hi

/-- One instruction. -/
def Instr.step (s : State w) : Instr → Option (State w)
  | .load d p => do return s.set d (.wide (← s.mem p))
  | .store x p => do
    let v ← s.wide x
    return { s with mem := fun q => if q = p then some v else s.mem q }
  | .bin op d x y => do return s.set d (.wide (← op.eval (← s.wide x) (← s.wide y)))
  | .mask d x => do return s.set d (.word ((← s.word x) &&& BitVec.ofNat 32 (w - 1)))
  | .zext d x => do return s.set d (.wide ((← s.word x).setWidth w))
  | .trunc d x => do return s.set d (.word ((← s.wide x).setWidth 32))
  | .ov op d x y => do
    let (v, o) := op.eval (← s.wide x) (← s.wide y)
    return s.set d (.pair v o)
  | .extract second d x => do
    let (v, o) ← s.pair x
    return s.set d (if second then .bit o else .wide v)
  | .rotate left d x y => do
    let v ← s.wide x
    let n ← s.wide y
    return s.set d (.wide (if left then v.rotateLeft n.toNat else v.rotateRight n.toNat))
  | .count leading d x hi => do
    let v ← s.wide x
    let n := if leading then leadingZeros v else trailingZeros v
    if inRange n hi then return s.set d (.wide (BitVec.ofNat w n)) else none

/-- The instructions in order. -/
def runBody : List Instr → State w → Option (State w)
  | [], s => some s
  | i :: is, s => do runBody is (← i.step s)

/-- What a function returns to its caller. -/
inductive Result where
  | void
  | bit (o : Bool)
  | word (v : U32)
  deriving DecidableEq, Repr

/-- The result of a function. -/
def Ret.eval (s : State w) : Ret → Option Result
  | .void => some .void
  | .bit x => (s.bit x).map .bit
  | .word x hi => do
    let v ← s.word x
    if inRange v.toNat hi then some (.word v) else none

/-- A call: from what the parameters point to and the `u32` parameters, to what `r` points to and the result. `none`:
the behaviour is undefined. -/
def Fn.run (f : Fn) (mem : Param → Option (BitVec w)) (args : Param → Option U32) :
    Option (Option (BitVec w) × Result) := do
  let s ← runBody f.body ⟨fun _ => none, mem, args⟩
  return (s.mem .r, ← f.ret.eval s)

end Ir

/- The template functions. -/
namespace Template
open Ir

/-- `concat!("__ethnum_", stringify!($name))` (intrinsics/build/intrinsics.rs 17) -/
def symbol (name : String) : List Char := "__ethnum_".toList ++ name.toList

/-- `*r op= *a` -/
def op2 (name : String) (op : BinOp) : Fn :=
  ⟨symbol name, [(.r, .mutRef), (.a, .ref)],
   [.load 0 .a, .load 1 .r, .bin op 2 (.reg 1) (.reg 0), .store (.reg 2) .r], .void⟩
/-- `r.write(a.wrapping_op(*b))` -/
def op3 (name : String) (op : BinOp) : Fn :=
  ⟨symbol name, [(.r, .mutRef), (.a, .ref), (.b, .ref)],
   [.load 0 .a, .load 1 .b, .bin op 2 (.reg 0) (.reg 1), .store (.reg 2) .r], .void⟩
/-- `let (res, carry) = a.overflowing_op(*b); r.write(res); carry` -/
def opc (name : String) (op : OvOp) : Fn :=
  ⟨symbol name, [(.r, .mutRef), (.a, .ref), (.b, .ref)],
   [.load 0 .a, .load 1 .b, .ov op 2 (.reg 0) (.reg 1), .extract false 3 (.reg 2), .extract true 4 (.reg 2),
    .store (.reg 3) .r], .bit (.reg 4)⟩
/-- `*r op= a`, a shift -/
def shift2 (name : String) (op : BinOp) : Fn :=
  ⟨symbol name, [(.r, .mutRef), (.a, .word)],
   [.load 0 .r, .mask 1 (.arg .a), .zext 2 (.reg 1), .bin op 3 (.reg 0) (.reg 2), .store (.reg 3) .r], .void⟩
/-- `r.write(a.wrapping_op(b))`, a shift -/
def shift3 (name : String) (op : BinOp) : Fn :=
  ⟨symbol name, [(.r, .mutRef), (.a, .ref), (.b, .word)],
   [.load 0 .a, .mask 1 (.arg .b), .zext 2 (.reg 1), .bin op 3 (.reg 0) (.reg 2), .store (.reg 3) .r], .void⟩
/-- `r.write(a.rotate_…(b))` -/
def rot3 (name : String) (left : Bool) : Fn :=
  ⟨symbol name, [(.r, .mutRef), (.a, .ref), (.b, .word)],
   [.load 0 .a, .zext 1 (.arg .b), .rotate left 2 (.reg 0) (.reg 1), .store (.reg 2) .r], .void⟩
/-- `a.leading_zeros()` or `a.trailing_zeros()`, with the `range` attributes that the compiler attaches to the count
and to the result -/
def countFn (name : String) (leading : Bool) (hi hi' : Option Nat) : Fn :=
  ⟨symbol name, [(.a, .ref)], [.load 0 .a, .count leading 1 (.reg 0) hi, .trunc 2 (.reg 1)], .word (.reg 2) hi'⟩

/-- intrinsics/build/intrinsics.rs 35-37 -/
def irAdd2 := op2 "add2" .add
/-- intrinsics/build/intrinsics.rs 38-41 -/
def irAdd3 := op3 "add3" .add
/-- intrinsics/build/intrinsics.rs 42-46 -/
def irUaddc := opc "uaddc" .uadd
/-- intrinsics/build/intrinsics.rs 47-51 -/
def irIaddc := opc "iaddc" .sadd
/-- intrinsics/build/intrinsics.rs 53-55 -/
def irSub2 := op2 "sub2" .sub
/-- intrinsics/build/intrinsics.rs 56-59 -/
def irSub3 := op3 "sub3" .sub
/-- intrinsics/build/intrinsics.rs 60-64 -/
def irUsubc := opc "usubc" .usub
/-- intrinsics/build/intrinsics.rs 65-69 -/
def irIsubc := opc "isubc" .ssub
/-- intrinsics/build/intrinsics.rs 71-73 -/
def irMul2 := op2 "mul2" .mul
/-- intrinsics/build/intrinsics.rs 74-77 -/
def irMul3 := op3 "mul3" .mul
/-- intrinsics/build/intrinsics.rs 78-82 -/
def irUmulc := opc "umulc" .umul
/-- intrinsics/build/intrinsics.rs 84-86 -/
def irShl2 := shift2 "shl2" .shl
/-- intrinsics/build/intrinsics.rs 87-90 -/
def irShl3 := shift3 "shl3" .shl
/-- intrinsics/build/intrinsics.rs 92-94 -/
def irSar2 := shift2 "sar2" .ashr
/-- intrinsics/build/intrinsics.rs 95-98 -/
def irSar3 := shift3 "sar3" .ashr
/-- intrinsics/build/intrinsics.rs 99-101 -/
def irShr2 := shift2 "shr2" .lshr
/-- intrinsics/build/intrinsics.rs 102-105 -/
def irShr3 := shift3 "shr3" .lshr
/-- intrinsics/build/intrinsics.rs 107-109 -/
def irRol3 := rot3 "rol3" true
/-- intrinsics/build/intrinsics.rs 110-112 -/
def irRor3 := rot3 "ror3" false
/-- intrinsics/build/intrinsics.rs 114-116 -/
def irCtlz (hi hi' : Option Nat) := countFn "ctlz" true hi hi'
/-- intrinsics/build/intrinsics.rs 117-119 -/
def irCttz (hi hi' : Option Nat) := countFn "cttz" false hi hi'

/-- The functions of intrinsics/build/intrinsics.rs 34-120. -/
def functions (hi hi' : Option Nat) : List Fn :=
  [irAdd2, irAdd3, irUaddc, irIaddc, irSub2, irSub3, irUsubc, irIsubc, irMul2, irMul3, irUmulc, irShl2, irShl3,
   irSar2, irSar3, irShr2, irShr3, irRol3, irRor3, irCtlz hi hi', irCttz hi hi']

end Template

namespace Llvm
open Ir

/-- src/intrinsics/llvm.rs 25-35: a call of a function of the generated module with pointers to 256-bit objects; `none`
is a parameter the function does not have, or an object that is not initialised. A signed object is passed as the same
words. -/
def call (c : Cfg) (f : Fn) (r a b : Option U256) (na nb : Option U32) : Option (Option U256 × Result) :=
  (f.run (fun | .r => r.map (load c) | .a => a.map (load c) | .b => b.map (load c))
    (fun | .r => none | .a => na | .b => nb)).map (fun (m, v) => (m.map (store c), v))

end Llvm
end Ethnum
