import Verif.Model.Ir

/-
Specification of the properties of the build script (C60): which modules it is meant for, and the declarations that its
output has to match.
-/

namespace Ethnum
namespace Build

/-- The text begins with white space, or is empty. -/
def Ws (x : List Char) : Prop := ∀ c ∈ x.head?, c = ' ' ∨ c = '\n'
instance (x : List Char) : Decidable (Ws x) := by unfold Ws; infer_instance

end Build

namespace Ir

/-- The bound of a `range` attribute is not written with a number that begins with 127. -/
def OkHi (hi : Option Nat) : Prop := ∀ n ∈ hi, ¬ ['1', '2', '7'] <+: num n
instance (hi : Option Nat) : Decidable (OkHi hi) := by unfold OkHi; infer_instance
def OkInstr : Instr → Prop
  | .count _ _ _ hi => OkHi hi
  | _ => True
instance (i : Instr) : Decidable (OkInstr i) := by unfold OkInstr; split <;> infer_instance
def OkRet : Ret → Prop
  | .word _ hi => OkHi hi
  | _ => True
instance (r : Ret) : Decidable (OkRet r) := by unfold OkRet; split <;> infer_instance
/-- The name of the function has no digit 1 in it, and no bound of a `range` attribute begins with 127. -/
def OkFn (f : Fn) : Prop := '1' ∉ f.name ∧ (∀ i ∈ f.body, OkInstr i) ∧ OkRet f.ret
instance (f : Fn) : Decidable (OkFn f) := by unfold OkFn; infer_instance
/-- A function like that, or other words that the replacements leave as they are. -/
def OkItem : Item → Prop
  | .fn f => OkFn f
  | .other l => ∀ x ∈ l, Build.Ws x ∧ Build.rewrite x = x
instance (i : Item) : Decidable (OkItem i) := by unfold OkItem; split <;> infer_instance
/-- The modules the script is meant for. -/
def OkModule (m : List Item) : Prop := ∀ i ∈ m, OkItem i
instance (m : List Item) : Decidable (OkModule m) := by unfold OkModule; infer_instance

/-- The type of the result of a function, as Rust writes it. -/
inductive RetType where
  | unit | bool | u32
  deriving DecidableEq, Repr

def Ret.type : Ret → RetType
  | .void => .unit
  | .bit _ => .bool
  | .word _ _ => .u32

/-- The declarations of the functions that src/intrinsics/llvm.rs calls: intrinsics/src/lib.rs 41-70. `&mut I256` and
`&mut MaybeUninit<I256>` are `mutRef`, `&I256` is `ref`, `u32` is `word`. -/
def declarations : List (String × List PType × RetType) :=
  [("__ethnum_add2", [.mutRef, .ref], .unit),
   ("__ethnum_add3", [.mutRef, .ref, .ref], .unit),
   ("__ethnum_uaddc", [.mutRef, .ref, .ref], .bool),
   ("__ethnum_iaddc", [.mutRef, .ref, .ref], .bool),
   ("__ethnum_mul2", [.mutRef, .ref], .unit),
   ("__ethnum_mul3", [.mutRef, .ref, .ref], .unit),
   ("__ethnum_umulc", [.mutRef, .ref, .ref], .bool),
   ("__ethnum_sub2", [.mutRef, .ref], .unit),
   ("__ethnum_sub3", [.mutRef, .ref, .ref], .unit),
   ("__ethnum_usubc", [.mutRef, .ref, .ref], .bool),
   ("__ethnum_isubc", [.mutRef, .ref, .ref], .bool),
   ("__ethnum_shl2", [.mutRef, .word], .unit),
   ("__ethnum_shl3", [.mutRef, .ref, .word], .unit),
   ("__ethnum_sar2", [.mutRef, .word], .unit),
   ("__ethnum_sar3", [.mutRef, .ref, .word], .unit),
   ("__ethnum_shr2", [.mutRef, .word], .unit),
   ("__ethnum_shr3", [.mutRef, .ref, .word], .unit),
   ("__ethnum_rol3", [.mutRef, .ref, .word], .unit),
   ("__ethnum_ror3", [.mutRef, .ref, .word], .unit),
   ("__ethnum_ctlz", [.ref], .u32),
   ("__ethnum_cttz", [.ref], .u32)]

end Ir
end Ethnum
