import Verif.SpecMem
import Verif.Model.Steps

/-
Specification: threads that share memory. A schedule is any sequence of numbers of threads; each is given one step, which
reads or writes at most one word. `P.step`, `World.step`, `World.run` and `World.Race` say what that means and do not use the
crate's functions. `Op` lists calls of the crate with the references they are passed, by the signatures of the functions;
`Code` is client code.
-/

namespace Ethnum.Steps

/-! ### Interleaving -/

/-- One step of some code that sees the memory `s`. -/
def P.step {α : Type} : P α → Mem → P α × Mem
  | .done r, s => (.done r, s)
  | .read i p k, s => match (if i then M.rd1 p else M.rd0 p) s with
    | (r, s) => (k r, s)
  | .write i p w k, s => match (if i then M.wr1 p w else M.wr0 p w) s with
    | (r, s) => (k r, s)
  | .enter x k, s => (k s.length, s ++ [x])
  | .leave n k, s => (k, s.take n)

/-- The memory that is shared, and each thread: the code it has yet to run and the local variables on its stack. -/
structure World (α : Type) where
  shared : Mem
  threads : List (P α × Mem)

/-- Thread `i` makes a step. It sees the shared memory and its own stack. A thread that has finished does nothing. -/
def World.step {α : Type} (w : World α) (i : Nat) : World α :=
  match w.threads[i]? with
  | none => w
  | some (p, stack) => match p.step (w.shared ++ stack) with
    | (p, s) => ⟨s.take w.shared.length, w.threads.set i (p, s.drop w.shared.length)⟩

/-- The threads make steps in the order of the schedule. -/
def World.run {α : Type} (w : World α) (schedule : List Nat) : World α := schedule.foldl World.step w

/-- The word that the next step reads or writes (`true`), if it does. -/
def P.access {α : Type} : P α → Option (Loc × Bool × Bool)
  | .read i p _ => some (p, i, false)
  | .write i p _ _ => some (p, i, true)
  | _ => none

/-- What the code may come to, if other threads change the memory between its steps in any way. There are at least `n`
objects, which are shared; the others are on the stack of the thread. -/
inductive P.Reaches {α : Type} (n : Nat) (p : P α) : P α → Prop where
  | start : Reaches n p p
  | step {q : P α} (s : Mem) : n ≤ s.length → Reaches n p q → Reaches n p (q.step s).1

/-- A data race: two threads are about to access the same word of the shared memory, and one of them to write it. -/
def World.Race {α : Type} (w : World α) : Prop :=
  ∃ (i j : Nat) (s t : P α × Mem) (p : Loc) (word a b : Bool), i ≠ j ∧ w.threads[i]? = some s ∧ w.threads[j]? = some t ∧ p < w.shared.length
    ∧ s.1.access = some (p, word, a) ∧ t.1.access = some (p, word, b) ∧ (a = true ∨ b = true)

/-- Thread `i` has returned `r`, or panicked. -/
def World.Finished {α : Type} (w : World α) (i : Nat) (r : Res α) : Prop := ∃ stack, w.threads[i]? = some (.done r, stack)

/-! ### Calls of the crate -/

end Ethnum.Steps

namespace Ethnum

/-- The type. -/
abbrev Kind.T : Kind → Type
  | .u => U256
  | .i => I256

end Ethnum

namespace Ethnum.Steps

/-- Operators on two references. -/
inductive Bin where
  | add | sub | mul | div | rem
  deriving DecidableEq, Repr

/-- Methods with a wrapping and an overflowing form. -/
inductive Wrap where
  | add | sub | mul
  deriving DecidableEq, Repr

/-- Shifts and rotations that return their result. -/
inductive Shift where
  | shl | shr | wrappingShl | wrappingShr | rotateLeft | rotateRight
  deriving DecidableEq, Repr

/-- Intrinsics `fn(r: &mut T, a: &T)`. -/
inductive Intr2 where
  | add2 | sub2 | mul2 | udiv2 | urem2 | idiv2 | irem2 | iadd2 | isub2 | imul2
  deriving DecidableEq, Repr

/-- Intrinsics `fn(r: &mut MaybeUninit<T>, a: &T, b: &T)`. -/
inductive Intr3 where
  | add3 | sub3 | mul3 | udiv3 | urem3 | idiv3 | irem3 | iadd3 | isub3 | imul3
  deriving DecidableEq, Repr

/-- Intrinsics `fn(r: &mut MaybeUninit<T>, a: &T, b: &T) -> bool`. -/
inductive IntrC where
  | uaddc | iaddc | usubc | isubc | umulc | imulc
  deriving DecidableEq, Repr

/-- Intrinsics `fn(r: &mut T, a: u32)`. -/
inductive IntrS2 where
  | shl2 | sar2 | shr2 | ishl2
  deriving DecidableEq, Repr

/-- Intrinsics `fn(r: &mut MaybeUninit<T>, a: &T, b: u32)`. -/
inductive IntrS3 where
  | shl3 | sar3 | shr3 | rol3 | ror3 | ishl3 | irol3 | iror3
  deriving DecidableEq, Repr

/-- A call, by the type of its result. -/
inductive Op : Type → Type where
  /-- `*a` -/
  | load (k : Kind) (a : Loc) : Op k.T
  /-- `*d = v` -/
  | store (k : Kind) (d : Loc) (v : k.T) : Op Unit
  /-- `&a op &b` -/
  | bin (k : Kind) (o : Bin) (a b : Loc) : Op k.T
  /-- `&a << n` and the like -/
  | shift (k : Kind) (o : Shift) (a : Loc) (n : U32) : Op k.T
  /-- `*d op= &b` -/
  | assign (k : Kind) (o : Assign) (d b : Loc) : Op Unit
  /-- `*d op= *b`, where `*b` is copied first -/
  | assignVal (k : Kind) (o : Assign) (d b : Loc) : Op Unit
  /-- `*d <<= n` -/
  | shlAssign (k : Kind) (d : Loc) (n : U32) : Op Unit
  /-- `*d >>= n` -/
  | shrAssign (k : Kind) (d : Loc) (n : U32) : Op Unit
  /-- `a.wrapping_add(*b)` and the like -/
  | wrapping (k : Kind) (o : Wrap) (a b : Loc) : Op k.T
  /-- `a.overflowing_add(*b)` and the like -/
  | overflowing (k : Kind) (o : Wrap) (a b : Loc) : Op (k.T × Bool)
  /-- `U256::div_rem` -/
  | divRem (a b : Loc) : Op (U256 × U256)
  /-- `I256::wrapping_div_rem` -/
  | wrappingDivRem (a b : Loc) : Op (I256 × I256)
  /-- `I256::checked_div_rem` -/
  | checkedDivRem (a b : Loc) : Op (Option (I256 × I256))
  /-- `I256::checked_div` -/
  | checkedDiv (a b : Loc) : Op (Option I256)
  /-- `I256::checked_rem` -/
  | checkedRem (a b : Loc) : Op (Option I256)
  /-- `ethnum::intrinsics` -/
  | intr2 (o : Intr2) (r a : Loc) : Op Unit
  | intr3 (o : Intr3) (r a b : Loc) : Op Unit
  | intrC (o : IntrC) (r a b : Loc) : Op Bool
  | intrS2 (o : IntrS2) (r : Loc) (n : U32) : Op Unit
  | intrS3 (o : IntrS3) (r a : Loc) (n : U32) : Op Unit
  | udivmod4 (r a b : Loc) (rem : Option Loc) : Op Unit
  | idivmod4 (r a b : Loc) (rem : Option Loc) : Op Unit

/-- The objects that are passed by `&`, or by value. -/
def Op.shared {α : Type} : Op α → List Loc
  | .load _ a | .shift _ _ a _ | .assign _ _ _ a | .assignVal _ _ _ a | .intr2 _ _ a | .intrS3 _ _ a _ => [a]
  | .bin _ _ a b | .wrapping _ _ a b | .overflowing _ _ a b | .divRem a b | .wrappingDivRem a b | .checkedDivRem a b
  | .checkedDiv a b | .checkedRem a b | .intr3 _ _ a b | .intrC _ _ a b | .udivmod4 _ a b _ | .idivmod4 _ a b _ => [a, b]
  | .store .. | .shlAssign .. | .shrAssign .. | .intrS2 .. => []

/-- The objects that are passed by `&mut`. -/
def Op.mut {α : Type} : Op α → List Loc
  | .store _ d _ | .assign _ _ d _ | .assignVal _ _ d _ | .shlAssign _ d _ | .shrAssign _ d _ | .intr2 _ d _
  | .intr3 _ d _ _ | .intrC _ d _ _ | .intrS2 _ d _ | .intrS3 _ d _ _ => [d]
  | .udivmod4 d _ _ rem | .idivmod4 d _ _ rem => d :: rem.toList
  | _ => []

/-- The call as a function on memory (Model/Mem.lean), at once and without other threads. -/
def Op.mem {α : Type} (c : Cfg) : Op α → M α
  | .load .u a => M.rd a
  | .load .i a => M.ird a
  | .store .u d v => M.wr d v
  | .store .i d v => M.iwr d v
  | .bin .u .add a b => Ethnum.U256.addM c a b
  | .bin .u .sub a b => Ethnum.U256.subM c a b
  | .bin .u .mul a b => Ethnum.U256.mulM c a b
  | .bin .u .div a b => Ethnum.U256.divM c a b
  | .bin .u .rem a b => Ethnum.U256.remM c a b
  | .bin .i .add a b => Ethnum.I256.addM c a b
  | .bin .i .sub a b => Ethnum.I256.subM c a b
  | .bin .i .mul a b => Ethnum.I256.mulM c a b
  | .bin .i .div a b => Ethnum.I256.divM c a b
  | .bin .i .rem a b => Ethnum.I256.remM c a b
  | .shift .u .shl a n => Ethnum.U256.shlM c a n
  | .shift .u .shr a n => Ethnum.U256.shrM c a n
  | .shift .u .wrappingShl a n => Ethnum.U256.wrapping_shlM c a n
  | .shift .u .wrappingShr a n => Ethnum.U256.wrapping_shrM c a n
  | .shift .u .rotateLeft a n => Ethnum.U256.rotate_leftM c a n
  | .shift .u .rotateRight a n => Ethnum.U256.rotate_rightM c a n
  | .shift .i .shl a n => Ethnum.I256.shlM c a n
  | .shift .i .shr a n => Ethnum.I256.shrM c a n
  | .shift .i .wrappingShl a n => Ethnum.I256.wrapping_shlM c a n
  | .shift .i .wrappingShr a n => Ethnum.I256.wrapping_shrM c a n
  | .shift .i .rotateLeft a n => Ethnum.I256.rotate_leftM c a n
  | .shift .i .rotateRight a n => Ethnum.I256.rotate_rightM c a n
  | .assign k o d b => o.run c d b k
  | .assignVal k o d b => o.runVal c d b k
  | .shlAssign .u d n => Ethnum.U256.shl_assignM c d n
  | .shlAssign .i d n => Ethnum.I256.shl_assignM c d n
  | .shrAssign .u d n => Ethnum.U256.shr_assignM c d n
  | .shrAssign .i d n => Ethnum.I256.shr_assignM c d n
  | .wrapping .u .add a b => Ethnum.U256.wrapping_addM c a b
  | .wrapping .u .sub a b => Ethnum.U256.wrapping_subM c a b
  | .wrapping .u .mul a b => Ethnum.U256.wrapping_mulM c a b
  | .wrapping .i .add a b => Ethnum.I256.wrapping_addM c a b
  | .wrapping .i .sub a b => Ethnum.I256.wrapping_subM c a b
  | .wrapping .i .mul a b => Ethnum.I256.wrapping_mulM c a b
  | .overflowing .u .add a b => Ethnum.U256.overflowing_addM c a b
  | .overflowing .u .sub a b => Ethnum.U256.overflowing_subM c a b
  | .overflowing .u .mul a b => Ethnum.U256.overflowing_mulM c a b
  | .overflowing .i .add a b => Ethnum.I256.overflowing_addM c a b
  | .overflowing .i .sub a b => Ethnum.I256.overflowing_subM c a b
  | .overflowing .i .mul a b => Ethnum.I256.overflowing_mulM c a b
  | .divRem a b => Ethnum.U256.div_remM c a b
  | .wrappingDivRem a b => Ethnum.I256.wrapping_div_remM c a b
  | .checkedDivRem a b => Ethnum.I256.checked_div_remM c a b
  | .checkedDiv a b => Ethnum.I256.checked_divM c a b
  | .checkedRem a b => Ethnum.I256.checked_remM c a b
  | .intr2 .add2 r a => Ethnum.MemIntr.add2 c r a
  | .intr2 .sub2 r a => Ethnum.MemIntr.sub2 c r a
  | .intr2 .mul2 r a => Ethnum.MemIntr.mul2 c r a
  | .intr2 .udiv2 r a => Ethnum.MemIntr.udiv2 c r a
  | .intr2 .urem2 r a => Ethnum.MemIntr.urem2 c r a
  | .intr2 .idiv2 r a => Ethnum.MemIntr.idiv2 c r a
  | .intr2 .irem2 r a => Ethnum.MemIntr.irem2 c r a
  | .intr2 .iadd2 r a => Ethnum.MemIntr.iadd2 c r a
  | .intr2 .isub2 r a => Ethnum.MemIntr.isub2 c r a
  | .intr2 .imul2 r a => Ethnum.MemIntr.imul2 c r a
  | .intr3 .add3 r a b => Ethnum.MemIntr.add3 c r a b
  | .intr3 .sub3 r a b => Ethnum.MemIntr.sub3 c r a b
  | .intr3 .mul3 r a b => Ethnum.MemIntr.mul3 c r a b
  | .intr3 .udiv3 r a b => Ethnum.MemIntr.udiv3 c r a b
  | .intr3 .urem3 r a b => Ethnum.MemIntr.urem3 c r a b
  | .intr3 .idiv3 r a b => Ethnum.MemIntr.idiv3 c r a b
  | .intr3 .irem3 r a b => Ethnum.MemIntr.irem3 c r a b
  | .intr3 .iadd3 r a b => Ethnum.MemIntr.iadd3 c r a b
  | .intr3 .isub3 r a b => Ethnum.MemIntr.isub3 c r a b
  | .intr3 .imul3 r a b => Ethnum.MemIntr.imul3 c r a b
  | .intrC .uaddc r a b => Ethnum.MemIntr.uaddc c r a b
  | .intrC .iaddc r a b => Ethnum.MemIntr.iaddc c r a b
  | .intrC .usubc r a b => Ethnum.MemIntr.usubc c r a b
  | .intrC .isubc r a b => Ethnum.MemIntr.isubc c r a b
  | .intrC .umulc r a b => Ethnum.MemIntr.umulc c r a b
  | .intrC .imulc r a b => Ethnum.MemIntr.imulc c r a b
  | .intrS2 .shl2 r n => Ethnum.MemIntr.shl2 c r n
  | .intrS2 .sar2 r n => Ethnum.MemIntr.sar2 c r n
  | .intrS2 .shr2 r n => Ethnum.MemIntr.shr2 c r n
  | .intrS2 .ishl2 r n => Ethnum.MemIntr.ishl2 c r n
  | .intrS3 .shl3 r a n => Ethnum.MemIntr.shl3 c r a n
  | .intrS3 .sar3 r a n => Ethnum.MemIntr.sar3 c r a n
  | .intrS3 .shr3 r a n => Ethnum.MemIntr.shr3 c r a n
  | .intrS3 .rol3 r a n => Ethnum.MemIntr.rol3 c r a n
  | .intrS3 .ror3 r a n => Ethnum.MemIntr.ror3 c r a n
  | .intrS3 .ishl3 r a n => Ethnum.MemIntr.ishl3 c r a n
  | .intrS3 .irol3 r a n => Ethnum.MemIntr.irol3 c r a n
  | .intrS3 .iror3 r a n => Ethnum.MemIntr.iror3 c r a n
  | .udivmod4 r a b rem => Ethnum.MemIntr.udivmod4 c r a b rem
  | .idivmod4 r a b rem => Ethnum.MemIntr.idivmod4 c r a b rem

/-- `a op= &b`, step by step -/
def _root_.Ethnum.Assign.steps (c : Cfg) (a b : Loc) : Kind → Assign → P Unit
  | .u, .add => Steps.U256.add_assignM c a b
  | .u, .sub => Steps.U256.sub_assignM c a b
  | .u, .mul => Steps.U256.mul_assignM c a b
  | .u, .div => Steps.U256.div_assignM c a b
  | .u, .rem => Steps.U256.rem_assignM c a b
  | .u, .and => Steps.U256.bitand_assignM a b
  | .u, .or => Steps.U256.bitor_assignM a b
  | .u, .xor => Steps.U256.bitxor_assignM a b
  | .i, .add => Steps.I256.add_assignM c a b
  | .i, .sub => Steps.I256.sub_assignM c a b
  | .i, .mul => Steps.I256.mul_assignM c a b
  | .i, .div => Steps.I256.div_assignM c a b
  | .i, .rem => Steps.I256.rem_assignM c a b
  | .i, .and => Steps.I256.bitand_assignM a b
  | .i, .or => Steps.I256.bitor_assignM a b
  | .i, .xor => Steps.I256.bitxor_assignM a b

/-- The call step by step (Model/Steps.lean). -/
def Op.steps {α : Type} (c : Cfg) : Op α → P α
  | .load .u a => P.rd a
  | .load .i a => P.ird a
  | .store .u d v => P.wr d v
  | .store .i d v => P.iwr d v
  | .bin .u .add a b => Steps.U256.addM c a b
  | .bin .u .sub a b => Steps.U256.subM c a b
  | .bin .u .mul a b => Steps.U256.mulM c a b
  | .bin .u .div a b => Steps.U256.divM c a b
  | .bin .u .rem a b => Steps.U256.remM c a b
  | .bin .i .add a b => Steps.I256.addM c a b
  | .bin .i .sub a b => Steps.I256.subM c a b
  | .bin .i .mul a b => Steps.I256.mulM c a b
  | .bin .i .div a b => Steps.I256.divM c a b
  | .bin .i .rem a b => Steps.I256.remM c a b
  | .shift .u .shl a n => Steps.U256.shlM c a n
  | .shift .u .shr a n => Steps.U256.shrM c a n
  | .shift .u .wrappingShl a n => Steps.U256.wrapping_shlM c a n
  | .shift .u .wrappingShr a n => Steps.U256.wrapping_shrM c a n
  | .shift .u .rotateLeft a n => Steps.U256.rotate_leftM c a n
  | .shift .u .rotateRight a n => Steps.U256.rotate_rightM c a n
  | .shift .i .shl a n => Steps.I256.shlM c a n
  | .shift .i .shr a n => Steps.I256.shrM c a n
  | .shift .i .wrappingShl a n => Steps.I256.wrapping_shlM c a n
  | .shift .i .wrappingShr a n => Steps.I256.wrapping_shrM c a n
  | .shift .i .rotateLeft a n => Steps.I256.rotate_leftM c a n
  | .shift .i .rotateRight a n => Steps.I256.rotate_rightM c a n
  | .assign k o d b => o.steps c d b k
  | .assignVal k o d b => MemOps.byValue b fun b => o.steps c d b k
  | .shlAssign .u d n => Steps.U256.shl_assignM c d n
  | .shlAssign .i d n => Steps.I256.shl_assignM c d n
  | .shrAssign .u d n => Steps.U256.shr_assignM c d n
  | .shrAssign .i d n => Steps.I256.shr_assignM c d n
  | .wrapping .u .add a b => Steps.U256.wrapping_addM c a b
  | .wrapping .u .sub a b => Steps.U256.wrapping_subM c a b
  | .wrapping .u .mul a b => Steps.U256.wrapping_mulM c a b
  | .wrapping .i .add a b => Steps.I256.wrapping_addM c a b
  | .wrapping .i .sub a b => Steps.I256.wrapping_subM c a b
  | .wrapping .i .mul a b => Steps.I256.wrapping_mulM c a b
  | .overflowing .u .add a b => Steps.U256.overflowing_addM c a b
  | .overflowing .u .sub a b => Steps.U256.overflowing_subM c a b
  | .overflowing .u .mul a b => Steps.U256.overflowing_mulM c a b
  | .overflowing .i .add a b => Steps.I256.overflowing_addM c a b
  | .overflowing .i .sub a b => Steps.I256.overflowing_subM c a b
  | .overflowing .i .mul a b => Steps.I256.overflowing_mulM c a b
  | .divRem a b => Steps.U256.div_remM c a b
  | .wrappingDivRem a b => Steps.I256.wrapping_div_remM c a b
  | .checkedDivRem a b => Steps.I256.checked_div_remM c a b
  | .checkedDiv a b => Steps.I256.checked_divM c a b
  | .checkedRem a b => Steps.I256.checked_remM c a b
  | .intr2 .add2 r a => Steps.MemIntr.add2 c r a
  | .intr2 .sub2 r a => Steps.MemIntr.sub2 c r a
  | .intr2 .mul2 r a => Steps.MemIntr.mul2 c r a
  | .intr2 .udiv2 r a => Steps.MemIntr.udiv2 c r a
  | .intr2 .urem2 r a => Steps.MemIntr.urem2 c r a
  | .intr2 .idiv2 r a => Steps.MemIntr.idiv2 c r a
  | .intr2 .irem2 r a => Steps.MemIntr.irem2 c r a
  | .intr2 .iadd2 r a => Steps.MemIntr.iadd2 c r a
  | .intr2 .isub2 r a => Steps.MemIntr.isub2 c r a
  | .intr2 .imul2 r a => Steps.MemIntr.imul2 c r a
  | .intr3 .add3 r a b => Steps.MemIntr.add3 c r a b
  | .intr3 .sub3 r a b => Steps.MemIntr.sub3 c r a b
  | .intr3 .mul3 r a b => Steps.MemIntr.mul3 c r a b
  | .intr3 .udiv3 r a b => Steps.MemIntr.udiv3 c r a b
  | .intr3 .urem3 r a b => Steps.MemIntr.urem3 c r a b
  | .intr3 .idiv3 r a b => Steps.MemIntr.idiv3 c r a b
  | .intr3 .irem3 r a b => Steps.MemIntr.irem3 c r a b
  | .intr3 .iadd3 r a b => Steps.MemIntr.iadd3 c r a b
  | .intr3 .isub3 r a b => Steps.MemIntr.isub3 c r a b
  | .intr3 .imul3 r a b => Steps.MemIntr.imul3 c r a b
  | .intrC .uaddc r a b => Steps.MemIntr.uaddc c r a b
  | .intrC .iaddc r a b => Steps.MemIntr.iaddc c r a b
  | .intrC .usubc r a b => Steps.MemIntr.usubc c r a b
  | .intrC .isubc r a b => Steps.MemIntr.isubc c r a b
  | .intrC .umulc r a b => Steps.MemIntr.umulc c r a b
  | .intrC .imulc r a b => Steps.MemIntr.imulc c r a b
  | .intrS2 .shl2 r n => Steps.MemIntr.shl2 c r n
  | .intrS2 .sar2 r n => Steps.MemIntr.sar2 c r n
  | .intrS2 .shr2 r n => Steps.MemIntr.shr2 c r n
  | .intrS2 .ishl2 r n => Steps.MemIntr.ishl2 c r n
  | .intrS3 .shl3 r a n => Steps.MemIntr.shl3 c r a n
  | .intrS3 .sar3 r a n => Steps.MemIntr.sar3 c r a n
  | .intrS3 .shr3 r a n => Steps.MemIntr.shr3 c r a n
  | .intrS3 .rol3 r a n => Steps.MemIntr.rol3 c r a n
  | .intrS3 .ror3 r a n => Steps.MemIntr.ror3 c r a n
  | .intrS3 .ishl3 r a n => Steps.MemIntr.ishl3 c r a n
  | .intrS3 .irol3 r a n => Steps.MemIntr.irol3 c r a n
  | .intrS3 .iror3 r a n => Steps.MemIntr.iror3 c r a n
  | .udivmod4 r a b rem => Steps.MemIntr.udivmod4 c r a b rem
  | .idivmod4 r a b rem => Steps.MemIntr.idivmod4 c r a b rem

/-! ### Client code -/

/-- Client code: calls, what it does next depending on their results, and its own result or panic. Its variables are among
the objects in memory. -/
inductive Code (α : Type) : Type 1 where
  | ret (r : Res α)
  | call {β : Type} (o : Op β) (k : β → Code α)

/-- At once and without other threads. -/
def Code.mem {α : Type} (c : Cfg) : Code α → M α
  | .ret r => M.lift r
  | .call o k => do
    let x ← o.mem c
    (k x).mem c

/-- Step by step. -/
def Code.steps {α : Type} (c : Cfg) : Code α → P α
  | .ret r => P.lift r
  | .call o k => do
    let x ← o.steps c
    (k x).steps c

/-- Whatever the calls return, the code passes no object by `&mut` that is not among `ws`, and none by `&` or by value that
is not among `rs` or `ws`. -/
def Code.Uses {α : Type} (rs ws : List Loc) : Code α → Prop
  | .ret _ => True
  | .call o k => (∀ p ∈ o.shared, p ∈ rs ∨ p ∈ ws) ∧ (∀ p ∈ o.mut, p ∈ ws) ∧ ∀ x, (k x).Uses rs ws

/-- A thread: its code, the objects it has borrowed shared, and those it owns or has borrowed mutably. -/
structure Thread (α : Type) where
  code : Code α
  reads : List Loc
  writes : List Loc

/-- What the borrow checker demands of threads: each keeps to the objects that it was given, and no object that one may write
was given to another. -/
def Borrowed {α : Type} (ts : List (Thread α)) : Prop :=
  (∀ t ∈ ts, t.code.Uses t.reads t.writes)
  ∧ ∀ (i j : Nat) (s t : Thread α), i ≠ j → ts[i]? = some s → ts[j]? = some t → ∀ p ∈ s.writes, p ∉ t.reads ∧ p ∉ t.writes

/-- The threads before their first steps. -/
def World.start {α : Type} (c : Cfg) (s : Mem) (ts : List (Thread α)) : World α := ⟨s, ts.map fun t => (t.code.steps c, [])⟩

/-- A list of assignments as code -/
def Code.ofStmts (k : Kind) : List Stmt → Code Unit
  | [] => .ret (.ok ())
  | .op o d v :: ts => .call (.assignVal k o d v) fun _ => ofStmts k ts
  | .shl d n :: ts => .call (.shlAssign k d (BitVec.ofNat 32 n.val)) fun _ => ofStmts k ts
  | .shr d n :: ts => .call (.shrAssign k d (BitVec.ofNat 32 n.val)) fun _ => ofStmts k ts

/-- The variable that a statement assigns to -/
def _root_.Ethnum.Stmt.target : Stmt → Loc
  | .op _ d _ | .shl d _ | .shr d _ => d
/-- The other variable that it uses -/
def _root_.Ethnum.Stmt.operand : Stmt → List Loc
  | .op _ _ v => [v]
  | .shl .. | .shr .. => []

/-- A thread that runs assignments -/
def Thread.ofStmts (k : Kind) (ts : List Stmt) : Thread Unit := ⟨.ofStmts k ts, ts.flatMap Stmt.operand, ts.map Stmt.target⟩

end Ethnum.Steps
