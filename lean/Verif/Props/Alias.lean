import Verif.Proofs.AliasOps
import Verif.Proofs.AliasMul
import Verif.Proofs.AliasDiv
import Verif.Proofs.AliasIDiv
import Verif.Proofs.AliasIRem
import Verif.Proofs.AliasShift
import Verif.Proofs.AliasCalls
import Verif.Props.Repr

/-
C69: a program that keeps its numbers in variables and calculates with them breaks no rule on aliasing: whatever the operator,
the method, the values, the endianness, the back-end and the debug assertions, every reference, raw pointer and access that the
code makes on the way, panics included, is allowed by Stacked Borrows and by Tree Borrows (SpecBorrow.lean). The programs are
those of Model/Mem.lean with the pointer events beside (Model/Alias.lean): the first half of each statement says that their
results and what they leave in memory are the same, and what these are is C54 and C55.
-/

namespace Ethnum
open Borrow Alias

/-- `x op= &y` on two variables of type `U256` -/
theorem C69_u256_assign (c : Cfg) (x y : U256) :
    ∀ p ∈ [(Alias.U256.add_assign c, U256.add_assignM c), (Alias.U256.sub_assign c, U256.sub_assignM c),
      (Alias.U256.mul_assign c, U256.mul_assignM c), (Alias.U256.div_assign c, U256.div_assignM c),
      (Alias.U256.rem_assign c, U256.rem_assignM c), (Alias.U256.bitand_assign, U256.bitand_assignM),
      (Alias.U256.bitor_assign, U256.bitor_assignM), (Alias.U256.bitxor_assign, U256.bitxor_assignM)],
      (∀ a b w, (p.1 a b w).1 = (p.2 a.loc b.loc w.mem).1 ∧ (p.1 a b w).2.mem = (p.2 a.loc b.loc w.mem).2)
      ∧ Obeys 32 (assigning p.1 (start (Cell.ofU x) (Cell.ofU y))).2.log.reverse := by
  simp only [List.forall_mem_cons, List.not_mem_nil, false_implies, implies_true, and_true]
  refine ⟨⟨fun a b w => Alias.U256.add_assign_sim c a b w, (Alias.U256.add_assign_passes c x.w0 x.w1 y.w0 y.w1).obeys⟩,
    ⟨fun a b w => Alias.U256.sub_assign_sim c a b w, (Alias.U256.sub_assign_passes c x.w0 x.w1 y.w0 y.w1).obeys⟩,
    ⟨fun a b w => Alias.U256.mul_assign_sim c a b w, (Alias.U256.mul_assign_passes c x.w0 x.w1 y.w0 y.w1).obeys⟩,
    ⟨fun a b w => Alias.U256.div_assign_sim c a b w, (Alias.U256.div_assign_passes c x.w0 x.w1 y.w0 y.w1).obeys⟩,
    ⟨fun a b w => Alias.U256.rem_assign_sim c a b w, (Alias.U256.rem_assign_passes c x.w0 x.w1 y.w0 y.w1).obeys⟩,
    ⟨fun a b w => Alias.U256.bitand_assign_sim a b w, (Alias.U256.bitand_assign_passes x.w0 x.w1 y.w0 y.w1).obeys⟩,
    ⟨fun a b w => Alias.U256.bitor_assign_sim a b w, (Alias.U256.bitor_assign_passes x.w0 x.w1 y.w0 y.w1).obeys⟩,
    ⟨fun a b w => Alias.U256.bitxor_assign_sim a b w, (Alias.U256.bitxor_assign_passes x.w0 x.w1 y.w0 y.w1).obeys⟩⟩
-- what is run is not empty: 7 += 5, in a release build, ends with 12 and 5 in the variables, and 100 /= 7 with 14 and 7
example : (assigning (Alias.U256.add_assign rel) (start (Cell.ofU (U256.ofNat rel 7)) (Cell.ofU (U256.ofNat rel 5)))).2.mem
    = [Cell.ofU (U256.ofNat rel 12), Cell.ofU (U256.ofNat rel 5)] := by decide +kernel
example : (assigning (Alias.U256.div_assign rel) (start (Cell.ofU (U256.ofNat rel 100)) (Cell.ofU (U256.ofNat rel 7)))).2.mem
    = [Cell.ofU (U256.ofNat rel 14), Cell.ofU (U256.ofNat rel 7)] := by decide +kernel
-- a debug build panics, and the events up to there are recorded: the addition that is too large makes these in variable 0
example : (assigning (Alias.U256.add_assign dbg) (start (Cell.ofU U256.MAX) (Cell.ofU U256.MAX))).1 = .error (.panic .addOverflow)
    ∧ ofAlloc 0 (assigning (Alias.U256.add_assign dbg) (start (Cell.ofU U256.MAX) (Cell.ofU U256.MAX))).2.log.reverse ≠ [] := by
  decide +kernel
-- all events of `x &= &y` in the variable `x`: the reference that the operator is called with, the one that it receives,
-- those to the two words, and two accesses to each
example : ofAlloc 0 (assigning Alias.U256.bitand_assign (start (Cell.ofU (U256.ofNat rel 6)) (Cell.ofU (U256.ofNat rel 3)))).2.log.reverse
    = [.ref .unique owner 2 0 32 false, .ref .unique 2 4 0 32 true, .ref .unique 4 6 0 16 false, .ref .unique 4 7 16 16 false,
       .access .read 6 0 16, .access .write 6 0 16, .access .read 7 16 16, .access .write 7 16 16, .ret [4],
       .access .read owner 0 32] := by decide +kernel
-- `udiv2` keeps a copy of the dividend; without it, with the quotient written over the dividend that is being read, both
-- models reject the division
def divWithoutCopy (r a : Ref) : T Unit := call2 .unique r .shared a fun r a => do
  let res ← castMut r
  Alias.Intr.udivmod4 rel res (← Alias.ref .shared r) a none
example : ¬ Stacked.Accepts 32 (ofAlloc 0 (assigning divWithoutCopy
      (start (Cell.ofU (U256.ofNat rel 100)) (Cell.ofU (U256.ofNat rel 7)))).2.log.reverse)
    ∧ ¬ Tree.Accepts 32 (ofAlloc 0 (assigning divWithoutCopy
      (start (Cell.ofU (U256.ofNat rel 100)) (Cell.ofU (U256.ofNat rel 7)))).2.log.reverse) :=
  ⟨fun h => h 0 (by decide +kernel), fun h => h 0 (by decide +kernel)⟩

/-- `&x op &y` and the wrapping methods of `U256` -/
theorem C69_u256_binary (c : Cfg) (x y : U256) :
    ∀ p ∈ [(Alias.U256.add c, U256.addM c), (Alias.U256.sub c, U256.subM c), (Alias.U256.mul c, U256.mulM c),
      (Alias.U256.div c, U256.divM c), (Alias.U256.rem c, U256.remM c), (Alias.U256.wrapping_add c, U256.wrapping_addM c),
      (Alias.U256.wrapping_sub c, U256.wrapping_subM c), (Alias.U256.wrapping_mul c, U256.wrapping_mulM c)],
      (∀ a b w, (p.1 a b w).1 = (p.2 a.loc b.loc w.mem).1 ∧ (p.1 a b w).2.mem = (p.2 a.loc b.loc w.mem).2)
      ∧ Obeys 32 (calling p.1 (start (Cell.ofU x) (Cell.ofU y))).2.log.reverse := by
  simp only [List.forall_mem_cons, List.not_mem_nil, false_implies, implies_true, and_true]
  refine ⟨⟨fun a b w => Alias.U256.add_sim c a b w, (Alias.U256.add_passes c x.w0 x.w1 y.w0 y.w1).obeys⟩,
    ⟨fun a b w => Alias.U256.sub_sim c a b w, (Alias.U256.sub_passes c x.w0 x.w1 y.w0 y.w1).obeys⟩,
    ⟨fun a b w => Alias.U256.mul_sim c a b w, (Alias.U256.mul_passes c x.w0 x.w1 y.w0 y.w1).obeys⟩,
    ⟨fun a b w => Alias.U256.div_sim c a b w, (Alias.U256.div_passes c x.w0 x.w1 y.w0 y.w1).obeys⟩,
    ⟨fun a b w => Alias.U256.rem_sim c a b w, (Alias.U256.rem_passes c x.w0 x.w1 y.w0 y.w1).obeys⟩,
    ⟨fun a b w => Alias.U256.wrapping_add_sim c a b w, (Alias.U256.wrapping_add_passes c x.w0 x.w1 y.w0 y.w1).obeys⟩,
    ⟨fun a b w => Alias.U256.wrapping_sub_sim c a b w, (Alias.U256.wrapping_sub_passes c x.w0 x.w1 y.w0 y.w1).obeys⟩,
    ⟨fun a b w => Alias.U256.wrapping_mul_sim c a b w, (Alias.U256.wrapping_mul_passes c x.w0 x.w1 y.w0 y.w1).obeys⟩⟩
example : (calling (Alias.U256.mul rel) (start (Cell.ofU (U256.ofNat rel (2 ^ 200))) (Cell.ofU (U256.ofNat rel 3)))).1
    = .ok (U256.ofNat rel (3 * 2 ^ 200)) := by decide +kernel

/-- The methods of `U256` that return a flag -/
theorem C69_u256_overflowing (c : Cfg) (x y : U256) :
    ∀ p ∈ [(Alias.U256.overflowing_add c, U256.overflowing_addM c), (Alias.U256.overflowing_sub c, U256.overflowing_subM c),
      (Alias.U256.overflowing_mul c, U256.overflowing_mulM c)],
      (∀ a b w, (p.1 a b w).1 = (p.2 a.loc b.loc w.mem).1 ∧ (p.1 a b w).2.mem = (p.2 a.loc b.loc w.mem).2)
      ∧ Obeys 32 (calling p.1 (start (Cell.ofU x) (Cell.ofU y))).2.log.reverse := by
  simp only [List.forall_mem_cons, List.not_mem_nil, false_implies, implies_true, and_true]
  refine ⟨⟨fun a b w => Alias.U256.overflowing_add_sim c a b w, (Alias.U256.overflowing_add_passes c x.w0 x.w1 y.w0 y.w1).obeys⟩,
    ⟨fun a b w => Alias.U256.overflowing_sub_sim c a b w, (Alias.U256.overflowing_sub_passes c x.w0 x.w1 y.w0 y.w1).obeys⟩,
    ⟨fun a b w => Alias.U256.overflowing_mul_sim c a b w, (Alias.U256.overflowing_mul_passes c x.w0 x.w1 y.w0 y.w1).obeys⟩⟩
example : (calling (Alias.U256.overflowing_sub rll) (start (Cell.ofU (U256.ofNat rll 5)) (Cell.ofU (U256.ofNat rll 7)))).1
    = .ok (U256.ofNat rll (2 ^ 256 - 2), true) := by decide +kernel

/-- `div_rem` of `U256` -/
theorem C69_u256_div_rem (c : Cfg) (x y : U256) :
    ∀ p ∈ [(Alias.U256.div_rem c, U256.div_remM c)],
      (∀ a b w, (p.1 a b w).1 = (p.2 a.loc b.loc w.mem).1 ∧ (p.1 a b w).2.mem = (p.2 a.loc b.loc w.mem).2)
      ∧ Obeys 32 (calling p.1 (start (Cell.ofU x) (Cell.ofU y))).2.log.reverse := by
  simp only [List.forall_mem_cons, List.not_mem_nil, false_implies, implies_true, and_true]
  refine ⟨fun a b w => Alias.U256.div_rem_sim c a b w, (Alias.U256.div_rem_passes c x.w0 x.w1 y.w0 y.w1).obeys⟩
example : (calling (Alias.U256.div_rem dbg) (start (Cell.ofU (U256.ofNat dbg 100)) (Cell.ofU (U256.ofNat dbg 7)))).1
    = .ok (U256.ofNat dbg 14, U256.ofNat dbg 2) := by decide +kernel

/-- `x <<= n` and `x >>= n` on variables of type `U256` -/
theorem C69_u256_shift_assign (c : Cfg) (x y : U256) (n : U32) :
    ∀ p ∈ [(Alias.U256.shl_assign c, U256.shl_assignM c), (Alias.U256.shr_assign c, U256.shr_assignM c)],
      (∀ a n w, (p.1 a n w).1 = (p.2 a.loc n w.mem).1 ∧ (p.1 a n w).2.mem = (p.2 a.loc n w.mem).2)
      ∧ Obeys 32 (assigningShift p.1 n (start (Cell.ofU x) (Cell.ofU y))).2.log.reverse := by
  simp only [List.forall_mem_cons, List.not_mem_nil, false_implies, implies_true, and_true]
  refine ⟨⟨fun a b w => Alias.U256.shl_assign_sim c a b w, (Alias.U256.shl_assign_passes c n x.w0 x.w1 y.w0 y.w1).obeys⟩,
    ⟨fun a b w => Alias.U256.shr_assign_sim c a b w, (Alias.U256.shr_assign_passes c n x.w0 x.w1 y.w0 y.w1).obeys⟩⟩
example : (assigningShift (Alias.U256.shl_assign rel) 200 (start (Cell.ofU (U256.ofNat rel 3)) (Cell.ofU U256.MAX))).2.mem
    = [Cell.ofU (U256.ofNat rel (3 * 2 ^ 200)), Cell.ofU U256.MAX] := by decide +kernel

/-- `&x << n`, `&x >> n`, the wrapping shifts and the rotations of `U256` -/
theorem C69_u256_shift (c : Cfg) (x y : U256) (n : U32) :
    ∀ p ∈ [(Alias.U256.shl c, U256.shlM c), (Alias.U256.shr c, U256.shrM c), (Alias.U256.wrapping_shl c, U256.wrapping_shlM c),
      (Alias.U256.wrapping_shr c, U256.wrapping_shrM c), (Alias.U256.rotate_left c, U256.rotate_leftM c),
      (Alias.U256.rotate_right c, U256.rotate_rightM c)],
      (∀ a n w, (p.1 a n w).1 = (p.2 a.loc n w.mem).1 ∧ (p.1 a n w).2.mem = (p.2 a.loc n w.mem).2)
      ∧ Obeys 32 (callingShift p.1 n (start (Cell.ofU x) (Cell.ofU y))).2.log.reverse := by
  simp only [List.forall_mem_cons, List.not_mem_nil, false_implies, implies_true, and_true]
  refine ⟨⟨fun a b w => Alias.U256.shl_sim c a b w, (Alias.U256.shl_passes c n x.w0 x.w1 y.w0 y.w1).obeys⟩,
    ⟨fun a b w => Alias.U256.shr_sim c a b w, (Alias.U256.shr_passes c n x.w0 x.w1 y.w0 y.w1).obeys⟩,
    ⟨fun a b w => Alias.U256.wrapping_shl_sim c a b w, (Alias.U256.wrapping_shl_passes c n x.w0 x.w1 y.w0 y.w1).obeys⟩,
    ⟨fun a b w => Alias.U256.wrapping_shr_sim c a b w, (Alias.U256.wrapping_shr_passes c n x.w0 x.w1 y.w0 y.w1).obeys⟩,
    ⟨fun a b w => Alias.U256.rotate_left_sim c a b w, (Alias.U256.rotate_left_passes c n x.w0 x.w1 y.w0 y.w1).obeys⟩,
    ⟨fun a b w => Alias.U256.rotate_right_sim c a b w, (Alias.U256.rotate_right_passes c n x.w0 x.w1 y.w0 y.w1).obeys⟩⟩
example : (callingShift (Alias.U256.rotate_left rel) 255 (start (Cell.ofU (U256.ofNat rel 3)) (Cell.ofU U256.MAX))).1
    = .ok (U256.ofNat rel (2 ^ 255 + 1)) := by decide +kernel

/-- `x op= &y` on two variables of type `I256` -/
theorem C69_i256_assign (c : Cfg) (x y : I256) :
    ∀ p ∈ [(Alias.I256.add_assign c, I256.add_assignM c), (Alias.I256.sub_assign c, I256.sub_assignM c),
      (Alias.I256.mul_assign c, I256.mul_assignM c), (Alias.I256.div_assign c, I256.div_assignM c),
      (Alias.I256.rem_assign c, I256.rem_assignM c), (Alias.I256.bitand_assign, I256.bitand_assignM),
      (Alias.I256.bitor_assign, I256.bitor_assignM), (Alias.I256.bitxor_assign, I256.bitxor_assignM)],
      (∀ a b w, (p.1 a b w).1 = (p.2 a.loc b.loc w.mem).1 ∧ (p.1 a b w).2.mem = (p.2 a.loc b.loc w.mem).2)
      ∧ Obeys 32 (assigning p.1 (start (Cell.ofI x) (Cell.ofI y))).2.log.reverse := by
  simp only [List.forall_mem_cons, List.not_mem_nil, false_implies, implies_true, and_true]
  refine ⟨⟨fun a b w => Alias.I256.add_assign_sim c a b w, (Alias.I256.add_assign_passes c x.w0 x.w1 y.w0 y.w1).obeys⟩,
    ⟨fun a b w => Alias.I256.sub_assign_sim c a b w, (Alias.I256.sub_assign_passes c x.w0 x.w1 y.w0 y.w1).obeys⟩,
    ⟨fun a b w => Alias.I256.mul_assign_sim c a b w, (Alias.I256.mul_assign_passes c x.w0 x.w1 y.w0 y.w1).obeys⟩,
    ⟨fun a b w => Alias.I256.div_assign_sim c a b w, (Alias.I256.div_assign_passes c x.w0 x.w1 y.w0 y.w1).obeys⟩,
    ⟨fun a b w => Alias.I256.rem_assign_sim c a b w, (Alias.I256.rem_assign_passes c x.w0 x.w1 y.w0 y.w1).obeys⟩,
    ⟨fun a b w => Alias.I256.bitand_assign_sim a b w, (Alias.I256.bitand_assign_passes x.w0 x.w1 y.w0 y.w1).obeys⟩,
    ⟨fun a b w => Alias.I256.bitor_assign_sim a b w, (Alias.I256.bitor_assign_passes x.w0 x.w1 y.w0 y.w1).obeys⟩,
    ⟨fun a b w => Alias.I256.bitxor_assign_sim a b w, (Alias.I256.bitxor_assign_passes x.w0 x.w1 y.w0 y.w1).obeys⟩⟩
example : (assigning (Alias.I256.rem_assign rel) (start (Cell.ofI (I256.ofInt rel (-100))) (Cell.ofI (I256.ofInt rel 7)))).2.mem
    = [Cell.ofI (I256.ofInt rel (-2)), Cell.ofI (I256.ofInt rel 7)] := by decide +kernel
-- `cast!(ref: r)` where `cast!(mut: r)` is needed: a write through a shared reference, which both models reject
def addThroughShared (r a : Ref) : T Unit := call2 .unique r .shared a fun r a => do
  Alias.Intr.add2 rll (← castRef r) (← castRef a)
example : ¬ Stacked.Accepts 32 (ofAlloc 0 (assigning addThroughShared
      (start (Cell.ofI (I256.ofInt rll 1)) (Cell.ofI (I256.ofInt rll 2)))).2.log.reverse)
    ∧ ¬ Tree.Accepts 32 (ofAlloc 0 (assigning addThroughShared
      (start (Cell.ofI (I256.ofInt rll 1)) (Cell.ofI (I256.ofInt rll 2)))).2.log.reverse) :=
  ⟨fun h => h 0 (by decide +kernel), fun h => h 0 (by decide +kernel)⟩

/-- `&x op &y` and the wrapping methods of `I256` -/
theorem C69_i256_binary (c : Cfg) (x y : I256) :
    ∀ p ∈ [(Alias.I256.add c, I256.addM c), (Alias.I256.sub c, I256.subM c), (Alias.I256.mul c, I256.mulM c),
      (Alias.I256.div c, I256.divM c), (Alias.I256.rem c, I256.remM c), (Alias.I256.wrapping_add c, I256.wrapping_addM c),
      (Alias.I256.wrapping_sub c, I256.wrapping_subM c), (Alias.I256.wrapping_mul c, I256.wrapping_mulM c)],
      (∀ a b w, (p.1 a b w).1 = (p.2 a.loc b.loc w.mem).1 ∧ (p.1 a b w).2.mem = (p.2 a.loc b.loc w.mem).2)
      ∧ Obeys 32 (calling p.1 (start (Cell.ofI x) (Cell.ofI y))).2.log.reverse := by
  simp only [List.forall_mem_cons, List.not_mem_nil, false_implies, implies_true, and_true]
  refine ⟨⟨fun a b w => Alias.I256.add_sim c a b w, (Alias.I256.add_passes c x.w0 x.w1 y.w0 y.w1).obeys⟩,
    ⟨fun a b w => Alias.I256.sub_sim c a b w, (Alias.I256.sub_passes c x.w0 x.w1 y.w0 y.w1).obeys⟩,
    ⟨fun a b w => Alias.I256.mul_sim c a b w, (Alias.I256.mul_passes c x.w0 x.w1 y.w0 y.w1).obeys⟩,
    ⟨fun a b w => Alias.I256.div_sim c a b w, (Alias.I256.div_passes c x.w0 x.w1 y.w0 y.w1).obeys⟩,
    ⟨fun a b w => Alias.I256.rem_sim c a b w, (Alias.I256.rem_passes c x.w0 x.w1 y.w0 y.w1).obeys⟩,
    ⟨fun a b w => Alias.I256.wrapping_add_sim c a b w, (Alias.I256.wrapping_add_passes c x.w0 x.w1 y.w0 y.w1).obeys⟩,
    ⟨fun a b w => Alias.I256.wrapping_sub_sim c a b w, (Alias.I256.wrapping_sub_passes c x.w0 x.w1 y.w0 y.w1).obeys⟩,
    ⟨fun a b w => Alias.I256.wrapping_mul_sim c a b w, (Alias.I256.wrapping_mul_passes c x.w0 x.w1 y.w0 y.w1).obeys⟩⟩
example : (calling (Alias.I256.sub dbg) (start (Cell.ofI (I256.MIN dbg)) (Cell.ofI (I256.ofInt dbg 1)))).1
    = .error (.panic .subOverflow) := by decide +kernel

/-- The methods of `I256` that return a flag -/
theorem C69_i256_overflowing (c : Cfg) (x y : I256) :
    ∀ p ∈ [(Alias.I256.overflowing_add c, I256.overflowing_addM c), (Alias.I256.overflowing_sub c, I256.overflowing_subM c),
      (Alias.I256.overflowing_mul c, I256.overflowing_mulM c)],
      (∀ a b w, (p.1 a b w).1 = (p.2 a.loc b.loc w.mem).1 ∧ (p.1 a b w).2.mem = (p.2 a.loc b.loc w.mem).2)
      ∧ Obeys 32 (calling p.1 (start (Cell.ofI x) (Cell.ofI y))).2.log.reverse := by
  simp only [List.forall_mem_cons, List.not_mem_nil, false_implies, implies_true, and_true]
  refine ⟨⟨fun a b w => Alias.I256.overflowing_add_sim c a b w, (Alias.I256.overflowing_add_passes c x.w0 x.w1 y.w0 y.w1).obeys⟩,
    ⟨fun a b w => Alias.I256.overflowing_sub_sim c a b w, (Alias.I256.overflowing_sub_passes c x.w0 x.w1 y.w0 y.w1).obeys⟩,
    ⟨fun a b w => Alias.I256.overflowing_mul_sim c a b w, (Alias.I256.overflowing_mul_passes c x.w0 x.w1 y.w0 y.w1).obeys⟩⟩
example : (calling (Alias.I256.overflowing_mul rel) (start (Cell.ofI (I256.MIN rel)) (Cell.ofI (I256.ofInt rel (-1))))).1
    = .ok (I256.MIN rel, true) := by decide +kernel

/-- `wrapping_div_rem` of `I256` -/
theorem C69_i256_div_rem (c : Cfg) (x y : I256) :
    ∀ p ∈ [(Alias.I256.wrapping_div_rem c, I256.wrapping_div_remM c)],
      (∀ a b w, (p.1 a b w).1 = (p.2 a.loc b.loc w.mem).1 ∧ (p.1 a b w).2.mem = (p.2 a.loc b.loc w.mem).2)
      ∧ Obeys 32 (calling p.1 (start (Cell.ofI x) (Cell.ofI y))).2.log.reverse := by
  simp only [List.forall_mem_cons, List.not_mem_nil, false_implies, implies_true, and_true]
  refine ⟨fun a b w => Alias.I256.wrapping_div_rem_sim c a b w, (Alias.I256.wrapping_div_rem_passes c x.w0 x.w1 y.w0 y.w1).obeys⟩
example : (calling (Alias.I256.wrapping_div_rem rel) (start (Cell.ofI (I256.ofInt rel (-100))) (Cell.ofI (I256.ofInt rel 7)))).1
    = .ok (I256.ofInt rel (-14), I256.ofInt rel (-2)) := by decide +kernel

/-- `x <<= n` and `x >>= n` on variables of type `I256` -/
theorem C69_i256_shift_assign (c : Cfg) (x y : I256) (n : U32) :
    ∀ p ∈ [(Alias.I256.shl_assign c, I256.shl_assignM c), (Alias.I256.shr_assign c, I256.shr_assignM c)],
      (∀ a n w, (p.1 a n w).1 = (p.2 a.loc n w.mem).1 ∧ (p.1 a n w).2.mem = (p.2 a.loc n w.mem).2)
      ∧ Obeys 32 (assigningShift p.1 n (start (Cell.ofI x) (Cell.ofI y))).2.log.reverse := by
  simp only [List.forall_mem_cons, List.not_mem_nil, false_implies, implies_true, and_true]
  refine ⟨⟨fun a b w => Alias.I256.shl_assign_sim c a b w, (Alias.I256.shl_assign_passes c n x.w0 x.w1 y.w0 y.w1).obeys⟩,
    ⟨fun a b w => Alias.I256.shr_assign_sim c a b w, (Alias.I256.shr_assign_passes c n x.w0 x.w1 y.w0 y.w1).obeys⟩⟩
example : (assigningShift (Alias.I256.shr_assign rel) 3 (start (Cell.ofI (I256.ofInt rel (-100))) (Cell.ofI (I256.MIN rel)))).2.mem
    = [Cell.ofI (I256.ofInt rel (-13)), Cell.ofI (I256.MIN rel)] := by decide +kernel

/-- `&x << n`, `&x >> n`, the wrapping shifts and the rotations of `I256` -/
theorem C69_i256_shift (c : Cfg) (x y : I256) (n : U32) :
    ∀ p ∈ [(Alias.I256.shl c, I256.shlM c), (Alias.I256.shr c, I256.shrM c), (Alias.I256.wrapping_shl c, I256.wrapping_shlM c),
      (Alias.I256.wrapping_shr c, I256.wrapping_shrM c), (Alias.I256.rotate_left c, I256.rotate_leftM c),
      (Alias.I256.rotate_right c, I256.rotate_rightM c)],
      (∀ a n w, (p.1 a n w).1 = (p.2 a.loc n w.mem).1 ∧ (p.1 a n w).2.mem = (p.2 a.loc n w.mem).2)
      ∧ Obeys 32 (callingShift p.1 n (start (Cell.ofI x) (Cell.ofI y))).2.log.reverse := by
  simp only [List.forall_mem_cons, List.not_mem_nil, false_implies, implies_true, and_true]
  refine ⟨⟨fun a b w => Alias.I256.shl_sim c a b w, (Alias.I256.shl_passes c n x.w0 x.w1 y.w0 y.w1).obeys⟩,
    ⟨fun a b w => Alias.I256.shr_sim c a b w, (Alias.I256.shr_passes c n x.w0 x.w1 y.w0 y.w1).obeys⟩,
    ⟨fun a b w => Alias.I256.wrapping_shl_sim c a b w, (Alias.I256.wrapping_shl_passes c n x.w0 x.w1 y.w0 y.w1).obeys⟩,
    ⟨fun a b w => Alias.I256.wrapping_shr_sim c a b w, (Alias.I256.wrapping_shr_passes c n x.w0 x.w1 y.w0 y.w1).obeys⟩,
    ⟨fun a b w => Alias.I256.rotate_left_sim c a b w, (Alias.I256.rotate_left_passes c n x.w0 x.w1 y.w0 y.w1).obeys⟩,
    ⟨fun a b w => Alias.I256.rotate_right_sim c a b w, (Alias.I256.rotate_right_passes c n x.w0 x.w1 y.w0 y.w1).obeys⟩⟩
example : (callingShift (Alias.I256.wrapping_shr dbg) 259 (start (Cell.ofI (I256.ofInt dbg (-100))) (Cell.ofI (I256.MIN dbg)))).1
    = .ok (I256.ofInt dbg (-13)) := by decide +kernel

end Ethnum
