import Verif.Proofs.AliasRun

/-
Lemmas for C69: each of `+`, `-`, `&`, `|` and `^`, on every path that it can take, has a log that passes the check.
-/

namespace Ethnum.Alias
set_option maxHeartbeats 4000000

theorem U256.bitand_assign_passes (x0 x1 y0 y1 : U128) :
    Passes (assigning U256.bitand_assign) ⟨some x0, some x1⟩ ⟨some y0, some y1⟩ := by
  unfold Passes
  runT [U256.bitand_assign]
theorem U256.bitor_assign_passes (x0 x1 y0 y1 : U128) :
    Passes (assigning U256.bitor_assign) ⟨some x0, some x1⟩ ⟨some y0, some y1⟩ := by
  unfold Passes
  runT [U256.bitor_assign]
theorem U256.bitxor_assign_passes (x0 x1 y0 y1 : U128) :
    Passes (assigning U256.bitxor_assign) ⟨some x0, some x1⟩ ⟨some y0, some y1⟩ := by
  unfold Passes
  runT [U256.bitxor_assign]
theorem I256.bitand_assign_passes (x0 x1 y0 y1 : U128) :
    Passes (assigning I256.bitand_assign) ⟨some x0, some x1⟩ ⟨some y0, some y1⟩ := by
  unfold Passes
  runT [I256.bitand_assign]
theorem I256.bitor_assign_passes (x0 x1 y0 y1 : U128) :
    Passes (assigning I256.bitor_assign) ⟨some x0, some x1⟩ ⟨some y0, some y1⟩ := by
  unfold Passes
  runT [I256.bitor_assign]
theorem I256.bitxor_assign_passes (x0 x1 y0 y1 : U128) :
    Passes (assigning I256.bitxor_assign) ⟨some x0, some x1⟩ ⟨some y0, some y1⟩ := by
  unfold Passes
  runT [I256.bitxor_assign]
theorem U256.add_assign_passes (c : Cfg) (x0 x1 y0 y1 : U128) :
    Passes (assigning (U256.add_assign c)) ⟨some x0, some x1⟩ ⟨some y0, some y1⟩ := by
  unfold Passes
  cases hb : c.bigEndian <;> cases hd : c.debugAssertions <;> cases hl : c.llvm <;>
    runT [hb, hd, hl, U256.add_assign, U256.add, U256.wrapping_add, U256.overflowing_add, Intr.add3, Intr.uaddc, Intr.add2, Native.add3, Native.uaddc, Native.add2]
theorem U256.add_passes (c : Cfg) (x0 x1 y0 y1 : U128) :
    Passes (calling (U256.add c)) ⟨some x0, some x1⟩ ⟨some y0, some y1⟩ := by
  unfold Passes
  cases hb : c.bigEndian <;> cases hd : c.debugAssertions <;> cases hl : c.llvm <;>
    runT [hb, hd, hl, U256.add_assign, U256.add, U256.wrapping_add, U256.overflowing_add, Intr.add3, Intr.uaddc, Intr.add2, Native.add3, Native.uaddc, Native.add2]
theorem U256.wrapping_add_passes (c : Cfg) (x0 x1 y0 y1 : U128) :
    Passes (calling (U256.wrapping_add c)) ⟨some x0, some x1⟩ ⟨some y0, some y1⟩ := by
  unfold Passes
  cases hb : c.bigEndian <;> cases hd : c.debugAssertions <;> cases hl : c.llvm <;>
    runT [hb, hd, hl, U256.add_assign, U256.add, U256.wrapping_add, U256.overflowing_add, Intr.add3, Intr.uaddc, Intr.add2, Native.add3, Native.uaddc, Native.add2]
theorem U256.overflowing_add_passes (c : Cfg) (x0 x1 y0 y1 : U128) :
    Passes (calling (U256.overflowing_add c)) ⟨some x0, some x1⟩ ⟨some y0, some y1⟩ := by
  unfold Passes
  cases hb : c.bigEndian <;> cases hd : c.debugAssertions <;> cases hl : c.llvm <;>
    runT [hb, hd, hl, U256.add_assign, U256.add, U256.wrapping_add, U256.overflowing_add, Intr.add3, Intr.uaddc, Intr.add2, Native.add3, Native.uaddc, Native.add2]
theorem I256.add_assign_passes (c : Cfg) (x0 x1 y0 y1 : U128) :
    Passes (assigning (I256.add_assign c)) ⟨some x0, some x1⟩ ⟨some y0, some y1⟩ := by
  unfold Passes
  cases hb : c.bigEndian <;> cases hd : c.debugAssertions <;> cases hl : c.llvm <;>
    runT [hb, hd, hl, I256.add_assign, I256.add, I256.wrapping_add, I256.overflowing_add, Intr.add3, Intr.iaddc, Intr.add2, Native.add3, Native.iaddc, Native.add2]
theorem I256.add_passes (c : Cfg) (x0 x1 y0 y1 : U128) :
    Passes (calling (I256.add c)) ⟨some x0, some x1⟩ ⟨some y0, some y1⟩ := by
  unfold Passes
  cases hb : c.bigEndian <;> cases hd : c.debugAssertions <;> cases hl : c.llvm <;>
    runT [hb, hd, hl, I256.add_assign, I256.add, I256.wrapping_add, I256.overflowing_add, Intr.add3, Intr.iaddc, Intr.add2, Native.add3, Native.iaddc, Native.add2]
theorem I256.wrapping_add_passes (c : Cfg) (x0 x1 y0 y1 : U128) :
    Passes (calling (I256.wrapping_add c)) ⟨some x0, some x1⟩ ⟨some y0, some y1⟩ := by
  unfold Passes
  cases hb : c.bigEndian <;> cases hd : c.debugAssertions <;> cases hl : c.llvm <;>
    runT [hb, hd, hl, I256.add_assign, I256.add, I256.wrapping_add, I256.overflowing_add, Intr.add3, Intr.iaddc, Intr.add2, Native.add3, Native.iaddc, Native.add2]
theorem I256.overflowing_add_passes (c : Cfg) (x0 x1 y0 y1 : U128) :
    Passes (calling (I256.overflowing_add c)) ⟨some x0, some x1⟩ ⟨some y0, some y1⟩ := by
  unfold Passes
  cases hb : c.bigEndian <;> cases hd : c.debugAssertions <;> cases hl : c.llvm <;>
    runT [hb, hd, hl, I256.add_assign, I256.add, I256.wrapping_add, I256.overflowing_add, Intr.add3, Intr.iaddc, Intr.add2, Native.add3, Native.iaddc, Native.add2]
theorem U256.sub_assign_passes (c : Cfg) (x0 x1 y0 y1 : U128) :
    Passes (assigning (U256.sub_assign c)) ⟨some x0, some x1⟩ ⟨some y0, some y1⟩ := by
  unfold Passes
  cases hb : c.bigEndian <;> cases hd : c.debugAssertions <;> cases hl : c.llvm <;>
    runT [hb, hd, hl, U256.sub_assign, U256.sub, U256.wrapping_sub, U256.overflowing_sub, Intr.sub3, Intr.usubc, Intr.sub2, Native.sub3, Native.usubc, Native.sub2]
theorem U256.sub_passes (c : Cfg) (x0 x1 y0 y1 : U128) :
    Passes (calling (U256.sub c)) ⟨some x0, some x1⟩ ⟨some y0, some y1⟩ := by
  unfold Passes
  cases hb : c.bigEndian <;> cases hd : c.debugAssertions <;> cases hl : c.llvm <;>
    runT [hb, hd, hl, U256.sub_assign, U256.sub, U256.wrapping_sub, U256.overflowing_sub, Intr.sub3, Intr.usubc, Intr.sub2, Native.sub3, Native.usubc, Native.sub2]
theorem U256.wrapping_sub_passes (c : Cfg) (x0 x1 y0 y1 : U128) :
    Passes (calling (U256.wrapping_sub c)) ⟨some x0, some x1⟩ ⟨some y0, some y1⟩ := by
  unfold Passes
  cases hb : c.bigEndian <;> cases hd : c.debugAssertions <;> cases hl : c.llvm <;>
    runT [hb, hd, hl, U256.sub_assign, U256.sub, U256.wrapping_sub, U256.overflowing_sub, Intr.sub3, Intr.usubc, Intr.sub2, Native.sub3, Native.usubc, Native.sub2]
theorem U256.overflowing_sub_passes (c : Cfg) (x0 x1 y0 y1 : U128) :
    Passes (calling (U256.overflowing_sub c)) ⟨some x0, some x1⟩ ⟨some y0, some y1⟩ := by
  unfold Passes
  cases hb : c.bigEndian <;> cases hd : c.debugAssertions <;> cases hl : c.llvm <;>
    runT [hb, hd, hl, U256.sub_assign, U256.sub, U256.wrapping_sub, U256.overflowing_sub, Intr.sub3, Intr.usubc, Intr.sub2, Native.sub3, Native.usubc, Native.sub2]
theorem I256.sub_assign_passes (c : Cfg) (x0 x1 y0 y1 : U128) :
    Passes (assigning (I256.sub_assign c)) ⟨some x0, some x1⟩ ⟨some y0, some y1⟩ := by
  unfold Passes
  cases hb : c.bigEndian <;> cases hd : c.debugAssertions <;> cases hl : c.llvm <;>
    runT [hb, hd, hl, I256.sub_assign, I256.sub, I256.wrapping_sub, I256.overflowing_sub, Intr.sub3, Intr.isubc, Intr.sub2, Native.sub3, Native.isubc, Native.sub2]
theorem I256.sub_passes (c : Cfg) (x0 x1 y0 y1 : U128) :
    Passes (calling (I256.sub c)) ⟨some x0, some x1⟩ ⟨some y0, some y1⟩ := by
  unfold Passes
  cases hb : c.bigEndian <;> cases hd : c.debugAssertions <;> cases hl : c.llvm <;>
    runT [hb, hd, hl, I256.sub_assign, I256.sub, I256.wrapping_sub, I256.overflowing_sub, Intr.sub3, Intr.isubc, Intr.sub2, Native.sub3, Native.isubc, Native.sub2]
theorem I256.wrapping_sub_passes (c : Cfg) (x0 x1 y0 y1 : U128) :
    Passes (calling (I256.wrapping_sub c)) ⟨some x0, some x1⟩ ⟨some y0, some y1⟩ := by
  unfold Passes
  cases hb : c.bigEndian <;> cases hd : c.debugAssertions <;> cases hl : c.llvm <;>
    runT [hb, hd, hl, I256.sub_assign, I256.sub, I256.wrapping_sub, I256.overflowing_sub, Intr.sub3, Intr.isubc, Intr.sub2, Native.sub3, Native.isubc, Native.sub2]
theorem I256.overflowing_sub_passes (c : Cfg) (x0 x1 y0 y1 : U128) :
    Passes (calling (I256.overflowing_sub c)) ⟨some x0, some x1⟩ ⟨some y0, some y1⟩ := by
  unfold Passes
  cases hb : c.bigEndian <;> cases hd : c.debugAssertions <;> cases hl : c.llvm <;>
    runT [hb, hd, hl, I256.sub_assign, I256.sub, I256.wrapping_sub, I256.overflowing_sub, Intr.sub3, Intr.isubc, Intr.sub2, Native.sub3, Native.isubc, Native.sub2]

end Ethnum.Alias
