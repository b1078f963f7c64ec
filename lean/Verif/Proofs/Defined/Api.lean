import Verif.Proofs.Defined.Basic
import Verif.Proofs.Ops
import Verif.Proofs.Pow
import Verif.Props.UArith
import Verif.Props.IArith

/-!
The arithmetic of both types returns or panics. Division is settled by its correctness; the rest
follows the structure of the model.
-/

namespace Ethnum

@[defd] theorem Native.umulddi3_defined (c : Cfg) (a1 : U128) (a2 : U128) : Defined (Native.umulddi3 c a1 a2) := by
  unfold Native.umulddi3; defined
@[defd] theorem Native.mul3_defined (c : Cfg) (a1 : U256) (a2 : U256) : Defined (Native.mul3 c a1 a2) := by
  unfold Native.mul3; defined
@[defd] theorem Intr.mul3_defined (c : Cfg) (a1 : U256) (a2 : U256) : Defined (Intr.mul3 c a1 a2) := by
  unfold Intr.mul3; defined
@[defd] theorem Native.mul2_defined (c : Cfg) (a1 : U256) (a2 : U256) : Defined (Native.mul2 c a1 a2) := by
  unfold Native.mul2; defined
@[defd] theorem Intr.mul2_defined (c : Cfg) (a1 : U256) (a2 : U256) : Defined (Intr.mul2 c a1 a2) := by
  unfold Intr.mul2; defined
@[defd] theorem Native.umulc_defined (c : Cfg) (a1 : U256) (a2 : U256) : Defined (Native.umulc c a1 a2) := by
  unfold Native.umulc; defined
@[defd] theorem Intr.umulc_defined (c : Cfg) (a1 : U256) (a2 : U256) : Defined (Intr.umulc c a1 a2) := by
  unfold Intr.umulc; defined
@[defd] theorem Native.shl2_defined (c : Cfg) (a1 : U256) (a2 : U32) : Defined (Native.shl2 c a1 a2) := by
  unfold Native.shl2; defined
@[defd] theorem Intr.shl2_defined (c : Cfg) (a1 : U256) (a2 : U32) : Defined (Intr.shl2 c a1 a2) := by
  unfold Intr.shl2; defined
@[defd] theorem Native.shl3_defined (c : Cfg) (a1 : U256) (a2 : U32) : Defined (Native.shl3 c a1 a2) := by
  unfold Native.shl3; defined
@[defd] theorem Intr.shl3_defined (c : Cfg) (a1 : U256) (a2 : U32) : Defined (Intr.shl3 c a1 a2) := by
  unfold Intr.shl3; defined
@[defd] theorem Native.shr2_defined (c : Cfg) (a1 : U256) (a2 : U32) : Defined (Native.shr2 c a1 a2) := by
  unfold Native.shr2; defined
@[defd] theorem Intr.shr2_defined (c : Cfg) (a1 : U256) (a2 : U32) : Defined (Intr.shr2 c a1 a2) := by
  unfold Intr.shr2; defined
@[defd] theorem Native.shr3_defined (c : Cfg) (a1 : U256) (a2 : U32) : Defined (Native.shr3 c a1 a2) := by
  unfold Native.shr3; defined
@[defd] theorem Intr.shr3_defined (c : Cfg) (a1 : U256) (a2 : U32) : Defined (Intr.shr3 c a1 a2) := by
  unfold Intr.shr3; defined
@[defd] theorem Native.sar2_defined (c : Cfg) (a1 : I256) (a2 : U32) : Defined (Native.sar2 c a1 a2) := by
  unfold Native.sar2; defined
@[defd] theorem Intr.sar2_defined (c : Cfg) (a1 : I256) (a2 : U32) : Defined (Intr.sar2 c a1 a2) := by
  unfold Intr.sar2; defined
@[defd] theorem Native.sar3_defined (c : Cfg) (a1 : I256) (a2 : U32) : Defined (Native.sar3 c a1 a2) := by
  unfold Native.sar3; defined
@[defd] theorem Intr.sar3_defined (c : Cfg) (a1 : I256) (a2 : U32) : Defined (Intr.sar3 c a1 a2) := by
  unfold Intr.sar3; defined
@[defd] theorem Native.ctlz_defined (c : Cfg) (a1 : U256) : Defined (Native.ctlz c a1) := by
  unfold Native.ctlz; defined
@[defd] theorem Intr.ctlz_defined (c : Cfg) (a1 : U256) : Defined (Intr.ctlz c a1) := by
  unfold Intr.ctlz; defined
@[defd] theorem Native.cttz_defined (c : Cfg) (a1 : U256) : Defined (Native.cttz c a1) := by
  unfold Native.cttz; defined
@[defd] theorem Intr.cttz_defined (c : Cfg) (a1 : U256) : Defined (Intr.cttz c a1) := by
  unfold Intr.cttz; defined
@[defd] theorem Intr.imul2_defined (c : Cfg) (a1 : I256) (a2 : I256) : Defined (Intr.imul2 c a1 a2) := by
  unfold Intr.imul2; defined
@[defd] theorem Intr.imul3_defined (c : Cfg) (a1 : I256) (a2 : I256) : Defined (Intr.imul3 c a1 a2) := by
  unfold Intr.imul3; defined
@[defd] theorem Intr.ishl2_defined (c : Cfg) (a1 : I256) (a2 : U32) : Defined (Intr.ishl2 c a1 a2) := by
  unfold Intr.ishl2; defined
@[defd] theorem Intr.ishl3_defined (c : Cfg) (a1 : I256) (a2 : U32) : Defined (Intr.ishl3 c a1 a2) := by
  unfold Intr.ishl3; defined
@[defd] theorem Intr.ictlz_defined (c : Cfg) (a1 : I256) : Defined (Intr.ictlz c a1) := by
  unfold Intr.ictlz; defined
@[defd] theorem Intr.icttz_defined (c : Cfg) (a1 : I256) : Defined (Intr.icttz c a1) := by
  unfold Intr.icttz; defined
@[defd] theorem U256.shl_defined (c : Cfg) (a1 : U256) (a2 : U32) : Defined (U256.shl c a1 a2) := by
  unfold U256.shl; defined
@[defd] theorem U256.shr_defined (c : Cfg) (a1 : U256) (a2 : U32) : Defined (U256.shr c a1 a2) := by
  unfold U256.shr; defined
@[defd] theorem I256.shl_defined (c : Cfg) (a1 : I256) (a2 : U32) : Defined (I256.shl c a1 a2) := by
  unfold I256.shl; defined
@[defd] theorem I256.shr_defined (c : Cfg) (a1 : I256) (a2 : U32) : Defined (I256.shr c a1 a2) := by
  unfold I256.shr; defined
@[defd] theorem Native.rol3_defined (c : Cfg) (a1 : U256) (a2 : U32) : Defined (Native.rol3 c a1 a2) := by
  unfold Native.rol3; defined
@[defd] theorem Intr.rol3_defined (c : Cfg) (a1 : U256) (a2 : U32) : Defined (Intr.rol3 c a1 a2) := by
  unfold Intr.rol3; defined
@[defd] theorem Native.ror3_defined (c : Cfg) (a1 : U256) (a2 : U32) : Defined (Native.ror3 c a1 a2) := by
  unfold Native.ror3; defined
@[defd] theorem Intr.ror3_defined (c : Cfg) (a1 : U256) (a2 : U32) : Defined (Intr.ror3 c a1 a2) := by
  unfold Intr.ror3; defined
@[defd] theorem Intr.irol3_defined (c : Cfg) (a1 : I256) (a2 : U32) : Defined (Intr.irol3 c a1 a2) := by
  unfold Intr.irol3; defined
@[defd] theorem Intr.iror3_defined (c : Cfg) (a1 : I256) (a2 : U32) : Defined (Intr.iror3 c a1 a2) := by
  unfold Intr.iror3; defined
@[defd] theorem Intr.udivmod4_defined (c : Cfg) (a1 : U256) (a2 : U256) (a3 : Bool) : Defined (Intr.udivmod4 c a1 a2 a3) := by
  by_cases h : a2.toNat c = 0
  · rw [Intr.udivmod4_zero c _ h]; exact .panic _
  · rw [Intr.udivmod4_eq c _ h]; exact .ok _
@[defd] theorem Intr.udiv2_defined (c : Cfg) (a1 : U256) (a2 : U256) : Defined (Intr.udiv2 c a1 a2) := by
  unfold Intr.udiv2; by_cases h : a2.toNat c = 0
  · rw [Intr.udivmod4_zero c _ h]; exact .panic _
  · rw [Intr.udivmod4_eq c _ h, ok_bind]; exact .ok _
@[defd] theorem Intr.udiv3_defined (c : Cfg) (a1 : U256) (a2 : U256) : Defined (Intr.udiv3 c a1 a2) := by
  unfold Intr.udiv3; by_cases h : a2.toNat c = 0
  · rw [Intr.udivmod4_zero c _ h]; exact .panic _
  · rw [Intr.udivmod4_eq c _ h, ok_bind]; exact .ok _
@[defd] theorem Intr.urem2_defined (c : Cfg) (a1 : U256) (a2 : U256) : Defined (Intr.urem2 c a1 a2) := by
  unfold Intr.urem2; by_cases h : a2.toNat c = 0
  · rw [Intr.udivmod4_zero c _ h]; exact .panic _
  · rw [Intr.udivmod4_eq c _ h, ok_bind]; exact .ok _
@[defd] theorem Intr.urem3_defined (c : Cfg) (a1 : U256) (a2 : U256) : Defined (Intr.urem3 c a1 a2) := by
  unfold Intr.urem3; by_cases h : a2.toNat c = 0
  · rw [Intr.udivmod4_zero c _ h]; exact .panic _
  · rw [Intr.udivmod4_eq c _ h, ok_bind]; exact .ok _
@[defd] theorem Intr.idivmod4_defined (c : Cfg) (a1 : I256) (a2 : I256) (a3 : Bool) : Defined (Intr.idivmod4 c a1 a2 a3) := by
  by_cases h : a2.toInt c = 0
  · rw [Intr.idivmod4_zero c _ h]; exact .panic _
  · rw [Intr.idivmod4_eq c _ h]; exact .ok _
@[defd] theorem Intr.idiv2_defined (c : Cfg) (a1 : I256) (a2 : I256) : Defined (Intr.idiv2 c a1 a2) := by
  unfold Intr.idiv2; by_cases h : a2.toInt c = 0
  · rw [Intr.idivmod4_zero c _ h]; exact .panic _
  · rw [Intr.idivmod4_eq c _ h, ok_bind]; exact .ok _
@[defd] theorem Intr.idiv3_defined (c : Cfg) (a1 : I256) (a2 : I256) : Defined (Intr.idiv3 c a1 a2) := by
  unfold Intr.idiv3; by_cases h : a2.toInt c = 0
  · rw [Intr.idivmod4_zero c _ h]; exact .panic _
  · rw [Intr.idivmod4_eq c _ h, ok_bind]; exact .ok _
@[defd] theorem Intr.irem2_defined (c : Cfg) (a1 : I256) (a2 : I256) : Defined (Intr.irem2 c a1 a2) := by
  unfold Intr.irem2; by_cases h : a2.toInt c = 0
  · rw [Intr.idivmod4_zero c _ h]; exact .panic _
  · rw [Intr.idivmod4_eq c _ h, ok_bind]; exact .ok _
@[defd] theorem Intr.irem3_defined (c : Cfg) (a1 : I256) (a2 : I256) : Defined (Intr.irem3 c a1 a2) := by
  unfold Intr.irem3; by_cases h : a2.toInt c = 0
  · rw [Intr.idivmod4_zero c _ h]; exact .panic _
  · rw [Intr.idivmod4_eq c _ h, ok_bind]; exact .ok _
@[defd] theorem U256.add_defined (c : Cfg) (a1 : U256) (a2 : U256) : Defined (U256.add c a1 a2) := by
  unfold U256.add; defined
@[defd] theorem U256.sub_defined (c : Cfg) (a1 : U256) (a2 : U256) : Defined (U256.sub c a1 a2) := by
  unfold U256.sub; defined
@[defd] theorem U256.mul_defined (c : Cfg) (a1 : U256) (a2 : U256) : Defined (U256.mul c a1 a2) := by
  unfold U256.mul; defined
@[defd] theorem U256.div_defined (c : Cfg) (a1 : U256) (a2 : U256) : Defined (U256.div c a1 a2) := by
  unfold U256.div; defined
@[defd] theorem U256.rem_defined (c : Cfg) (a1 : U256) (a2 : U256) : Defined (U256.rem c a1 a2) := by
  unfold U256.rem; defined
@[defd] theorem U256.add_assign_defined (c : Cfg) (a1 : U256) (a2 : U256) : Defined (U256.add_assign c a1 a2) := by
  unfold U256.add_assign; defined
@[defd] theorem U256.sub_assign_defined (c : Cfg) (a1 : U256) (a2 : U256) : Defined (U256.sub_assign c a1 a2) := by
  unfold U256.sub_assign; defined
@[defd] theorem U256.mul_assign_defined (c : Cfg) (a1 : U256) (a2 : U256) : Defined (U256.mul_assign c a1 a2) := by
  unfold U256.mul_assign; defined
@[defd] theorem U256.div_assign_defined (c : Cfg) (a1 : U256) (a2 : U256) : Defined (U256.div_assign c a1 a2) := by
  unfold U256.div_assign; defined
@[defd] theorem U256.rem_assign_defined (c : Cfg) (a1 : U256) (a2 : U256) : Defined (U256.rem_assign c a1 a2) := by
  unfold U256.rem_assign; defined
@[defd] theorem U256.shl_assign_defined (c : Cfg) (a1 : U256) (a2 : U32) : Defined (U256.shl_assign c a1 a2) := by
  unfold U256.shl_assign; defined
@[defd] theorem U256.shr_assign_defined (c : Cfg) (a1 : U256) (a2 : U32) : Defined (U256.shr_assign c a1 a2) := by
  unfold U256.shr_assign; defined
@[defd] theorem I256.div_defined (c : Cfg) (a1 : I256) (a2 : I256) : Defined (I256.div c a1 a2) := by
  unfold I256.div; defined
@[defd] theorem I256.rem_defined (c : Cfg) (a1 : I256) (a2 : I256) : Defined (I256.rem c a1 a2) := by
  unfold I256.rem; defined
@[defd] theorem I256.neg_defined (c : Cfg) (a1 : I256) : Defined (I256.neg c a1) := by
  unfold I256.neg; defined
@[defd] theorem Intr.imulc_defined (c : Cfg) (a1 : I256) (a2 : I256) : Defined (Intr.imulc c a1 a2) := by
  unfold Intr.imulc; defined
@[defd] theorem I256.add_defined (c : Cfg) (a1 : I256) (a2 : I256) : Defined (I256.add c a1 a2) := by
  unfold I256.add; defined
@[defd] theorem I256.sub_defined (c : Cfg) (a1 : I256) (a2 : I256) : Defined (I256.sub c a1 a2) := by
  unfold I256.sub; defined
@[defd] theorem I256.mul_defined (c : Cfg) (a1 : I256) (a2 : I256) : Defined (I256.mul c a1 a2) := by
  unfold I256.mul; defined
@[defd] theorem I256.add_assign_defined (c : Cfg) (a1 : I256) (a2 : I256) : Defined (I256.add_assign c a1 a2) := by
  unfold I256.add_assign; defined
@[defd] theorem I256.sub_assign_defined (c : Cfg) (a1 : I256) (a2 : I256) : Defined (I256.sub_assign c a1 a2) := by
  unfold I256.sub_assign; defined
@[defd] theorem I256.mul_assign_defined (c : Cfg) (a1 : I256) (a2 : I256) : Defined (I256.mul_assign c a1 a2) := by
  unfold I256.mul_assign; defined
@[defd] theorem I256.div_assign_defined (c : Cfg) (a1 : I256) (a2 : I256) : Defined (I256.div_assign c a1 a2) := by
  unfold I256.div_assign; defined
@[defd] theorem I256.rem_assign_defined (c : Cfg) (a1 : I256) (a2 : I256) : Defined (I256.rem_assign c a1 a2) := by
  unfold I256.rem_assign; defined
@[defd] theorem I256.shl_assign_defined (c : Cfg) (a1 : I256) (a2 : U32) : Defined (I256.shl_assign c a1 a2) := by
  unfold I256.shl_assign; defined
@[defd] theorem I256.shr_assign_defined (c : Cfg) (a1 : I256) (a2 : U32) : Defined (I256.shr_assign c a1 a2) := by
  unfold I256.shr_assign; defined
@[defd] theorem U256.shlBy_defined (c : Cfg) (a1 : U256) (a2 : ShiftBy c) : Defined (U256.shlBy c a1 a2) := by
  unfold U256.shlBy; defined
@[defd] theorem U256.shrBy_defined (c : Cfg) (a1 : U256) (a2 : ShiftBy c) : Defined (U256.shrBy c a1 a2) := by
  unfold U256.shrBy; defined
@[defd] theorem I256.shlBy_defined (c : Cfg) (a1 : I256) (a2 : ShiftBy c) : Defined (I256.shlBy c a1 a2) := by
  unfold I256.shlBy; defined
@[defd] theorem I256.shrBy_defined (c : Cfg) (a1 : I256) (a2 : ShiftBy c) : Defined (I256.shrBy c a1 a2) := by
  unfold I256.shrBy; defined
@[defd] theorem U256.shlAssignBy_defined (c : Cfg) (a1 : U256) (a2 : ShiftBy c) : Defined (U256.shlAssignBy c a1 a2) := by
  unfold U256.shlAssignBy; defined
@[defd] theorem U256.shrAssignBy_defined (c : Cfg) (a1 : U256) (a2 : ShiftBy c) : Defined (U256.shrAssignBy c a1 a2) := by
  unfold U256.shrAssignBy; defined
@[defd] theorem I256.shlAssignBy_defined (c : Cfg) (a1 : I256) (a2 : ShiftBy c) : Defined (I256.shlAssignBy c a1 a2) := by
  unfold I256.shlAssignBy; defined
@[defd] theorem I256.shrAssignBy_defined (c : Cfg) (a1 : I256) (a2 : ShiftBy c) : Defined (I256.shrAssignBy c a1 a2) := by
  unfold I256.shrAssignBy; defined
@[defd] theorem U256.count_ones_defined (c : Cfg) (a1 : U256) : Defined (U256.count_ones c a1) := by
  unfold U256.count_ones; defined
@[defd] theorem U256.count_zeros_defined (c : Cfg) (a1 : U256) : Defined (U256.count_zeros c a1) := by
  unfold U256.count_zeros; defined
@[defd] theorem U256.leading_zeros_defined (c : Cfg) (a1 : U256) : Defined (U256.leading_zeros c a1) := by
  unfold U256.leading_zeros; defined
@[defd] theorem U256.trailing_zeros_defined (c : Cfg) (a1 : U256) : Defined (U256.trailing_zeros c a1) := by
  unfold U256.trailing_zeros; defined
@[defd] theorem U256.leading_ones_defined (c : Cfg) (a1 : U256) : Defined (U256.leading_ones c a1) := by
  unfold U256.leading_ones; defined
@[defd] theorem U256.trailing_ones_defined (c : Cfg) (a1 : U256) : Defined (U256.trailing_ones c a1) := by
  unfold U256.trailing_ones; defined
@[defd] theorem U256.rotate_left_defined (c : Cfg) (a1 : U256) (a2 : U32) : Defined (U256.rotate_left c a1 a2) := by
  unfold U256.rotate_left; defined
@[defd] theorem U256.rotate_right_defined (c : Cfg) (a1 : U256) (a2 : U32) : Defined (U256.rotate_right c a1 a2) := by
  unfold U256.rotate_right; defined
@[defd] theorem U256.abs_diff_defined (c : Cfg) (a1 : U256) (a2 : U256) : Defined (U256.abs_diff c a1 a2) := by
  unfold U256.abs_diff; defined
@[defd] theorem U256.overflowing_mul_defined (c : Cfg) (a1 : U256) (a2 : U256) : Defined (U256.overflowing_mul c a1 a2) := by
  unfold U256.overflowing_mul; defined
@[defd] theorem U256.wrapping_mul_defined (c : Cfg) (a1 : U256) (a2 : U256) : Defined (U256.wrapping_mul c a1 a2) := by
  unfold U256.wrapping_mul; defined
@[defd] theorem U256.checked_mul_defined (c : Cfg) (a1 : U256) (a2 : U256) : Defined (U256.checked_mul c a1 a2) := by
  unfold U256.checked_mul; defined
@[defd] theorem U256.saturating_mul_defined (c : Cfg) (a1 : U256) (a2 : U256) : Defined (U256.saturating_mul c a1 a2) := by
  unfold U256.saturating_mul; defined
@[defd] theorem U256.div_euclid_defined (c : Cfg) (a1 : U256) (a2 : U256) : Defined (U256.div_euclid c a1 a2) := by
  unfold U256.div_euclid; defined
@[defd] theorem U256.rem_euclid_defined (c : Cfg) (a1 : U256) (a2 : U256) : Defined (U256.rem_euclid c a1 a2) := by
  unfold U256.rem_euclid; defined
@[defd] theorem U256.checked_div_defined (c : Cfg) (a1 : U256) (a2 : U256) : Defined (U256.checked_div c a1 a2) := by
  unfold U256.checked_div; defined
@[defd] theorem U256.checked_div_euclid_defined (c : Cfg) (a1 : U256) (a2 : U256) : Defined (U256.checked_div_euclid c a1 a2) := by
  unfold U256.checked_div_euclid; defined
@[defd] theorem U256.checked_rem_defined (c : Cfg) (a1 : U256) (a2 : U256) : Defined (U256.checked_rem c a1 a2) := by
  unfold U256.checked_rem; defined
@[defd] theorem U256.checked_rem_euclid_defined (c : Cfg) (a1 : U256) (a2 : U256) : Defined (U256.checked_rem_euclid c a1 a2) := by
  unfold U256.checked_rem_euclid; defined
@[defd] theorem U256.wrapping_div_defined (c : Cfg) (a1 : U256) (a2 : U256) : Defined (U256.wrapping_div c a1 a2) := by
  unfold U256.wrapping_div; defined
@[defd] theorem U256.wrapping_div_euclid_defined (c : Cfg) (a1 : U256) (a2 : U256) : Defined (U256.wrapping_div_euclid c a1 a2) := by
  unfold U256.wrapping_div_euclid; defined
@[defd] theorem U256.wrapping_rem_defined (c : Cfg) (a1 : U256) (a2 : U256) : Defined (U256.wrapping_rem c a1 a2) := by
  unfold U256.wrapping_rem; defined
@[defd] theorem U256.wrapping_rem_euclid_defined (c : Cfg) (a1 : U256) (a2 : U256) : Defined (U256.wrapping_rem_euclid c a1 a2) := by
  unfold U256.wrapping_rem_euclid; defined
@[defd] theorem U256.saturating_div_defined (c : Cfg) (a1 : U256) (a2 : U256) : Defined (U256.saturating_div c a1 a2) := by
  unfold U256.saturating_div; defined
@[defd] theorem U256.overflowing_div_defined (c : Cfg) (a1 : U256) (a2 : U256) : Defined (U256.overflowing_div c a1 a2) := by
  unfold U256.overflowing_div; defined
@[defd] theorem U256.overflowing_div_euclid_defined (c : Cfg) (a1 : U256) (a2 : U256) : Defined (U256.overflowing_div_euclid c a1 a2) := by
  unfold U256.overflowing_div_euclid; defined
@[defd] theorem U256.overflowing_rem_defined (c : Cfg) (a1 : U256) (a2 : U256) : Defined (U256.overflowing_rem c a1 a2) := by
  unfold U256.overflowing_rem; defined
@[defd] theorem U256.overflowing_rem_euclid_defined (c : Cfg) (a1 : U256) (a2 : U256) : Defined (U256.overflowing_rem_euclid c a1 a2) := by
  unfold U256.overflowing_rem_euclid; defined
@[defd] theorem U256.div_rem_defined (c : Cfg) (a1 : U256) (a2 : U256) : Defined (U256.div_rem c a1 a2) := by
  by_cases h : a2.toNat c = 0
  · exact .of_panic (I256.U256_div_rem_zero c a1 a2 h)
  · exact .of_ok (I256.U256_div_rem_eq c a1 a2 h)
@[defd] theorem U256.div_rem_euclid_defined (c : Cfg) (a1 : U256) (a2 : U256) : Defined (U256.div_rem_euclid c a1 a2) := by
  unfold U256.div_rem_euclid; defined
@[defd] theorem U256.checked_div_rem_defined (c : Cfg) (a1 : U256) (a2 : U256) : Defined (U256.checked_div_rem c a1 a2) := by
  by_cases h : a2.toNat c = 0
  · exact .of_ok (C04_zero c a1 a2 h).2.2.2.2.1
  · exact .of_ok (C04_div_rem c a1 a2 h).2.2.1
@[defd] theorem U256.checked_div_rem_euclid_defined (c : Cfg) (a1 : U256) (a2 : U256) : Defined (U256.checked_div_rem_euclid c a1 a2) := by
  unfold U256.checked_div_rem_euclid; defined
@[defd] theorem U256.saturating_div_rem_defined (c : Cfg) (a1 : U256) (a2 : U256) : Defined (U256.saturating_div_rem c a1 a2) := by
  unfold U256.saturating_div_rem; defined
@[defd] theorem U256.saturating_div_rem_euclid_defined (c : Cfg) (a1 : U256) (a2 : U256) : Defined (U256.saturating_div_rem_euclid c a1 a2) := by
  unfold U256.saturating_div_rem_euclid; defined
@[defd] theorem U256.wrapping_div_rem_defined (c : Cfg) (a1 : U256) (a2 : U256) : Defined (U256.wrapping_div_rem c a1 a2) := by
  unfold U256.wrapping_div_rem; defined
@[defd] theorem U256.wrapping_div_rem_euclid_defined (c : Cfg) (a1 : U256) (a2 : U256) : Defined (U256.wrapping_div_rem_euclid c a1 a2) := by
  unfold U256.wrapping_div_rem_euclid; defined
@[defd] theorem U256.overflowing_div_rem_defined (c : Cfg) (a1 : U256) (a2 : U256) : Defined (U256.overflowing_div_rem c a1 a2) := by
  unfold U256.overflowing_div_rem; defined
@[defd] theorem U256.overflowing_div_rem_euclid_defined (c : Cfg) (a1 : U256) (a2 : U256) : Defined (U256.overflowing_div_rem_euclid c a1 a2) := by
  unfold U256.overflowing_div_rem_euclid; defined
@[defd] theorem U256.wrapping_shl_defined (c : Cfg) (a1 : U256) (a2 : U32) : Defined (U256.wrapping_shl c a1 a2) := by
  unfold U256.wrapping_shl; defined
@[defd] theorem U256.wrapping_shr_defined (c : Cfg) (a1 : U256) (a2 : U32) : Defined (U256.wrapping_shr c a1 a2) := by
  unfold U256.wrapping_shr; defined
@[defd] theorem U256.overflowing_shl_defined (c : Cfg) (a1 : U256) (a2 : U32) : Defined (U256.overflowing_shl c a1 a2) := by
  unfold U256.overflowing_shl; defined
@[defd] theorem U256.overflowing_shr_defined (c : Cfg) (a1 : U256) (a2 : U32) : Defined (U256.overflowing_shr c a1 a2) := by
  unfold U256.overflowing_shr; defined
@[defd] theorem U256.checked_shl_defined (c : Cfg) (a1 : U256) (a2 : U32) : Defined (U256.checked_shl c a1 a2) := by
  unfold U256.checked_shl; defined
@[defd] theorem U256.checked_shr_defined (c : Cfg) (a1 : U256) (a2 : U32) : Defined (U256.checked_shr c a1 a2) := by
  unfold U256.checked_shr; defined
@[defd] theorem U256.checked_pow_defined (c : Cfg) (a1 : U256) (a2 : U32) : Defined (U256.checked_pow c a1 a2) := .of_ok (U256.checked_pow_eq c a1 a2)
@[defd] theorem U256.saturating_pow_defined (c : Cfg) (a1 : U256) (a2 : U32) : Defined (U256.saturating_pow c a1 a2) := by
  unfold U256.saturating_pow; defined
@[defd] theorem U256.wrapping_pow_defined (c : Cfg) (a1 : U256) (a2 : U32) : Defined (U256.wrapping_pow c a1 a2) := .of_ok (U256.wrapping_pow_eq c a1 a2)
@[defd] theorem U256.overflowing_pow_defined (c : Cfg) (a1 : U256) (a2 : U32) : Defined (U256.overflowing_pow c a1 a2) := .of_ok (U256.overflowing_pow_eq c a1 a2)
@[defd] theorem U256.pow_defined (c : Cfg) (a1 : U256) (a2 : U32) : Defined (U256.pow c a1 a2) := by
  rw [U256.pow_eq]; defined
@[defd] theorem U256.is_power_of_two_defined (c : Cfg) (a1 : U256) : Defined (U256.is_power_of_two c a1) := by
  unfold U256.is_power_of_two; defined
@[defd] theorem U256.one_less_than_next_power_of_two_defined (c : Cfg) (a1 : U256) : Defined (U256.one_less_than_next_power_of_two c a1) := by
  unfold U256.one_less_than_next_power_of_two; defined
@[defd] theorem U256.next_power_of_two_defined (c : Cfg) (a1 : U256) : Defined (U256.next_power_of_two c a1) := by
  unfold U256.next_power_of_two; defined
@[defd] theorem U256.checked_next_power_of_two_defined (c : Cfg) (a1 : U256) : Defined (U256.checked_next_power_of_two c a1) := by
  unfold U256.checked_next_power_of_two; defined
@[defd] theorem U256.sum_defined (c : Cfg) (a1 : List U256) : Defined (U256.sum c a1) := by
  unfold U256.sum; exact .foldlM (fun _ _ => by defined) _ _
@[defd] theorem U256.product_defined (c : Cfg) (a1 : List U256) : Defined (U256.product c a1) := by
  unfold U256.product; exact .foldlM (fun _ _ => by defined) _ _
@[defd] theorem I256.count_ones_defined (c : Cfg) (a1 : I256) : Defined (I256.count_ones c a1) := by
  unfold I256.count_ones; defined
@[defd] theorem I256.count_zeros_defined (c : Cfg) (a1 : I256) : Defined (I256.count_zeros c a1) := by
  unfold I256.count_zeros; defined
@[defd] theorem I256.leading_zeros_defined (c : Cfg) (a1 : I256) : Defined (I256.leading_zeros c a1) := by
  unfold I256.leading_zeros; defined
@[defd] theorem I256.trailing_zeros_defined (c : Cfg) (a1 : I256) : Defined (I256.trailing_zeros c a1) := by
  unfold I256.trailing_zeros; defined
@[defd] theorem I256.leading_ones_defined (c : Cfg) (a1 : I256) : Defined (I256.leading_ones c a1) := by
  unfold I256.leading_ones; defined
@[defd] theorem I256.trailing_ones_defined (c : Cfg) (a1 : I256) : Defined (I256.trailing_ones c a1) := by
  unfold I256.trailing_ones; defined
@[defd] theorem I256.rotate_left_defined (c : Cfg) (a1 : I256) (a2 : U32) : Defined (I256.rotate_left c a1 a2) := by
  unfold I256.rotate_left; defined
@[defd] theorem I256.rotate_right_defined (c : Cfg) (a1 : I256) (a2 : U32) : Defined (I256.rotate_right c a1 a2) := by
  unfold I256.rotate_right; defined
@[defd] theorem I256.overflowing_neg_defined (c : Cfg) (a1 : I256) : Defined (I256.overflowing_neg c a1) := by
  unfold I256.overflowing_neg; defined
@[defd] theorem I256.checked_neg_defined (c : Cfg) (a1 : I256) : Defined (I256.checked_neg c a1) := by
  unfold I256.checked_neg; defined
@[defd] theorem I256.checked_abs_defined (c : Cfg) (a1 : I256) : Defined (I256.checked_abs c a1) := by
  unfold I256.checked_abs; defined
@[defd] theorem I256.abs_defined (c : Cfg) (a1 : I256) : Defined (I256.abs c a1) := by
  unfold I256.abs; defined
@[defd] theorem I256.overflowing_mul_defined (c : Cfg) (a1 : I256) (a2 : I256) : Defined (I256.overflowing_mul c a1 a2) := by
  unfold I256.overflowing_mul; defined
@[defd] theorem I256.wrapping_mul_defined (c : Cfg) (a1 : I256) (a2 : I256) : Defined (I256.wrapping_mul c a1 a2) := by
  unfold I256.wrapping_mul; defined
@[defd] theorem I256.checked_mul_defined (c : Cfg) (a1 : I256) (a2 : I256) : Defined (I256.checked_mul c a1 a2) := by
  unfold I256.checked_mul; defined
@[defd] theorem I256.saturating_mul_defined (c : Cfg) (a1 : I256) (a2 : I256) : Defined (I256.saturating_mul c a1 a2) := by
  unfold I256.saturating_mul; defined
@[defd] theorem I256.div_euclid_defined (c : Cfg) (a1 : I256) (a2 : I256) : Defined (I256.div_euclid c a1 a2) := by
  unfold I256.div_euclid; defined
@[defd] theorem I256.rem_euclid_defined (c : Cfg) (a1 : I256) (a2 : I256) : Defined (I256.rem_euclid c a1 a2) := by
  unfold I256.rem_euclid; defined
@[defd] theorem I256.checked_div_defined (c : Cfg) (a1 : I256) (a2 : I256) : Defined (I256.checked_div c a1 a2) := by
  unfold I256.checked_div; defined
@[defd] theorem I256.checked_div_euclid_defined (c : Cfg) (a1 : I256) (a2 : I256) : Defined (I256.checked_div_euclid c a1 a2) := by
  unfold I256.checked_div_euclid; defined
@[defd] theorem I256.checked_rem_defined (c : Cfg) (a1 : I256) (a2 : I256) : Defined (I256.checked_rem c a1 a2) := by
  unfold I256.checked_rem; defined
@[defd] theorem I256.checked_rem_euclid_defined (c : Cfg) (a1 : I256) (a2 : I256) : Defined (I256.checked_rem_euclid c a1 a2) := by
  unfold I256.checked_rem_euclid; defined
@[defd] theorem I256.overflowing_div_defined (c : Cfg) (a1 : I256) (a2 : I256) : Defined (I256.overflowing_div c a1 a2) := by
  unfold I256.overflowing_div; defined
@[defd] theorem I256.overflowing_div_euclid_defined (c : Cfg) (a1 : I256) (a2 : I256) : Defined (I256.overflowing_div_euclid c a1 a2) := by
  unfold I256.overflowing_div_euclid; defined
@[defd] theorem I256.overflowing_rem_defined (c : Cfg) (a1 : I256) (a2 : I256) : Defined (I256.overflowing_rem c a1 a2) := by
  unfold I256.overflowing_rem; defined
@[defd] theorem I256.overflowing_rem_euclid_defined (c : Cfg) (a1 : I256) (a2 : I256) : Defined (I256.overflowing_rem_euclid c a1 a2) := by
  unfold I256.overflowing_rem_euclid; defined
@[defd] theorem I256.wrapping_div_defined (c : Cfg) (a1 : I256) (a2 : I256) : Defined (I256.wrapping_div c a1 a2) := by
  unfold I256.wrapping_div; defined
@[defd] theorem I256.wrapping_div_euclid_defined (c : Cfg) (a1 : I256) (a2 : I256) : Defined (I256.wrapping_div_euclid c a1 a2) := by
  unfold I256.wrapping_div_euclid; defined
@[defd] theorem I256.wrapping_rem_defined (c : Cfg) (a1 : I256) (a2 : I256) : Defined (I256.wrapping_rem c a1 a2) := by
  unfold I256.wrapping_rem; defined
@[defd] theorem I256.wrapping_rem_euclid_defined (c : Cfg) (a1 : I256) (a2 : I256) : Defined (I256.wrapping_rem_euclid c a1 a2) := by
  unfold I256.wrapping_rem_euclid; defined
@[defd] theorem I256.saturating_div_defined (c : Cfg) (a1 : I256) (a2 : I256) : Defined (I256.saturating_div c a1 a2) := by
  unfold I256.saturating_div; defined
@[defd] theorem I256.wrapping_div_rem_defined (c : Cfg) (a1 : I256) (a2 : I256) : Defined (I256.wrapping_div_rem c a1 a2) := by
  by_cases h : a2.toInt c = 0
  · have := (C08_zero c a1 a2 h).2.2.2.2.2.2.2.2.2.2.2.1
    exact .inr this
  · have hcmp : (I256.cmp c a2 I256.ZERO == .eq) = false := by
      rw [I256.cmp_eq, I256.toInt_ZERO, beq_eq_false_iff_ne]
      intro h'; exact h (compare_eq_iff_eq.1 h')
    have h1 : a2.eq_prim c 0 = false := by rw [I256.eq_prim_eq, toInt_0]; exact decide_eq_false h
    unfold I256.wrapping_div_rem
    rw [h1, if_neg (by decide), unreachableIf_ok hcmp, ok_bind, Intr.idivmod4_eq c _ h]
    exact .ok _
@[defd] theorem I256.div_rem_defined (c : Cfg) (a1 : I256) (a2 : I256) : Defined (I256.div_rem c a1 a2) := by
  unfold I256.div_rem; defined
@[defd] theorem I256.checked_div_rem_defined (c : Cfg) (a1 : I256) (a2 : I256) : Defined (I256.checked_div_rem c a1 a2) := by
  by_cases h : a2.toInt c = 0
  · exact .of_ok (C08_zero c a1 a2 h).2.2.1
  · have hcmp : (I256.cmp c a2 I256.ZERO == .eq) = false := by
      rw [I256.cmp_eq, I256.toInt_ZERO, beq_eq_false_iff_ne]
      intro h'; exact h (compare_eq_iff_eq.1 h')
    unfold I256.checked_div_rem
    refine .ite (fun _ => .pure _) (fun _ => ?_)
    rw [unreachableIf_ok hcmp, ok_bind, Intr.idivmod4_eq c _ h]
    exact .ok _
@[defd] theorem I256.overflowing_div_rem_defined (c : Cfg) (a1 : I256) (a2 : I256) : Defined (I256.overflowing_div_rem c a1 a2) := by
  unfold I256.overflowing_div_rem; defined
@[defd] theorem I256.saturating_div_rem_defined (c : Cfg) (a1 : I256) (a2 : I256) : Defined (I256.saturating_div_rem c a1 a2) := by
  unfold I256.saturating_div_rem; defined
@[defd] theorem I256.euclidQuot_defined (c : Cfg) (a1 : Bool) (a2 : Bool) (a3 : I256) : Defined (I256.euclidQuot c a1 a2 a3) := by
  unfold I256.euclidQuot; defined
@[defd] theorem I256.wrapping_div_rem_euclid_defined (c : Cfg) (a1 : I256) (a2 : I256) : Defined (I256.wrapping_div_rem_euclid c a1 a2) := by
  by_cases h : a2.toInt c = 0
  · exact .of_panic (I256.wrapping_div_rem_euclid_zero c a1 a2 h)
  · rw [I256.wrapping_div_rem_euclid_eq c a1 a2 h]; defined
@[defd] theorem I256.div_rem_euclid_defined (c : Cfg) (a1 : I256) (a2 : I256) : Defined (I256.div_rem_euclid c a1 a2) := by
  unfold I256.div_rem_euclid; defined
@[defd] theorem I256.checked_div_rem_euclid_defined (c : Cfg) (a1 : I256) (a2 : I256) : Defined (I256.checked_div_rem_euclid c a1 a2) := by
  unfold I256.checked_div_rem_euclid
  refine .ite (fun _ => .pure _) (fun h1 => ?_)
  have h : a2.toInt c ≠ 0 := by
    intro h; apply h1; rw [I256.eq_prim_eq, toInt_0, h]; rfl
  have hcmp : (I256.cmp c a2 I256.ZERO == .eq) = false := by
    rw [I256.cmp_eq, I256.toInt_ZERO, beq_eq_false_iff_ne]
    intro h'; exact h (compare_eq_iff_eq.1 h')
  rw [unreachableIf_ok hcmp, ok_bind]
  exact .bind (I256.wrapping_div_rem_euclid_defined c a1 a2) (fun _ => .pure _)
@[defd] theorem I256.overflowing_div_rem_euclid_defined (c : Cfg) (a1 : I256) (a2 : I256) : Defined (I256.overflowing_div_rem_euclid c a1 a2) := by
  unfold I256.overflowing_div_rem_euclid; defined
@[defd] theorem I256.saturating_div_rem_euclid_defined (c : Cfg) (a1 : I256) (a2 : I256) : Defined (I256.saturating_div_rem_euclid c a1 a2) := by
  unfold I256.saturating_div_rem_euclid; defined
@[defd] theorem I256.wrapping_shl_defined (c : Cfg) (a1 : I256) (a2 : U32) : Defined (I256.wrapping_shl c a1 a2) := by
  unfold I256.wrapping_shl; defined
@[defd] theorem I256.wrapping_shr_defined (c : Cfg) (a1 : I256) (a2 : U32) : Defined (I256.wrapping_shr c a1 a2) := by
  unfold I256.wrapping_shr; defined
@[defd] theorem I256.overflowing_shl_defined (c : Cfg) (a1 : I256) (a2 : U32) : Defined (I256.overflowing_shl c a1 a2) := by
  unfold I256.overflowing_shl; defined
@[defd] theorem I256.overflowing_shr_defined (c : Cfg) (a1 : I256) (a2 : U32) : Defined (I256.overflowing_shr c a1 a2) := by
  unfold I256.overflowing_shr; defined
@[defd] theorem I256.checked_shl_defined (c : Cfg) (a1 : I256) (a2 : U32) : Defined (I256.checked_shl c a1 a2) := by
  unfold I256.checked_shl; defined
@[defd] theorem I256.checked_shr_defined (c : Cfg) (a1 : I256) (a2 : U32) : Defined (I256.checked_shr c a1 a2) := by
  unfold I256.checked_shr; defined
@[defd] theorem I256.checked_pow_defined (c : Cfg) (a1 : I256) (a2 : U32) : Defined (I256.checked_pow c a1 a2) := .of_ok (I256.checked_pow_eq c a1 a2)
@[defd] theorem I256.saturating_pow_defined (c : Cfg) (a1 : I256) (a2 : U32) : Defined (I256.saturating_pow c a1 a2) := by
  unfold I256.saturating_pow; defined
@[defd] theorem I256.wrapping_pow_defined (c : Cfg) (a1 : I256) (a2 : U32) : Defined (I256.wrapping_pow c a1 a2) := .of_ok (I256.wrapping_pow_eq c a1 a2)
@[defd] theorem I256.overflowing_pow_defined (c : Cfg) (a1 : I256) (a2 : U32) : Defined (I256.overflowing_pow c a1 a2) := .of_ok (I256.overflowing_pow_eq c a1 a2)
@[defd] theorem I256.pow_defined (c : Cfg) (a1 : I256) (a2 : U32) : Defined (I256.pow c a1 a2) := by
  rw [I256.pow_eq]; defined
@[defd] theorem I256.sum_defined (c : Cfg) (a1 : List I256) : Defined (I256.sum c a1) := by
  unfold I256.sum; exact .foldlM (fun _ _ => by defined) _ _
@[defd] theorem I256.product_defined (c : Cfg) (a1 : List I256) : Defined (I256.product c a1) := by
  unfold I256.product; exact .foldlM (fun _ _ => by defined) _ _

end Ethnum
