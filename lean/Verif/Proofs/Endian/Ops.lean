import Verif.Proofs.Endian.Convert

namespace Ethnum

/-- The same right operand on the other target. -/
def ShiftBy.mv {c : Cfg} : ShiftBy c → ShiftBy c.other
  | .prim t b => .prim t b
  | .u256 b => .u256 (Ethnum.mv b)
  | .i256 b => .i256 (Ethnum.mv b)

attribute [mv_push] U256.withPrim U256.primWith I256.withPrim I256.primWith
namespace U256
@[mv_push] theorem add_mv (c : Cfg) (a b : U256) : mv (add c a b) = add c.other (mv a) (mv b) := by
  unfold add; rw [← Intr.uaddc_mv]; generalize Intr.uaddc c a b = p; obtain ⟨r, o⟩ := p; mv_auto
@[mv_push] theorem sub_mv (c : Cfg) (a b : U256) : mv (sub c a b) = sub c.other (mv a) (mv b) := by
  unfold sub; rw [← Intr.usubc_mv]; generalize Intr.usubc c a b = p; obtain ⟨r, o⟩ := p; mv_auto
@[mv_push] theorem mul_mv (c : Cfg) (a b : U256) : mv (mul c a b) = mul c.other (mv a) (mv b) := by
  unfold mul; mv_auto
@[mv_push] theorem div_mv (c : Cfg) (a b : U256) : mv (div c a b) = div c.other (mv a) (mv b) := by
  unfold div; mv_auto
@[mv_push] theorem rem_mv (c : Cfg) (a b : U256) : mv (rem c a b) = rem c.other (mv a) (mv b) := by
  unfold rem; mv_auto
@[mv_push] theorem add_assign_mv (c : Cfg) (a b : U256) : mv (add_assign c a b) = add_assign c.other (mv a) (mv b) := by
  unfold add_assign; mv_auto
@[mv_push] theorem sub_assign_mv (c : Cfg) (a b : U256) : mv (sub_assign c a b) = sub_assign c.other (mv a) (mv b) := by
  unfold sub_assign; mv_auto
@[mv_push] theorem mul_assign_mv (c : Cfg) (a b : U256) : mv (mul_assign c a b) = mul_assign c.other (mv a) (mv b) := by
  unfold mul_assign; mv_auto
@[mv_push] theorem div_assign_mv (c : Cfg) (a b : U256) : mv (div_assign c a b) = div_assign c.other (mv a) (mv b) := by
  unfold div_assign; mv_auto
@[mv_push] theorem rem_assign_mv (c : Cfg) (a b : U256) : mv (rem_assign c a b) = rem_assign c.other (mv a) (mv b) := by
  unfold rem_assign; mv_auto
@[mv_push] theorem shl_assign_mv (c : Cfg) (a : U256) (b : U32) : mv (shl_assign c a b) = shl_assign c.other (mv a) b := by
  unfold shl_assign; mv_auto
@[mv_push] theorem shr_assign_mv (c : Cfg) (a : U256) (b : U32) : mv (shr_assign c a b) = shr_assign c.other (mv a) b := by
  unfold shr_assign; mv_auto
@[mv_push] theorem bitand_assign_mv (a b : U256) : mv (bitand_assign a b) = bitand_assign (mv a) (mv b) := by
  unfold bitand_assign; mv_auto
@[mv_push] theorem bitor_assign_mv (a b : U256) : mv (bitor_assign a b) = bitor_assign (mv a) (mv b) := by
  unfold bitor_assign; mv_auto
@[mv_push] theorem bitxor_assign_mv (a b : U256) : mv (bitxor_assign a b) = bitxor_assign (mv a) (mv b) := by
  unfold bitxor_assign; mv_auto
end U256
namespace I256
@[mv_push] theorem div_mv (c : Cfg) (a b : I256) : mv (div c a b) = div c.other (mv a) (mv b) := by
  unfold div; mv_auto
@[mv_push] theorem rem_mv (c : Cfg) (a b : I256) : mv (rem c a b) = rem c.other (mv a) (mv b) := by
  unfold rem; mv_auto
@[mv_push] theorem neg_mv (c : Cfg) (x : I256) : mv (neg c x) = neg c.other (mv x) := by
  unfold neg; mv_auto
end I256
@[mv_push] theorem Intr.imulc_mv (c : Cfg) (a b : I256) : mv (Intr.imulc c a b) = Intr.imulc c.other (mv a) (mv b) := by
  unfold Intr.imulc; mv_auto
namespace I256
@[mv_push] theorem add_mv (c : Cfg) (a b : I256) : mv (add c a b) = add c.other (mv a) (mv b) := by
  unfold add; rw [← Intr.iaddc_mv]; generalize Intr.iaddc c a b = p; obtain ⟨r, o⟩ := p; mv_auto
@[mv_push] theorem sub_mv (c : Cfg) (a b : I256) : mv (sub c a b) = sub c.other (mv a) (mv b) := by
  unfold sub; rw [← Intr.isubc_mv]; generalize Intr.isubc c a b = p; obtain ⟨r, o⟩ := p; mv_auto
@[mv_push] theorem mul_mv (c : Cfg) (a b : I256) : mv (mul c a b) = mul c.other (mv a) (mv b) := by
  unfold mul; mv_auto
@[mv_push] theorem add_assign_mv (c : Cfg) (a b : I256) : mv (add_assign c a b) = add_assign c.other (mv a) (mv b) := by
  unfold add_assign; mv_auto
@[mv_push] theorem sub_assign_mv (c : Cfg) (a b : I256) : mv (sub_assign c a b) = sub_assign c.other (mv a) (mv b) := by
  unfold sub_assign; mv_auto
@[mv_push] theorem mul_assign_mv (c : Cfg) (a b : I256) : mv (mul_assign c a b) = mul_assign c.other (mv a) (mv b) := by
  unfold mul_assign; mv_auto
@[mv_push] theorem div_assign_mv (c : Cfg) (a b : I256) : mv (div_assign c a b) = div_assign c.other (mv a) (mv b) := by
  unfold div_assign; mv_auto
@[mv_push] theorem rem_assign_mv (c : Cfg) (a b : I256) : mv (rem_assign c a b) = rem_assign c.other (mv a) (mv b) := by
  unfold rem_assign; mv_auto
@[mv_push] theorem shl_assign_mv (c : Cfg) (a : I256) (b : U32) : mv (shl_assign c a b) = shl_assign c.other (mv a) b := by
  unfold shl_assign; mv_auto
@[mv_push] theorem shr_assign_mv (c : Cfg) (a : I256) (b : U32) : mv (shr_assign c a b) = shr_assign c.other (mv a) b := by
  unfold shr_assign; mv_auto
@[mv_push] theorem bitand_assign_mv (a b : I256) : mv (bitand_assign a b) = bitand_assign (mv a) (mv b) := by
  unfold bitand_assign; mv_auto
@[mv_push] theorem bitor_assign_mv (a b : I256) : mv (bitor_assign a b) = bitor_assign (mv a) (mv b) := by
  unfold bitor_assign; mv_auto
@[mv_push] theorem bitxor_assign_mv (a b : I256) : mv (bitxor_assign a b) = bitxor_assign (mv a) (mv b) := by
  unfold bitxor_assign; mv_auto
end I256
@[mv_push] theorem shiftAmountPrim_mv (c : Cfg) (t : PrimTy) (b : t.Val c) : shiftAmountPrim c.other t b = shiftAmountPrim c t b := by
  unfold shiftAmountPrim; mv_base_auto
@[mv_push] theorem shiftAmountU_mv (c : Cfg) (b : U256) : shiftAmountU c.other b = shiftAmountU c (mv b) := by
  unfold shiftAmountU; mv_base_auto
@[mv_push] theorem shiftAmountI_mv (c : Cfg) (b : I256) : shiftAmountI c.other b = shiftAmountI c (mv b) := by
  unfold shiftAmountI; mv_base_auto
theorem ShiftBy.amount_mv {c : Cfg} (b : ShiftBy c) : b.mv.amount = b.amount := by
  cases b with
  | prim t b => exact shiftAmountPrim_mv c t b
  | u256 b => exact (shiftAmountU_mv c (Ethnum.mv b)).trans (by rw [Mv.inv]; rfl)
  | i256 b => exact (shiftAmountI_mv c (Ethnum.mv b)).trans (by rw [Mv.inv]; rfl)
@[mv_push] theorem U256.shlBy_mv (c : Cfg) (a : U256) (b : ShiftBy c) : mv (U256.shlBy c a b) = U256.shlBy c.other (mv a) b.mv := by
  unfold U256.shlBy; rw [ShiftBy.amount_mv]; mv_auto
@[mv_push] theorem U256.shrBy_mv (c : Cfg) (a : U256) (b : ShiftBy c) : mv (U256.shrBy c a b) = U256.shrBy c.other (mv a) b.mv := by
  unfold U256.shrBy; rw [ShiftBy.amount_mv]; mv_auto
@[mv_push] theorem I256.shlBy_mv (c : Cfg) (a : I256) (b : ShiftBy c) : mv (I256.shlBy c a b) = I256.shlBy c.other (mv a) b.mv := by
  unfold I256.shlBy; rw [ShiftBy.amount_mv]; mv_auto
@[mv_push] theorem I256.shrBy_mv (c : Cfg) (a : I256) (b : ShiftBy c) : mv (I256.shrBy c a b) = I256.shrBy c.other (mv a) b.mv := by
  unfold I256.shrBy; rw [ShiftBy.amount_mv]; mv_auto
@[mv_push] theorem U256.shlAssignBy_mv (c : Cfg) (a : U256) (b : ShiftBy c) : mv (U256.shlAssignBy c a b) = U256.shlAssignBy c.other (mv a) b.mv := by
  unfold U256.shlAssignBy; rw [ShiftBy.amount_mv]; mv_auto
@[mv_push] theorem U256.shrAssignBy_mv (c : Cfg) (a : U256) (b : ShiftBy c) : mv (U256.shrAssignBy c a b) = U256.shrAssignBy c.other (mv a) b.mv := by
  unfold U256.shrAssignBy; rw [ShiftBy.amount_mv]; mv_auto
@[mv_push] theorem I256.shlAssignBy_mv (c : Cfg) (a : I256) (b : ShiftBy c) : mv (I256.shlAssignBy c a b) = I256.shlAssignBy c.other (mv a) b.mv := by
  unfold I256.shlAssignBy; rw [ShiftBy.amount_mv]; mv_auto
@[mv_push] theorem I256.shrAssignBy_mv (c : Cfg) (a : I256) (b : ShiftBy c) : mv (I256.shrAssignBy c a b) = I256.shrAssignBy c.other (mv a) b.mv := by
  unfold I256.shrAssignBy; rw [ShiftBy.amount_mv]; mv_auto
end Ethnum
