import Verif.Proofs.Shift
import Verif.Proofs.Convert
import Verif.Model.Ops
import Verif.SpecOps

/-
Shifts by amounts of any type, and shifts by 256 or more in builds without debug assertions.
-/

namespace Ethnum
namespace Native
variable (c : Cfg)

theorem shl2_eq_shl3 (a : U256) (b : U32) : shl2 c a b = shl3 c a b := by
  simp only [shl2, shl3, U256.from_words_high_low]
theorem shr2_eq_shr3 (a : U256) (b : U32) : shr2 c a b = shr3 c a b := by
  simp only [shr2, shr3, U256.from_words_high_low]
theorem sar2_eq_sar3 (a : I256) (b : U32) : sar2 c a b = sar3 c a b := by
  simp only [sar2, sar3, I256.from_words_high_low]

/-- The amount an oversized shift really uses: 128 plus the low seven bits. -/
def highShift (b : U32) : U32 := BitVec.ofNat 32 (128 + b.toNat % 128)

theorem toNat_highShift (b : U32) : (highShift b).toNat = 128 + b.toNat % 128 := by
  unfold highShift; rw [BitVec.toNat_ofNat]; omega

theorem highShift_and (b : U32) : highShift b &&& 0x7f = b &&& 0x7f := by
  apply BitVec.eq_of_toNat_eq
  rw [toNat_and_7f, toNat_and_7f, toNat_highShift]; omega

theorem branch_high {b : U32} (h : 128 ≤ b.toNat) : b ≠ 0 ∧ ¬ b < 128 := by
  refine ⟨fun e => ?_, fun e => ?_⟩
  · rw [u32_eq_zero_iff] at e; omega
  · have := (u32_lt_iff b 128 (by omega)).1 e; omega

theorem debugAssert_release (hc : c.debugAssertions = false) (b : Bool) : debugAssert c b = .ok () := by
  unfold debugAssert; rw [hc]; rfl

theorem shl3_high (hc : c.debugAssertions = false) (a : U256) {b : U32} (h : 128 ≤ b.toNat) :
    shl3 c a b = shl3 c a (highShift b) := by
  obtain ⟨h1, h2⟩ := branch_high h
  obtain ⟨h3, h4⟩ := branch_high (b := highShift b) (by rw [toNat_highShift]; omega)
  unfold shl3
  rw [debugAssert_release c hc, debugAssert_release c hc, if_neg h1, if_neg h2, if_neg h3, if_neg h4, highShift_and]

theorem shr3_high (hc : c.debugAssertions = false) (a : U256) {b : U32} (h : 128 ≤ b.toNat) :
    shr3 c a b = shr3 c a (highShift b) := by
  obtain ⟨h1, h2⟩ := branch_high h
  obtain ⟨h3, h4⟩ := branch_high (b := highShift b) (by rw [toNat_highShift]; omega)
  unfold shr3
  rw [debugAssert_release c hc, debugAssert_release c hc, if_neg h1, if_neg h2, if_neg h3, if_neg h4, highShift_and]

theorem sar3_high (hc : c.debugAssertions = false) (a : I256) {b : U32} (h : 128 ≤ b.toNat) :
    sar3 c a b = sar3 c a (highShift b) := by
  obtain ⟨h1, h2⟩ := branch_high h
  obtain ⟨h3, h4⟩ := branch_high (b := highShift b) (by rw [toNat_highShift]; omega)
  unfold sar3
  rw [debugAssert_release c hc, debugAssert_release c hc, if_neg h1, if_neg h2, if_neg h3, if_neg h4, highShift_and]

end Native

namespace Intr
variable (c : Cfg)

theorem shl2_eq_shl3 (a : U256) (b : U32) : shl2 c a b = shl3 c a b := by
  simp only [shl2, shl3, Native.shl2_eq_shl3, Llvm.shl2_eq_shl3]
theorem shr2_eq_shr3 (a : U256) (b : U32) : shr2 c a b = shr3 c a b := by
  simp only [shr2, shr3, Native.shr2_eq_shr3, Llvm.shr2_eq_shr3]
theorem sar2_eq_sar3 (a : I256) (b : U32) : sar2 c a b = sar3 c a b := by
  simp only [sar2, sar3, Native.sar2_eq_sar3, Llvm.sar2_eq_sar3]
theorem ishl2_eq_ishl3 (a : I256) (b : U32) : ishl2 c a b = ishl3 c a b := by
  simp only [ishl2, ishl3, shl2_eq_shl3]

/-- The amount a shift by 128 or more uses without debug assertions. -/
def bigShift (c : Cfg) (b : U32) : Nat := if c.llvm then b.toNat % 256 else 128 + b.toNat % 128

theorem shl3_release (hc : c.debugAssertions = false) (a : U256) {b : U32} (h : 128 ≤ b.toNat) :
    shl3 c a b = .ok (U256.ofNat c (a.toNat c * 2 ^ bigShift c b)) := by
  unfold shl3 bigShift; split
  · rw [Llvm.shl3_eq]
  · rw [Native.shl3_high c hc a h, Native.shl3_eq c a _ (by rw [Native.toNat_highShift]; omega), Native.toNat_highShift]
theorem shr3_release (hc : c.debugAssertions = false) (a : U256) {b : U32} (h : 128 ≤ b.toNat) :
    shr3 c a b = .ok (U256.ofNat c (a.toNat c / 2 ^ bigShift c b)) := by
  unfold shr3 bigShift; split
  · rw [Llvm.shr3_eq]
  · rw [Native.shr3_high c hc a h, Native.shr3_eq c a _ (by rw [Native.toNat_highShift]; omega), Native.toNat_highShift]
theorem sar3_release (hc : c.debugAssertions = false) (a : I256) {b : U32} (h : 128 ≤ b.toNat) :
    sar3 c a b = .ok (I256.ofInt c (a.toInt c / 2 ^ bigShift c b)) := by
  unfold sar3 bigShift; split
  · rw [Llvm.sar3_eq]
  · rw [Native.sar3_high c hc a h, Native.sar3_eq c a _ (by rw [Native.toNat_highShift]; omega), Native.toNat_highShift]
theorem ishl3_release (hc : c.debugAssertions = false) (a : I256) {b : U32} (h : 128 ≤ b.toNat) :
    ishl3 c a b = .ok (I256.ofInt c (a.toInt c * 2 ^ bigShift c b)) := by
  have hlt : bigShift c b < 256 := by unfold bigShift; split <;> omega
  have e := ishl3_eq c a (BitVec.ofNat 32 (bigShift c b)) (by rw [BitVec.toNat_ofNat]; omega)
  have e2 := shl3_eq c a.as_u256 (BitVec.ofNat 32 (bigShift c b)) (by rw [BitVec.toNat_ofNat]; omega)
  have hb : (BitVec.ofNat 32 (bigShift c b)).toNat = bigShift c b := by rw [BitVec.toNat_ofNat]; omega
  rw [hb] at e e2
  rw [← e]; unfold ishl3
  rw [shl3_release c hc _ h, e2]

end Intr

theorem gt_ff_true {b : U32} (h : 256 ≤ b.toNat) : decide (b > 0xff) = true := by
  rw [decide_eq_true_eq, gt_iff_lt, BitVec.lt_def]
  show 255 < b.toNat
  omega

namespace U256
variable (c : Cfg)

theorem shl_release (hc : c.debugAssertions = false) (a : U256) {b : U32} (h : 128 ≤ b.toNat) :
    a.shl c b = .ok (ofNat c (a.toNat c * 2 ^ Intr.bigShift c b)) := by
  unfold shl
  rw [hc, Bool.false_and, if_neg (by simp), Intr.shl3_release c hc a h]
theorem shr_release (hc : c.debugAssertions = false) (a : U256) {b : U32} (h : 128 ≤ b.toNat) :
    a.shr c b = .ok (ofNat c (a.toNat c / 2 ^ Intr.bigShift c b)) := by
  unfold shr
  rw [hc, Bool.false_and, if_neg (by simp), Intr.shr3_release c hc a h]
theorem shl_debug (hc : c.debugAssertions = true) (a : U256) {b : U32} (h : 256 ≤ b.toNat) :
    a.shl c b = .error (.panic .shlOverflow) := by
  unfold shl; rw [hc, gt_ff_true h]; rfl
theorem shr_debug (hc : c.debugAssertions = true) (a : U256) {b : U32} (h : 256 ≤ b.toNat) :
    a.shr c b = .error (.panic .shrOverflow) := by
  unfold shr; rw [hc, gt_ff_true h]; rfl
theorem shl_assign_eq (a : U256) (b : U32) : a.shl_assign c b = a.shl c b := by
  unfold shl_assign
  by_cases h : c.debugAssertions = true
  · rw [if_pos h]
  · rw [if_neg h, Intr.shl2_eq_shl3]; unfold shl; simp [h]
theorem shr_assign_eq (a : U256) (b : U32) : a.shr_assign c b = a.shr c b := by
  unfold shr_assign
  by_cases h : c.debugAssertions = true
  · rw [if_pos h]
  · rw [if_neg h, Intr.shr2_eq_shr3]; unfold shr; simp [h]
end U256

namespace I256
variable (c : Cfg)

theorem shl_release (hc : c.debugAssertions = false) (a : I256) {b : U32} (h : 128 ≤ b.toNat) :
    a.shl c b = .ok (ofInt c (a.toInt c * 2 ^ Intr.bigShift c b)) := by
  unfold shl
  rw [hc, Bool.false_and, if_neg (by simp), Intr.ishl3_release c hc a h]
theorem shr_release (hc : c.debugAssertions = false) (a : I256) {b : U32} (h : 128 ≤ b.toNat) :
    a.shr c b = .ok (ofInt c (a.toInt c / 2 ^ Intr.bigShift c b)) := by
  unfold shr
  rw [hc, Bool.false_and, if_neg (by simp), Intr.sar3_release c hc a h]
theorem shl_debug (hc : c.debugAssertions = true) (a : I256) {b : U32} (h : 256 ≤ b.toNat) :
    a.shl c b = .error (.panic .shlOverflow) := by
  unfold shl; rw [hc, gt_ff_true h]; rfl
theorem shr_debug (hc : c.debugAssertions = true) (a : I256) {b : U32} (h : 256 ≤ b.toNat) :
    a.shr c b = .error (.panic .shrOverflow) := by
  unfold shr; rw [hc, gt_ff_true h]; rfl
theorem shl_assign_eq (a : I256) (b : U32) : a.shl_assign c b = a.shl c b := by
  unfold shl_assign
  by_cases h : c.debugAssertions = true
  · rw [if_pos h]
  · rw [if_neg h, Intr.ishl2_eq_ishl3]; unfold shl; simp [h]
theorem shr_assign_eq (a : I256) (b : U32) : a.shr_assign c b = a.shr c b := by
  unfold shr_assign
  by_cases h : c.debugAssertions = true
  · rw [if_pos h]
  · rw [if_neg h, Intr.sar2_eq_sar3]; unfold shr; simp [h]
end I256

theorem toNat_u32TryFromOrMax (v : Int) :
    ((u32TryFromOrMax v).toNat : Int) = if 0 ≤ v ∧ v < 2 ^ 32 then v else 2 ^ 32 - 1 := by
  unfold u32TryFromOrMax
  split
  · rw [BitVec.toNat_ofInt]; omega
  · rfl

theorem PrimTy.toInt_u32 {c : Cfg} (v : PrimTy.u32.Val c) : PrimTy.u32.toInt v = v.toNat := rfl

theorem getD_prim_try_from (c : Cfg) (z : Int) (o : Option (PrimTy.u32.Val c))
    (h : ∀ v : PrimTy.u32.Val c, o = some v ↔ PrimTy.u32.toInt v = z) :
    ((unwrapOrMax32 o).toNat : Int) = if 0 ≤ z ∧ z < 2 ^ 32 then z else 2 ^ 32 - 1 := by
  cases o with
  | some v =>
    have := (h v).1 rfl
    rw [PrimTy.toInt_u32] at this
    have hv : v.toNat < 2 ^ 32 := v.isLt
    rw [if_pos (by omega)]; exact this
  | none =>
    rw [if_neg]; · rfl
    rintro ⟨h0, h1⟩
    have := (h (BitVec.ofInt 32 z)).2 (by show ((BitVec.ofInt 32 z).toNat : Int) = z; rw [BitVec.toNat_ofInt]; omega)
    simp at this

theorem ShiftBy.amount_debug {c : Cfg} (hc : c.debugAssertions = true) (b : ShiftBy c) :
    (b.amount.toNat : Int) = if 0 ≤ b.value ∧ b.value < 2 ^ 32 then b.value else 2 ^ 32 - 1 := by
  cases b with
  | prim t b => simp only [amount, shiftAmountPrim, value]; rw [if_pos hc]; exact toNat_u32TryFromOrMax _
  | u256 b =>
    simp only [amount, shiftAmountU, value]; rw [if_pos hc]
    exact getD_prim_try_from c _ _ (U256.prim_try_from_some c .u32 b)
  | i256 b =>
    simp only [amount, shiftAmountI, value]; rw [if_pos hc]
    exact getD_prim_try_from c _ _ (I256.prim_try_from_some c .u32 b)

theorem ShiftBy.amount_release {c : Cfg} (hc : c.debugAssertions = false) (b : ShiftBy c) :
    (b.amount.toNat : Int) = b.value % 2 ^ 32 := by
  cases b with
  | prim t b => simp only [amount, shiftAmountPrim, value]; rw [if_neg (by simp [hc]), t.toNat_castTo]
  | u256 b =>
    simp only [amount, shiftAmountU, value]; rw [if_neg (by simp [hc])]
    exact U256.toNat_as_prim c b .u32
  | i256 b =>
    simp only [amount, shiftAmountI, value]; rw [if_neg (by simp [hc])]
    exact I256.toNat_as_prim c b .u32

theorem ShiftBy.amount_small {c : Cfg} (b : ShiftBy c) (h0 : 0 ≤ b.value) (h1 : b.value < 256) :
    (b.amount.toNat : Int) = b.value := by
  by_cases hc : c.debugAssertions = true
  · rw [b.amount_debug hc, if_pos (by omega)]
  · rw [b.amount_release (by simpa using hc)]; omega

end Ethnum
