import Verif.Proofs.Words
import Verif.Proofs.Llvm
import Verif.Model.IntApi

/-! Addition and subtraction. -/

namespace Ethnum

theorem toNat_ofBool (w : Nat) (hw : 0 < w) (b : Bool) : (ofBool w b).toNat = if b then 1 else 0 := by
  cases b <;> simp [ofBool]; omega

@[simp] theorem toNat_ofBool128 (b : Bool) : (ofBool 128 b).toNat = if b then 1 else 0 :=
  toNat_ofBool 128 (by omega) b

namespace Native
variable (c : Cfg)

theorem add3_eq (a b : U256) : add3 c a b = U256.ofNat c (a.toNat c + b.toNat c) := by
  apply U256.eq_ofNat
  simp only [add3, overflowingAdd, U256.toNat_eq, U256.high_from_words, U256.low_from_words, BitVec.toNat_add,
    toNat_ofBool128, decide_eq_true_eq]
  have := (a.high c).isLt; have := (a.low c).isLt; have := (b.high c).isLt; have := (b.low c).isLt
  split <;> omega

theorem add2_eq (a b : U256) : add2 c a b = U256.ofNat c (a.toNat c + b.toNat c) := by
  rw [← add3_eq]
  simp [add2, add3, U256.set_low_eq, U256.set_high_eq]

theorem uaddc_eq (a b : U256) : uaddc c a b =
    (U256.ofNat c (a.toNat c + b.toNat c), decide (2 ^ 256 ≤ a.toNat c + b.toNat c)) := by
  have h1 := (a.high c).isLt; have h2 := (a.low c).isLt
  have h3 := (b.high c).isLt; have h4 := (b.low c).isLt
  apply Prod.ext
  · rw [← add3_eq]; rfl
  · rw [Bool.eq_iff_iff]
    simp only [uaddc, overflowingAdd, U256.toNat_eq, BitVec.toNat_add,
      toNat_ofBool128, decide_eq_true_eq, Bool.or_eq_true]
    split <;> omega

theorem sub3_eq (a b : U256) : sub3 c a b = U256.ofInt c (a.toNat c - b.toNat c) := by
  apply U256.eq_ofInt
  simp only [sub3, overflowingSub, U256.toNat_eq, U256.high_from_words, U256.low_from_words, BitVec.toNat_sub,
    toNat_ofBool128, decide_eq_true_eq]
  have := (a.high c).isLt; have := (a.low c).isLt; have := (b.high c).isLt; have := (b.low c).isLt
  split <;> omega

theorem sub2_eq (a b : U256) : sub2 c a b = U256.ofInt c (a.toNat c - b.toNat c) := by
  rw [← sub3_eq]
  simp [sub2, sub3, U256.set_low_eq, U256.set_high_eq]

theorem usubc_eq (a b : U256) : usubc c a b =
    (U256.ofInt c (a.toNat c - b.toNat c), decide (a.toNat c < b.toNat c)) := by
  have h1 := (a.high c).isLt; have h2 := (a.low c).isLt
  have h3 := (b.high c).isLt; have h4 := (b.low c).isLt
  apply Prod.ext
  · rw [← sub3_eq]; rfl
  · rw [Bool.eq_iff_iff]
    simp only [usubc, overflowingSub, U256.toNat_eq, BitVec.toNat_sub,
      toNat_ofBool128, decide_eq_true_eq, Bool.or_eq_true]
    split <;> omega

theorem sadd3_eq (a b : I256) : (add3 c a.as_u256 b.as_u256).as_i256 = I256.ofInt c (a.toInt c + b.toInt c) := by
  apply I256.eq_ofInt
  have h1 := I256.toNat_toInt c a; have h2 := I256.toNat_toInt c b
  simp only [add3_eq, I256.toNat_as_i256, U256.toNat_ofNat, I256.toNat_as_u256]
  omega

theorem ssub3_eq (a b : I256) : (sub3 c a.as_u256 b.as_u256).as_i256 = I256.ofInt c (a.toInt c - b.toInt c) := by
  apply I256.eq_ofInt
  have h1 := I256.toNat_toInt c a; have h2 := I256.toNat_toInt c b
  simp only [sub3_eq, I256.toNat_as_i256, U256.toNat_ofInt, I256.toNat_as_u256]
  omega

theorem iaddc_eq (a b : I256) : iaddc c a b =
    (I256.ofInt c (a.toInt c + b.toInt c), decide (¬ InI256 (a.toInt c + b.toInt c))) := by
  have e := sadd3_eq c a b
  have ha := I256.toInt_in c a; have hb := I256.toInt_in c b
  unfold iaddc
  simp only [e]
  refine Prod.ext rfl ?_
  rw [Bool.eq_iff_iff]
  simp only [I256.ge_prim_eq, I256.lt_prim_eq, I256.lt_eq, I256.ge_eq, I256.toInt_ofInt,
    Bool.or_eq_true, Bool.and_eq_true, decide_eq_true_eq, toInt_0]
  unfold InI256 at *
  omega

theorem isubc_eq (a b : I256) : isubc c a b =
    (I256.ofInt c (a.toInt c - b.toInt c), decide (¬ InI256 (a.toInt c - b.toInt c))) := by
  have e := ssub3_eq c a b
  have ha := I256.toInt_in c a; have hb := I256.toInt_in c b
  unfold isubc
  simp only [e]
  refine Prod.ext rfl ?_
  rw [Bool.eq_iff_iff]
  simp only [I256.ge_prim_eq, I256.lt_prim_eq, I256.gt_eq, I256.le_eq, I256.toInt_ofInt,
    Bool.or_eq_true, Bool.and_eq_true, decide_eq_true_eq, toInt_0]
  unfold InI256 at *
  omega

end Native

namespace Intr
variable (c : Cfg)

theorem add2_eq (a b : U256) : add2 c a b = U256.ofNat c (a.toNat c + b.toNat c) := by
  unfold add2; split
  · exact Llvm.add2_eq c a b
  · exact Native.add2_eq c a b
theorem add3_eq (a b : U256) : add3 c a b = U256.ofNat c (a.toNat c + b.toNat c) := by
  unfold add3; split
  · exact Llvm.add3_eq c a b
  · exact Native.add3_eq c a b
theorem uaddc_eq (a b : U256) : uaddc c a b =
    (U256.ofNat c (a.toNat c + b.toNat c), decide (2 ^ 256 ≤ a.toNat c + b.toNat c)) := by
  unfold uaddc; split
  · exact Llvm.uaddc_eq c a b
  · exact Native.uaddc_eq c a b
theorem iaddc_eq (a b : I256) : iaddc c a b =
    (I256.ofInt c (a.toInt c + b.toInt c), decide (¬ InI256 (a.toInt c + b.toInt c))) := by
  unfold iaddc; split
  · exact Llvm.iaddc_eq c a b
  · exact Native.iaddc_eq c a b
theorem sub2_eq (a b : U256) : sub2 c a b = U256.ofInt c (a.toNat c - b.toNat c) := by
  unfold sub2; split
  · exact Llvm.sub2_eq c a b
  · exact Native.sub2_eq c a b
theorem sub3_eq (a b : U256) : sub3 c a b = U256.ofInt c (a.toNat c - b.toNat c) := by
  unfold sub3; split
  · exact Llvm.sub3_eq c a b
  · exact Native.sub3_eq c a b
theorem usubc_eq (a b : U256) : usubc c a b =
    (U256.ofInt c (a.toNat c - b.toNat c), decide (a.toNat c < b.toNat c)) := by
  unfold usubc; split
  · exact Llvm.usubc_eq c a b
  · exact Native.usubc_eq c a b
theorem isubc_eq (a b : I256) : isubc c a b =
    (I256.ofInt c (a.toInt c - b.toInt c), decide (¬ InI256 (a.toInt c - b.toInt c))) := by
  unfold isubc; split
  · exact Llvm.isubc_eq c a b
  · exact Native.isubc_eq c a b

theorem iadd3_eq (a b : I256) : iadd3 c a b = I256.ofInt c (a.toInt c + b.toInt c) := by
  apply I256.eq_ofInt
  have h1 := I256.toNat_toInt c a; have h2 := I256.toNat_toInt c b
  simp only [iadd3, add3_eq, I256.toNat_as_i256, U256.toNat_ofNat, I256.toNat_as_u256]
  omega

theorem iadd2_eq (a b : I256) : iadd2 c a b = I256.ofInt c (a.toInt c + b.toInt c) := by
  rw [← iadd3_eq]; simp only [iadd2, iadd3, add2_eq, add3_eq]

theorem isub3_eq (a b : I256) : isub3 c a b = I256.ofInt c (a.toInt c - b.toInt c) := by
  apply I256.eq_ofInt
  have h1 := I256.toNat_toInt c a; have h2 := I256.toNat_toInt c b
  simp only [isub3, sub3_eq, I256.toNat_as_i256, U256.toNat_ofInt, I256.toNat_as_u256]
  omega

theorem isub2_eq (a b : I256) : isub2 c a b = I256.ofInt c (a.toInt c - b.toInt c) := by
  rw [← isub3_eq]; simp only [isub2, isub3, sub2_eq, sub3_eq]

end Intr
end Ethnum
