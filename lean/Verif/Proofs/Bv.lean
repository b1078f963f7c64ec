import Verif.Proofs.Words
import Verif.Model.Intrinsics

/-! The 256-bit pattern of a value as a `BitVec 256`. -/

namespace Ethnum

namespace U256
variable (c : Cfg)

def bv (x : U256) : BitVec 256 := x.high c ++ x.low c

@[simp] theorem toNat_bv (x : U256) : (bv c x).toNat = x.toNat c := by
  unfold bv
  rw [BitVec.toNat_append, Nat.shiftLeft_eq, toNat_eq, Nat.mul_comm,
    Nat.two_pow_add_eq_or_of_lt (x.low c).isLt]

theorem bv_inj {x y : U256} (h : bv c x = bv c y) : x = y :=
  toNat_inj c (by rw [← toNat_bv, ← toNat_bv, h])

theorem getLsbD_bv (x : U256) (i : Nat) :
    (bv c x).getLsbD i = if i < 128 then (x.low c).getLsbD i else (x.high c).getLsbD (i - 128) := by
  unfold bv; rw [BitVec.getLsbD_append]

theorem testBit_toNat (x : U256) (i : Nat) : (x.toNat c).testBit i = (bv c x).getLsbD i := by
  rw [← toNat_bv]; rfl

theorem high_bitand (a b : U256) : (bitand a b).high c = a.high c &&& b.high c := by
  unfold bitand high; split <;> rfl
theorem low_bitand (a b : U256) : (bitand a b).low c = a.low c &&& b.low c := by
  unfold bitand low; split <;> rfl
theorem high_bitor (a b : U256) : (bitor a b).high c = a.high c ||| b.high c := by
  unfold bitor high; split <;> rfl
theorem low_bitor (a b : U256) : (bitor a b).low c = a.low c ||| b.low c := by
  unfold bitor low; split <;> rfl
theorem high_bitxor (a b : U256) : (bitxor a b).high c = a.high c ^^^ b.high c := by
  unfold bitxor high; split <;> rfl
theorem low_bitxor (a b : U256) : (bitxor a b).low c = a.low c ^^^ b.low c := by
  unfold bitxor low; split <;> rfl
theorem high_not (a : U256) : (not a).high c = ~~~ a.high c := by
  unfold not high; split <;> rfl
theorem low_not (a : U256) : (not a).low c = ~~~ a.low c := by
  unfold not low; split <;> rfl

theorem bv_bitand (a b : U256) : bv c (bitand a b) = bv c a &&& bv c b := by
  apply BitVec.eq_of_getLsbD_eq; intro i hi
  simp only [BitVec.getLsbD_and, getLsbD_bv, high_bitand, low_bitand]
  split <;> rfl
theorem bv_bitor (a b : U256) : bv c (bitor a b) = bv c a ||| bv c b := by
  apply BitVec.eq_of_getLsbD_eq; intro i hi
  simp only [BitVec.getLsbD_or, getLsbD_bv, high_bitor, low_bitor]
  split <;> rfl
theorem bv_bitxor (a b : U256) : bv c (bitxor a b) = bv c a ^^^ bv c b := by
  apply BitVec.eq_of_getLsbD_eq; intro i hi
  simp only [BitVec.getLsbD_xor, getLsbD_bv, high_bitxor, low_bitxor]
  split <;> rfl
theorem bv_not (a : U256) : bv c (not a) = ~~~ bv c a := by
  apply BitVec.eq_of_getLsbD_eq; intro i hi
  simp only [BitVec.getLsbD_not, getLsbD_bv, high_not, low_not, hi, decide_true, Bool.true_and]
  split
  · rename_i h; simp [h]
  · have : i - 128 < 128 := by omega
    simp [this]

theorem toNat_bitand (a b : U256) : (bitand a b).toNat c = a.toNat c &&& b.toNat c := by
  rw [← toNat_bv, bv_bitand, BitVec.toNat_and, toNat_bv, toNat_bv]
theorem toNat_bitor (a b : U256) : (bitor a b).toNat c = a.toNat c ||| b.toNat c := by
  rw [← toNat_bv, bv_bitor, BitVec.toNat_or, toNat_bv, toNat_bv]
theorem toNat_bitxor (a b : U256) : (bitxor a b).toNat c = a.toNat c ^^^ b.toNat c := by
  rw [← toNat_bv, bv_bitxor, BitVec.toNat_xor, toNat_bv, toNat_bv]
theorem toNat_not (a : U256) : (not a).toNat c = 2 ^ 256 - 1 - a.toNat c := by
  rw [← toNat_bv, bv_not, BitVec.toNat_not, toNat_bv]

end U256

namespace I256
variable (c : Cfg)
theorem toNat_bitand (a b : I256) : (bitand a b).toNat c = a.toNat c &&& b.toNat c :=
  U256.toNat_bitand c a.as_u256 b.as_u256
theorem toNat_bitor (a b : I256) : (bitor a b).toNat c = a.toNat c ||| b.toNat c :=
  U256.toNat_bitor c a.as_u256 b.as_u256
theorem toNat_bitxor (a b : I256) : (bitxor a b).toNat c = a.toNat c ^^^ b.toNat c :=
  U256.toNat_bitxor c a.as_u256 b.as_u256
end I256
end Ethnum
