import Verif.Model.Llvm
import Verif.Proofs.Bv
import Verif.Proofs.Bytes
import Mathlib.Tactic.NormNum
import Mathlib.Tactic.Ring

/-! The LLVM back-end: reading and writing 256-bit integers in memory, and the value each function returns. -/

namespace Ethnum
namespace Llvm
variable (c : Cfg)

theorem length_neBytes128 (x : U128) : (neBytes128 c x).length = 16 := by unfold neBytes128; split <;> simp

theorem ofNeBytes_neBytes (x : U128) : ofNeBytes128 c (neBytes128 c x) = x := by
  have : BitVec.ofNat 128 (leValue (leBytes 16 x.toNat)) = x := by
    apply BitVec.eq_of_toNat_eq
    rw [leValue_leBytes, ← two128, Nat.mod_eq_of_lt x.isLt]; simp
  unfold ofNeBytes128 neBytes128
  split <;> simp [this]

theorem memory_eq (x : U256) : neBytes128 c x.w0 ++ neBytes128 c x.w1
    = if c.bigEndian then (leBytes 32 (x.toNat c)).reverse else leBytes 32 (x.toNat c) := by
  rw [U256.leBytes_toNat]
  unfold neBytes128 U256.low U256.high
  cases c.bigEndian <;> simp

theorem load_eq (x : U256) : load c x = x.bv c := by
  apply BitVec.eq_of_toNat_eq
  unfold load
  rw [U256.toNat_bv, BitVec.toNat_ofNat, memory_eq]
  have e : leValue (leBytes 32 (x.toNat c)) = x.toNat c := by
    rw [leValue_leBytes, ← two256, Nat.mod_eq_of_lt (U256.toNat_lt c x)]
  cases c.bigEndian <;> simp [e, Nat.mod_eq_of_lt (U256.toNat_lt c x)]

theorem store_eq (v : BitVec 256) : store c v = U256.ofNat c v.toNat := by
  have e := memory_eq c (U256.ofNat c v.toNat)
  rw [U256.toNat_ofNat_of_lt c v.isLt] at e
  unfold store
  rw [← e]
  dsimp only
  rw [List.take_left' (length_neBytes128 c _), List.drop_left' (length_neBytes128 c _), ofNeBytes_neBytes,
    ofNeBytes_neBytes]

theorem toNat_load (x : U256) : (load c x).toNat = x.toNat c := by rw [load_eq, U256.toNat_bv]
theorem iload_eq (x : I256) : iload c x = x.as_u256.bv c := load_eq c x.as_u256
theorem toInt_iload (x : I256) : (iload c x).toInt = x.toInt c := by
  rw [iload_eq]
  have h1 := I256.toNat_toInt c x
  have h2 := I256.toInt_lt c x; have h3 := I256.le_toInt c x
  have h4 : (x.as_u256.bv c).toNat = x.toNat c := by rw [U256.toNat_bv, I256.toNat_as_u256]
  rw [BitVec.toInt_eq_toNat_bmod, h4, Int.bmod_def]
  omega
theorem istore_eq (v : BitVec 256) : istore c v = I256.ofInt c v.toInt := by
  have h : istore c v = (store c v).as_i256 := rfl
  rw [h, store_eq, I256.as_i256_ofNat]
  apply I256.ofInt_congr
  rw [BitVec.toInt_eq_toNat_bmod, Int.bmod_def]
  omega

theorem toNat_istore (v : BitVec 256) : (istore c v).toNat c = v.toNat := by
  have h : istore c v = (store c v).as_i256 := rfl
  rw [h, store_eq]
  have := U256.toNat_ofNat_of_lt c v.isLt
  exact this

theorem amount_eq (b : U32) : Template.amount 256 b = b.toNat % 256 := by
  unfold Template.amount
  exact Nat.and_two_pow_sub_one_eq_mod b.toNat 8

theorem inI256_iff (z : Int) : (decide (z ≥ 2 ^ (256 - 1)) || decide (z < - 2 ^ (256 - 1))) = decide (¬ InI256 z) := by
  unfold InI256
  by_cases h1 : z ≥ 2 ^ (256 - 1) <;> by_cases h2 : z < - 2 ^ (256 - 1) <;>
    simp only [h1, h2, decide_true, decide_false, Bool.or_true, Bool.or_false, Bool.true_eq, Bool.false_eq,
      decide_eq_true_eq, decide_eq_false_iff_not] <;> omega

theorem add3_eq (a b : U256) : add3 c a b = U256.ofNat c (a.toNat c + b.toNat c) := by
  unfold add3 Template.add
  rw [store_eq, BitVec.toNat_add, toNat_load, toNat_load]
  exact U256.ofNat_congr c (by omega)
theorem add2_eq (a b : U256) : add2 c a b = U256.ofNat c (a.toNat c + b.toNat c) := add3_eq c a b
theorem uaddc_eq (a b : U256) : uaddc c a b =
    (U256.ofNat c (a.toNat c + b.toNat c), decide (2 ^ 256 ≤ a.toNat c + b.toNat c)) := by
  rw [← add3_eq]
  show (add3 c a b, BitVec.uaddOverflow (load c a) (load c b)) = _
  unfold BitVec.uaddOverflow
  rw [toNat_load, toNat_load]
theorem iaddc_eq (a b : I256) : iaddc c a b =
    (I256.ofInt c (a.toInt c + b.toInt c), decide (¬ InI256 (a.toInt c + b.toInt c))) := by
  show (istore c (iload c a + iload c b), BitVec.saddOverflow (iload c a) (iload c b)) = _
  unfold BitVec.saddOverflow
  rw [toInt_iload, toInt_iload, inI256_iff, istore_eq, BitVec.toInt_add, toInt_iload, toInt_iload]
  congr 1
  apply I256.ofInt_congr
  rw [Int.bmod_def]; omega
theorem sub3_eq (a b : U256) : sub3 c a b = U256.ofInt c (a.toNat c - b.toNat c) := by
  unfold sub3 Template.sub
  have ha := U256.toNat_lt c a; have hb := U256.toNat_lt c b
  rw [store_eq, BitVec.toNat_sub, toNat_load, toNat_load]
  apply U256.eq_ofInt
  rw [U256.toNat_ofNat]
  omega
theorem sub2_eq (a b : U256) : sub2 c a b = U256.ofInt c (a.toNat c - b.toNat c) := sub3_eq c a b
theorem usubc_eq (a b : U256) : usubc c a b =
    (U256.ofInt c (a.toNat c - b.toNat c), decide (a.toNat c < b.toNat c)) := by
  rw [← sub3_eq]
  show (sub3 c a b, BitVec.usubOverflow (load c a) (load c b)) = _
  unfold BitVec.usubOverflow
  rw [toNat_load, toNat_load]
theorem isubc_eq (a b : I256) : isubc c a b =
    (I256.ofInt c (a.toInt c - b.toInt c), decide (¬ InI256 (a.toInt c - b.toInt c))) := by
  show (istore c (iload c a - iload c b), BitVec.ssubOverflow (iload c a) (iload c b)) = _
  unfold BitVec.ssubOverflow
  rw [toInt_iload, toInt_iload, inI256_iff, istore_eq, BitVec.toInt_sub, toInt_iload, toInt_iload]
  congr 1
  apply I256.ofInt_congr
  rw [Int.bmod_def]; omega
theorem mul3_eq (a b : U256) : mul3 c a b = U256.ofNat c (a.toNat c * b.toNat c) := by
  unfold mul3 Template.mul
  rw [store_eq, BitVec.toNat_mul, toNat_load, toNat_load]
  exact U256.ofNat_congr c (Nat.mod_mod _ _)
theorem mul2_eq (a b : U256) : mul2 c a b = U256.ofNat c (a.toNat c * b.toNat c) := mul3_eq c a b
theorem umulc_eq (a b : U256) : umulc c a b =
    (U256.ofNat c (a.toNat c * b.toNat c), decide (2 ^ 256 ≤ a.toNat c * b.toNat c)) := by
  rw [← mul3_eq]
  show (mul3 c a b, BitVec.umulOverflow (load c a) (load c b)) = _
  unfold BitVec.umulOverflow
  rw [toNat_load, toNat_load]

theorem shl3_eq (a : U256) (b : U32) : shl3 c a b = U256.ofNat c (a.toNat c * 2 ^ (b.toNat % 256)) := by
  unfold shl3 Template.shl
  rw [store_eq]
  apply U256.eq_ofNat
  rw [BitVec.toNat_shiftLeft, toNat_load, amount_eq, Nat.shiftLeft_eq, U256.toNat_ofNat_of_lt c (Nat.mod_lt _ (by decide))]
theorem shr3_eq (a : U256) (b : U32) : shr3 c a b = U256.ofNat c (a.toNat c / 2 ^ (b.toNat % 256)) := by
  unfold shr3 Template.shr
  rw [store_eq, BitVec.toNat_ushiftRight, toNat_load, amount_eq, Nat.shiftRight_eq_div_pow]
theorem sar3_eq (a : I256) (b : U32) : sar3 c a b = I256.ofInt c (a.toInt c / 2 ^ (b.toNat % 256)) := by
  unfold sar3 Template.sar
  rw [istore_eq, BitVec.toInt_sshiftRight, toInt_iload, amount_eq, Int.shiftRight_eq_div_pow]
  norm_cast
theorem shl2_eq_shl3 (a : U256) (b : U32) : shl2 c a b = shl3 c a b := rfl
theorem shr2_eq_shr3 (a : U256) (b : U32) : shr2 c a b = shr3 c a b := rfl
theorem sar2_eq_sar3 (a : I256) (b : U32) : sar2 c a b = sar3 c a b := rfl

end Llvm
end Ethnum
