import Verif.Proofs.AddSub
import Verif.Proofs.Prim
import Mathlib.Tactic.Ring
import Mathlib.Tactic.Linarith

/-! Unsigned multiplication. -/

set_option linter.unusedSimpArgs false

namespace Ethnum

theorem and_mask64 (x : U128) : (x &&& 0xFFFFFFFFFFFFFFFF).toNat = x.toNat % 2 ^ 64 := by
  rw [BitVec.toNat_and]; exact Nat.and_two_pow_sub_one_eq_mod x.toNat 64

theorem toNat_shr64 (x : U128) : (x >>> 64).toNat = x.toNat / 2 ^ 64 := toNat_shr x 64
theorem toNat_shl64 (x : U128) : (x <<< 64).toNat = x.toNat * 2 ^ 64 % 2 ^ 128 := toNat_shl x 64

theorem mul_lt_64 {a b : Nat} (ha : a < 2 ^ 64) (hb : b < 2 ^ 64) : a * b ≤ (2 ^ 64 - 1) * (2 ^ 64 - 1) :=
  Nat.mul_le_mul (by omega) (by omega)

namespace Native

theorem LOWER_MASK_eq : LOWER_MASK = 0xFFFFFFFFFFFFFFFF := by decide
theorem toNat_and_LOWER (x : U128) : (x &&& LOWER_MASK).toNat = x.toNat % 2 ^ 64 := by
  rw [LOWER_MASK_eq, and_mask64]
variable (c : Cfg)

theorem umulddi3_eq (a b : U128) : umulddi3 c a b = .ok (U256.ofNat c (a.toNat * b.toNat)) := by
  have ha := a.isLt; have hb := b.isLt
  have a0 : a.toNat % 2 ^ 64 < 2 ^ 64 := by omega
  have a1 : a.toNat / 2 ^ 64 < 2 ^ 64 := by omega
  have b0 : b.toNat % 2 ^ 64 < 2 ^ 64 := by omega
  have b1 : b.toNat / 2 ^ 64 < 2 ^ 64 := by omega
  have m00 := mul_lt_64 a0 b0
  have m10 := mul_lt_64 a1 b0
  have m01 := mul_lt_64 b1 a0
  have m11 := mul_lt_64 a1 b1
  have key : a.toNat * b.toNat = (a.toNat / 2 ^ 64 * (b.toNat / 2 ^ 64)) * 2 ^ 128
      + (a.toNat / 2 ^ 64 * (b.toNat % 2 ^ 64)) * 2 ^ 64
      + (b.toNat / 2 ^ 64 * (a.toNat % 2 ^ 64)) * 2 ^ 64
      + a.toNat % 2 ^ 64 * (b.toNat % 2 ^ 64) := by
    conv_lhs => rw [← Nat.div_add_mod a.toNat (2 ^ 64), ← Nat.div_add_mod b.toNat (2 ^ 64)]
    ring
  unfold umulddi3
  obtain ⟨l, e, v⟩ := mulC_spec c (a := a &&& LOWER_MASK) (b := b &&& LOWER_MASK) (by simp only [toNat_shr64, toNat_and_LOWER, toNat_shl64]; omega)
  simp only [e, ok_bind]; clear e
  obtain ⟨p, e, vp⟩ := mulC_spec c (a := a >>> 64) (b := b &&& LOWER_MASK) (by simp only [toNat_shr64, toNat_and_LOWER, toNat_shl64]; omega)
  simp only [e, ok_bind]; clear e
  simp only [toNat_shr64, toNat_and_LOWER] at v vp
  obtain ⟨t, e, vt⟩ := addC_spec c (a := l >>> 64) (b := p) (by simp only [toNat_shr64, toNat_and_LOWER, toNat_shl64]; omega)
  simp only [e, ok_bind]; clear e
  simp only [toNat_shr64] at vt
  obtain ⟨l2, e, vl2⟩ := addC_spec c (a := l &&& LOWER_MASK) (b := (t &&& LOWER_MASK) <<< 64)
    (by simp only [toNat_shr64, toNat_and_LOWER, toNat_shl64]; omega)
  simp only [e, ok_bind]; clear e
  simp only [toNat_shl64, toNat_and_LOWER] at vl2
  obtain ⟨p2, e, vp2⟩ := mulC_spec c (a := b >>> 64) (b := a &&& LOWER_MASK) (by simp only [toNat_shr64, toNat_and_LOWER, toNat_shl64]; omega)
  simp only [e, ok_bind]; clear e
  simp only [toNat_shr64, toNat_and_LOWER] at vp2
  obtain ⟨t2, e, vt2⟩ := addC_spec c (a := l2 >>> 64) (b := p2) (by simp only [toNat_shr64, toNat_and_LOWER, toNat_shl64]; omega)
  simp only [e, ok_bind]; clear e
  simp only [toNat_shr64] at vt2
  obtain ⟨l3, e, vl3⟩ := addC_spec c (a := l2 &&& LOWER_MASK) (b := (t2 &&& LOWER_MASK) <<< 64)
    (by simp only [toNat_shr64, toNat_and_LOWER, toNat_shl64]; omega)
  simp only [e, ok_bind]; clear e
  simp only [toNat_shl64, toNat_and_LOWER] at vl3
  obtain ⟨h, e, vh⟩ := addC_spec c (a := t >>> 64) (b := t2 >>> 64) (by simp only [toNat_shr64, toNat_and_LOWER, toNat_shl64]; omega)
  simp only [e, ok_bind]; clear e
  simp only [toNat_shr64] at vh
  obtain ⟨p3, e, vp3⟩ := mulC_spec c (a := a >>> 64) (b := b >>> 64) (by simp only [toNat_shr64, toNat_and_LOWER, toNat_shl64]; omega)
  simp only [e, ok_bind]; clear e
  simp only [toNat_shr64] at vp3
  obtain ⟨h2, e, vh2⟩ := addC_spec c (a := h) (b := p3) (by omega)
  simp only [e, ok_bind, pure_eq_ok]; clear e
  congr 1
  apply U256.eq_ofNat
  rw [U256.toNat_from_words, Nat.mod_eq_of_lt (by rw [key]; omega), key]
  omega

theorem mul_words (a b : U256) : a.toNat c * b.toNat c =
    (a.high c).toNat * (b.high c).toNat * 2 ^ 256
    + ((a.high c).toNat * (b.low c).toNat + (a.low c).toNat * (b.high c).toNat) * 2 ^ 128
    + (a.low c).toNat * (b.low c).toNat := by
  rw [U256.toNat_eq, U256.toNat_eq]; ring

theorem mul_lt_128 {a b : Nat} (ha : a < 2 ^ 128) (hb : b < 2 ^ 128) :
    a * b ≤ (2 ^ 128 - 1) * (2 ^ 128 - 1) :=
  Nat.mul_le_mul (by omega) (by omega)

theorem mul3_eq (a b : U256) : mul3 c a b = .ok (U256.ofNat c (a.toNat c * b.toNat c)) := by
  unfold mul3
  simp only [umulddi3_eq, ok_bind, pure_eq_ok]
  congr 1
  apply U256.eq_ofNat
  have m := mul_lt_128 (a.low c).isLt (b.low c).isLt
  rw [mul_words, U256.set_high_eq, U256.toNat_from_words]
  simp only [U256.high_ofNat, U256.low_ofNat, BitVec.toNat_add, BitVec.toNat_mul, BitVec.toNat_ofNat]
  omega

theorem mul2_eq (a b : U256) : mul2 c a b = .ok (U256.ofNat c (a.toNat c * b.toNat c)) := mul3_eq c a b

theorem umulc_eq (a b : U256) : umulc c a b =
    .ok (U256.ofNat c (a.toNat c * b.toNat c), decide (2 ^ 256 ≤ a.toNat c * b.toNat c)) := by
  have e3 := mul3_eq c a b
  unfold mul3 at e3; unfold umulc
  simp only [umulddi3_eq, ok_bind, pure_eq_ok, overflowingMul, overflowingAdd] at e3 ⊢
  rw [Except.ok.injEq] at e3
  rw [e3]
  congr 2
  rw [Bool.eq_iff_iff]
  simp only [Bool.or_eq_true, Bool.and_eq_true, decide_eq_true_eq, U256.high_ofNat,
    BitVec.toNat_add, BitVec.toNat_mul, BitVec.toNat_ofNat, mul_words]
  have ha := (a.high c).isLt; have hb := (b.high c).isLt
  have m := mul_lt_128 (a.low c).isLt (b.low c).isLt
  by_cases h1 : (a.high c).toNat = 0
  · have : a.high c = 0 := BitVec.eq_of_toNat_eq h1
    simp only [h1, this]
    simp
    omega
  · by_cases h2 : (b.high c).toNat = 0
    · have : b.high c = 0 := BitVec.eq_of_toNat_eq h2
      simp only [h2, this]
      simp
      omega
    · have hp : 0 < (a.high c).toNat * (b.high c).toNat := Nat.mul_pos (by omega) (by omega)
      have n1 : a.high c ≠ 0 := fun h => h1 (by rw [h]; rfl)
      have n2 : b.high c ≠ 0 := fun h => h2 (by rw [h]; rfl)
      simp only [n1, n2, not_false_eq_true, and_self, or_true, true_iff, ne_eq]
      omega

end Native

namespace Intr
variable (c : Cfg)

theorem mul2_eq (a b : U256) : mul2 c a b = .ok (U256.ofNat c (a.toNat c * b.toNat c)) := by
  unfold mul2; split
  · rw [Llvm.mul2_eq c a b]
  · exact Native.mul2_eq c a b
theorem mul3_eq (a b : U256) : mul3 c a b = .ok (U256.ofNat c (a.toNat c * b.toNat c)) := by
  unfold mul3; split
  · rw [Llvm.mul3_eq c a b]
  · exact Native.mul3_eq c a b
theorem umulc_eq (a b : U256) : umulc c a b =
    .ok (U256.ofNat c (a.toNat c * b.toNat c), decide (2 ^ 256 ≤ a.toNat c * b.toNat c)) := by
  unfold umulc; split
  · rw [Llvm.umulc_eq c a b]
  · exact Native.umulc_eq c a b

theorem imul3_eq (a b : I256) : imul3 c a b = .ok (I256.ofInt c (a.toInt c * b.toInt c)) := by
  unfold imul3
  simp only [mul3_eq, ok_bind, pure_eq_ok, I256.toNat_as_u256]
  congr 1
  apply I256.eq_ofInt
  rw [I256.toNat_as_i256, U256.toNat_ofNat]
  rw [Int.natCast_emod, Int.natCast_mul, show ((2 ^ 256 : Nat) : Int) = 2 ^ 256 from rfl]
  rw [I256.toNat_toInt, I256.toNat_toInt, ← Int.mul_emod]

theorem imul2_eq (a b : I256) : imul2 c a b = .ok (I256.ofInt c (a.toInt c * b.toInt c)) := imul3_eq c a b

end Intr
end Ethnum
