import Verif.Proofs.Backend.Api
import Verif.Props.Operators

/-
C46 for the public functions: a program cannot tell which of the two intrinsics back-ends it was compiled with, unless
it shifts by an oversized amount in a build without debug assertions or rotates by more than 256 in a build with
overflow checks. Verif/Props/Llvm.lean compares the routines of the back-ends themselves.
-/

namespace Ethnum

/-! ### Specification -/

/-- A function of the library, which may depend on the build, is the same function with the feature `llvm-intrinsics`
and without it, whatever the rest of the build configuration is. -/
def SameInBoth {α : Type} (f : Cfg → α) : Prop := ∀ c : Cfg, f { c with llvm := true } = f { c with llvm := false }

/-- The same shift amount in the build with the given back-end. -/
def ShiftBy.inBuild {c : Cfg} (b : Bool) : ShiftBy c → ShiftBy { c with llvm := b }
  | .prim t v => .prim t v
  | .u256 v => .u256 v
  | .i256 v => .i256 v

theorem both {α : Type} {f : Cfg → α} (h : ∀ c b, f (c.on b) = f c) : SameInBoth f :=
  fun c => (h c true).trans (h c false).symm

/-! ### C46 -/

/-- C46: words and constants. -/
theorem C46_api_words :
    SameInBoth U256.from_words
    ∧ SameInBoth U256.into_words
    ∧ SameInBoth U256.low
    ∧ SameInBoth U256.high
    ∧ SameInBoth U256.set_low
    ∧ SameInBoth U256.set_high
    ∧ SameInBoth U256.new
    ∧ SameInBoth U256.ONE
    ∧ SameInBoth I256.from_words
    ∧ SameInBoth I256.into_words
    ∧ SameInBoth I256.low
    ∧ SameInBoth I256.high
    ∧ SameInBoth I256.set_low
    ∧ SameInBoth I256.set_high
    ∧ SameInBoth I256.new
    ∧ SameInBoth I256.ONE
    ∧ SameInBoth I256.MINUS_ONE
    ∧ SameInBoth I256.MIN
    ∧ SameInBoth I256.MAX :=
  ⟨both U256.from_words_bk,
   both U256.into_words_bk,
   both U256.low_bk,
   both U256.high_bk,
   both U256.set_low_bk,
   both U256.set_high_bk,
   both U256.new_bk,
   both U256.ONE_bk,
   both I256.from_words_bk,
   both I256.into_words_bk,
   both I256.low_bk,
   both I256.high_bk,
   both I256.set_low_bk,
   both I256.set_high_bk,
   both I256.new_bk,
   both I256.ONE_bk,
   both I256.MINUS_ONE_bk,
   both I256.MIN_bk,
   both I256.MAX_bk⟩

example : (U256.from_words dll 3 7).toNat dll = 3 * 2 ^ 128 + 7 ∧ dll.llvm = true ∧ rll.llvm = true := by decide +kernel

/-- C46: comparison, between two values and with a primitive. -/
theorem C46_api_comparison :
    SameInBoth U256.cmp
    ∧ SameInBoth U256.eq
    ∧ SameInBoth U256.ne
    ∧ SameInBoth U256.partial_cmp
    ∧ SameInBoth U256.lt
    ∧ SameInBoth U256.le
    ∧ SameInBoth U256.gt
    ∧ SameInBoth U256.ge
    ∧ SameInBoth U256.eq_prim
    ∧ SameInBoth U256.prim_eq
    ∧ SameInBoth U256.partial_cmp_prim
    ∧ SameInBoth U256.prim_partial_cmp
    ∧ SameInBoth U256.lt_prim
    ∧ SameInBoth U256.le_prim
    ∧ SameInBoth U256.gt_prim
    ∧ SameInBoth U256.ge_prim
    ∧ SameInBoth I256.cmp
    ∧ SameInBoth I256.eq
    ∧ SameInBoth I256.ne
    ∧ SameInBoth I256.partial_cmp
    ∧ SameInBoth I256.lt
    ∧ SameInBoth I256.le
    ∧ SameInBoth I256.gt
    ∧ SameInBoth I256.ge
    ∧ SameInBoth I256.eq_prim
    ∧ SameInBoth I256.prim_eq
    ∧ SameInBoth I256.partial_cmp_prim
    ∧ SameInBoth I256.prim_partial_cmp
    ∧ SameInBoth I256.lt_prim
    ∧ SameInBoth I256.le_prim
    ∧ SameInBoth I256.gt_prim
    ∧ SameInBoth I256.ge_prim :=
  ⟨both U256.cmp_bk,
   both U256.eq_bk,
   both U256.ne_bk,
   both U256.partial_cmp_bk,
   both U256.lt_bk,
   both U256.le_bk,
   both U256.gt_bk,
   both U256.ge_bk,
   both U256.eq_prim_bk,
   both U256.prim_eq_bk,
   both U256.partial_cmp_prim_bk,
   both U256.prim_partial_cmp_bk,
   both U256.lt_prim_bk,
   both U256.le_prim_bk,
   both U256.gt_prim_bk,
   both U256.ge_prim_bk,
   both I256.cmp_bk,
   both I256.eq_bk,
   both I256.ne_bk,
   both I256.partial_cmp_bk,
   both I256.lt_bk,
   both I256.le_bk,
   both I256.gt_bk,
   both I256.ge_bk,
   both I256.eq_prim_bk,
   both I256.prim_eq_bk,
   both I256.partial_cmp_prim_bk,
   both I256.prim_partial_cmp_bk,
   both I256.lt_prim_bk,
   both I256.le_prim_bk,
   both I256.gt_prim_bk,
   both I256.ge_prim_bk⟩

example : U256.lt rll (U256.ofNat rll (2 ^ 128)) (U256.ofNat rll 5) = false ∧ I256.cmp dll (I256.MIN dll) I256.ZERO = .lt := by decide +kernel

/-- C46: bitwise operators, counting and reversing bits. -/
theorem C46_api_bitwise :
    SameInBoth U256.count_ones
    ∧ SameInBoth U256.count_zeros
    ∧ SameInBoth U256.leading_zeros
    ∧ SameInBoth U256.trailing_zeros
    ∧ SameInBoth U256.leading_ones
    ∧ SameInBoth U256.trailing_ones
    ∧ SameInBoth I256.count_ones
    ∧ SameInBoth I256.count_zeros
    ∧ SameInBoth I256.leading_zeros
    ∧ SameInBoth I256.trailing_zeros
    ∧ SameInBoth I256.leading_ones
    ∧ SameInBoth I256.trailing_ones :=
  ⟨both U256.count_ones_bk,
   both U256.count_zeros_bk,
   both U256.leading_zeros_bk,
   both U256.trailing_zeros_bk,
   both U256.leading_ones_bk,
   both U256.trailing_ones_bk,
   both I256.count_ones_bk,
   both I256.count_zeros_bk,
   both I256.leading_zeros_bk,
   both I256.trailing_zeros_bk,
   both I256.leading_ones_bk,
   both I256.trailing_ones_bk⟩

example : (U256.ofNat dll (2 ^ 200)).leading_zeros dll = .ok 55 ∧ (U256.ofNat rll (2 ^ 200)).trailing_zeros rll = .ok 200 := by decide +kernel

/-- C46: the shift methods. -/
theorem C46_api_shift :
    SameInBoth U256.wrapping_shl
    ∧ SameInBoth U256.wrapping_shr
    ∧ SameInBoth U256.overflowing_shl
    ∧ SameInBoth U256.overflowing_shr
    ∧ SameInBoth U256.checked_shl
    ∧ SameInBoth U256.checked_shr
    ∧ SameInBoth I256.wrapping_shl
    ∧ SameInBoth I256.wrapping_shr
    ∧ SameInBoth I256.overflowing_shl
    ∧ SameInBoth I256.overflowing_shr
    ∧ SameInBoth I256.checked_shl
    ∧ SameInBoth I256.checked_shr :=
  ⟨both U256.wrapping_shl_bk,
   both U256.wrapping_shr_bk,
   both U256.overflowing_shl_bk,
   both U256.overflowing_shr_bk,
   both U256.checked_shl_bk,
   both U256.checked_shr_bk,
   both I256.wrapping_shl_bk,
   both I256.wrapping_shr_bk,
   both I256.overflowing_shl_bk,
   both I256.overflowing_shr_bk,
   both I256.checked_shl_bk,
   both I256.checked_shr_bk⟩

example : (U256.ONE dll).wrapping_shl dll 257 = .ok (U256.ofNat dll 2) ∧ (I256.MIN rll).checked_shr rll 256 = .ok none := by decide +kernel

/-- C46: arithmetic of `U256`. -/
theorem C46_api_u256_arithmetic :
    SameInBoth U256.add
    ∧ SameInBoth U256.sub
    ∧ SameInBoth U256.mul
    ∧ SameInBoth U256.add_assign
    ∧ SameInBoth U256.sub_assign
    ∧ SameInBoth U256.mul_assign
    ∧ SameInBoth U256.overflowing_add
    ∧ SameInBoth U256.wrapping_add
    ∧ SameInBoth U256.checked_add
    ∧ SameInBoth U256.saturating_add
    ∧ SameInBoth U256.overflowing_add_signed
    ∧ SameInBoth U256.checked_add_signed
    ∧ SameInBoth U256.saturating_add_signed
    ∧ SameInBoth U256.wrapping_add_signed
    ∧ SameInBoth U256.overflowing_sub
    ∧ SameInBoth U256.wrapping_sub
    ∧ SameInBoth U256.checked_sub
    ∧ SameInBoth U256.saturating_sub
    ∧ SameInBoth U256.abs_diff
    ∧ SameInBoth U256.overflowing_neg
    ∧ SameInBoth U256.wrapping_neg
    ∧ SameInBoth U256.checked_neg
    ∧ SameInBoth U256.overflowing_mul
    ∧ SameInBoth U256.wrapping_mul
    ∧ SameInBoth U256.checked_mul
    ∧ SameInBoth U256.saturating_mul :=
  ⟨both U256.add_bk,
   both U256.sub_bk,
   both U256.mul_bk,
   both U256.add_assign_bk,
   both U256.sub_assign_bk,
   both U256.mul_assign_bk,
   both U256.overflowing_add_bk,
   both U256.wrapping_add_bk,
   both U256.checked_add_bk,
   both U256.saturating_add_bk,
   both U256.overflowing_add_signed_bk,
   both U256.checked_add_signed_bk,
   both U256.saturating_add_signed_bk,
   both U256.wrapping_add_signed_bk,
   both U256.overflowing_sub_bk,
   both U256.wrapping_sub_bk,
   both U256.checked_sub_bk,
   both U256.saturating_sub_bk,
   both U256.abs_diff_bk,
   both U256.overflowing_neg_bk,
   both U256.wrapping_neg_bk,
   both U256.checked_neg_bk,
   both U256.overflowing_mul_bk,
   both U256.wrapping_mul_bk,
   both U256.checked_mul_bk,
   both U256.saturating_mul_bk⟩

example : U256.MAX.overflowing_add rll (U256.ofNat rll 3) = (U256.ofNat rll 2, true)
    ∧ U256.MAX.checked_mul dll (U256.ofNat dll 2) = .ok none := by decide +kernel

/-- C46: arithmetic of `I256`. -/
theorem C46_api_i256_arithmetic :
    SameInBoth I256.add
    ∧ SameInBoth I256.sub
    ∧ SameInBoth I256.mul
    ∧ SameInBoth I256.add_assign
    ∧ SameInBoth I256.sub_assign
    ∧ SameInBoth I256.mul_assign
    ∧ SameInBoth I256.neg
    ∧ SameInBoth I256.overflowing_add
    ∧ SameInBoth I256.wrapping_add
    ∧ SameInBoth I256.checked_add
    ∧ SameInBoth I256.saturating_add
    ∧ SameInBoth I256.overflowing_sub
    ∧ SameInBoth I256.wrapping_sub
    ∧ SameInBoth I256.checked_sub
    ∧ SameInBoth I256.saturating_sub
    ∧ SameInBoth I256.overflowing_add_unsigned
    ∧ SameInBoth I256.checked_add_unsigned
    ∧ SameInBoth I256.saturating_add_unsigned
    ∧ SameInBoth I256.wrapping_add_unsigned
    ∧ SameInBoth I256.overflowing_sub_unsigned
    ∧ SameInBoth I256.checked_sub_unsigned
    ∧ SameInBoth I256.saturating_sub_unsigned
    ∧ SameInBoth I256.wrapping_sub_unsigned
    ∧ SameInBoth I256.overflowing_neg
    ∧ SameInBoth I256.checked_neg
    ∧ SameInBoth I256.saturating_neg
    ∧ SameInBoth I256.wrapping_neg
    ∧ SameInBoth I256.checked_abs
    ∧ SameInBoth I256.saturating_abs
    ∧ SameInBoth I256.wrapping_abs
    ∧ SameInBoth I256.unsigned_abs
    ∧ SameInBoth I256.overflowing_abs
    ∧ SameInBoth I256.abs
    ∧ SameInBoth I256.abs_diff
    ∧ SameInBoth I256.overflowing_mul
    ∧ SameInBoth I256.wrapping_mul
    ∧ SameInBoth I256.checked_mul
    ∧ SameInBoth I256.saturating_mul
    ∧ SameInBoth I256.signum128
    ∧ SameInBoth I256.signum
    ∧ SameInBoth I256.is_positive
    ∧ SameInBoth I256.is_negative :=
  ⟨both I256.add_bk,
   both I256.sub_bk,
   both I256.mul_bk,
   both I256.add_assign_bk,
   both I256.sub_assign_bk,
   both I256.mul_assign_bk,
   both I256.neg_bk,
   both I256.overflowing_add_bk,
   both I256.wrapping_add_bk,
   both I256.checked_add_bk,
   both I256.saturating_add_bk,
   both I256.overflowing_sub_bk,
   both I256.wrapping_sub_bk,
   both I256.checked_sub_bk,
   both I256.saturating_sub_bk,
   both I256.overflowing_add_unsigned_bk,
   both I256.checked_add_unsigned_bk,
   both I256.saturating_add_unsigned_bk,
   both I256.wrapping_add_unsigned_bk,
   both I256.overflowing_sub_unsigned_bk,
   both I256.checked_sub_unsigned_bk,
   both I256.saturating_sub_unsigned_bk,
   both I256.wrapping_sub_unsigned_bk,
   both I256.overflowing_neg_bk,
   both I256.checked_neg_bk,
   both I256.saturating_neg_bk,
   both I256.wrapping_neg_bk,
   both I256.checked_abs_bk,
   both I256.saturating_abs_bk,
   both I256.wrapping_abs_bk,
   both I256.unsigned_abs_bk,
   both I256.overflowing_abs_bk,
   both I256.abs_bk,
   both I256.abs_diff_bk,
   both I256.overflowing_mul_bk,
   both I256.wrapping_mul_bk,
   both I256.checked_mul_bk,
   both I256.saturating_mul_bk,
   both I256.signum128_bk,
   both I256.signum_bk,
   both I256.is_positive_bk,
   both I256.is_negative_bk⟩

example : (I256.MIN dll).overflowing_sub dll (I256.ONE dll) = (I256.MAX dll, true)
    ∧ (I256.ofInt rll (-7)).wrapping_mul rll (I256.ofInt rll 6) = .ok (I256.ofInt rll (-42)) := by decide +kernel

/-- C46: division of `U256`. -/
theorem C46_api_u256_division :
    SameInBoth U256.div
    ∧ SameInBoth U256.rem
    ∧ SameInBoth U256.div_assign
    ∧ SameInBoth U256.rem_assign
    ∧ SameInBoth U256.div_euclid
    ∧ SameInBoth U256.rem_euclid
    ∧ SameInBoth U256.checked_div
    ∧ SameInBoth U256.checked_div_euclid
    ∧ SameInBoth U256.checked_rem
    ∧ SameInBoth U256.checked_rem_euclid
    ∧ SameInBoth U256.wrapping_div
    ∧ SameInBoth U256.wrapping_div_euclid
    ∧ SameInBoth U256.wrapping_rem
    ∧ SameInBoth U256.wrapping_rem_euclid
    ∧ SameInBoth U256.saturating_div
    ∧ SameInBoth U256.overflowing_div
    ∧ SameInBoth U256.overflowing_div_euclid
    ∧ SameInBoth U256.overflowing_rem
    ∧ SameInBoth U256.overflowing_rem_euclid
    ∧ SameInBoth U256.div_rem
    ∧ SameInBoth U256.div_rem_euclid
    ∧ SameInBoth U256.checked_div_rem
    ∧ SameInBoth U256.checked_div_rem_euclid
    ∧ SameInBoth U256.saturating_div_rem
    ∧ SameInBoth U256.saturating_div_rem_euclid
    ∧ SameInBoth U256.wrapping_div_rem
    ∧ SameInBoth U256.wrapping_div_rem_euclid
    ∧ SameInBoth U256.overflowing_div_rem
    ∧ SameInBoth U256.overflowing_div_rem_euclid :=
  ⟨both U256.div_bk,
   both U256.rem_bk,
   both U256.div_assign_bk,
   both U256.rem_assign_bk,
   both U256.div_euclid_bk,
   both U256.rem_euclid_bk,
   both U256.checked_div_bk,
   both U256.checked_div_euclid_bk,
   both U256.checked_rem_bk,
   both U256.checked_rem_euclid_bk,
   both U256.wrapping_div_bk,
   both U256.wrapping_div_euclid_bk,
   both U256.wrapping_rem_bk,
   both U256.wrapping_rem_euclid_bk,
   both U256.saturating_div_bk,
   both U256.overflowing_div_bk,
   both U256.overflowing_div_euclid_bk,
   both U256.overflowing_rem_bk,
   both U256.overflowing_rem_euclid_bk,
   both U256.div_rem_bk,
   both U256.div_rem_euclid_bk,
   both U256.checked_div_rem_bk,
   both U256.checked_div_rem_euclid_bk,
   both U256.saturating_div_rem_bk,
   both U256.saturating_div_rem_euclid_bk,
   both U256.wrapping_div_rem_bk,
   both U256.wrapping_div_rem_euclid_bk,
   both U256.overflowing_div_rem_bk,
   both U256.overflowing_div_rem_euclid_bk⟩

example : U256.MAX.div dll (U256.ofNat dll (2 ^ 130 + 1)) = .ok (U256.ofNat dll ((2 ^ 256 - 1) / (2 ^ 130 + 1))) := by decide +kernel

/-- C46: division of `I256`. -/
theorem C46_api_i256_division :
    SameInBoth I256.div
    ∧ SameInBoth I256.rem
    ∧ SameInBoth I256.div_assign
    ∧ SameInBoth I256.rem_assign
    ∧ SameInBoth I256.div_euclid
    ∧ SameInBoth I256.rem_euclid
    ∧ SameInBoth I256.checked_div
    ∧ SameInBoth I256.checked_div_euclid
    ∧ SameInBoth I256.checked_rem
    ∧ SameInBoth I256.checked_rem_euclid
    ∧ SameInBoth I256.overflowing_div
    ∧ SameInBoth I256.overflowing_div_euclid
    ∧ SameInBoth I256.overflowing_rem
    ∧ SameInBoth I256.overflowing_rem_euclid
    ∧ SameInBoth I256.wrapping_div
    ∧ SameInBoth I256.wrapping_div_euclid
    ∧ SameInBoth I256.wrapping_rem
    ∧ SameInBoth I256.wrapping_rem_euclid
    ∧ SameInBoth I256.saturating_div
    ∧ SameInBoth I256.wrapping_div_rem
    ∧ SameInBoth I256.div_rem
    ∧ SameInBoth I256.checked_div_rem
    ∧ SameInBoth I256.overflowing_div_rem
    ∧ SameInBoth I256.saturating_div_rem
    ∧ SameInBoth I256.wrapping_div_rem_euclid
    ∧ SameInBoth I256.div_rem_euclid
    ∧ SameInBoth I256.checked_div_rem_euclid
    ∧ SameInBoth I256.overflowing_div_rem_euclid
    ∧ SameInBoth I256.saturating_div_rem_euclid :=
  ⟨both I256.div_bk,
   both I256.rem_bk,
   both I256.div_assign_bk,
   both I256.rem_assign_bk,
   both I256.div_euclid_bk,
   both I256.rem_euclid_bk,
   both I256.checked_div_bk,
   both I256.checked_div_euclid_bk,
   both I256.checked_rem_bk,
   both I256.checked_rem_euclid_bk,
   both I256.overflowing_div_bk,
   both I256.overflowing_div_euclid_bk,
   both I256.overflowing_rem_bk,
   both I256.overflowing_rem_euclid_bk,
   both I256.wrapping_div_bk,
   both I256.wrapping_div_euclid_bk,
   both I256.wrapping_rem_bk,
   both I256.wrapping_rem_euclid_bk,
   both I256.saturating_div_bk,
   both I256.wrapping_div_rem_bk,
   both I256.div_rem_bk,
   both I256.checked_div_rem_bk,
   both I256.overflowing_div_rem_bk,
   both I256.saturating_div_rem_bk,
   both I256.wrapping_div_rem_euclid_bk,
   both I256.div_rem_euclid_bk,
   both I256.checked_div_rem_euclid_bk,
   both I256.overflowing_div_rem_euclid_bk,
   both I256.saturating_div_rem_euclid_bk⟩

example : (I256.MIN rll).rem rll (I256.ofInt rll 10) = .ok (I256.ofInt rll (-8)) := by decide +kernel

/-- C46: powers, sums and products. -/
theorem C46_api_pow :
    SameInBoth U256.checked_pow
    ∧ SameInBoth U256.saturating_pow
    ∧ SameInBoth U256.wrapping_pow
    ∧ SameInBoth U256.overflowing_pow
    ∧ SameInBoth U256.pow
    ∧ SameInBoth U256.is_power_of_two
    ∧ SameInBoth U256.next_power_of_two
    ∧ SameInBoth U256.checked_next_power_of_two
    ∧ SameInBoth U256.sum
    ∧ SameInBoth U256.product
    ∧ SameInBoth I256.checked_pow
    ∧ SameInBoth I256.saturating_pow
    ∧ SameInBoth I256.wrapping_pow
    ∧ SameInBoth I256.overflowing_pow
    ∧ SameInBoth I256.pow
    ∧ SameInBoth I256.sum
    ∧ SameInBoth I256.product :=
  ⟨both U256.checked_pow_bk,
   both U256.saturating_pow_bk,
   both U256.wrapping_pow_bk,
   both U256.overflowing_pow_bk,
   both U256.pow_bk,
   both U256.is_power_of_two_bk,
   both U256.next_power_of_two_bk,
   both U256.checked_next_power_of_two_bk,
   both U256.sum_bk,
   both U256.product_bk,
   both I256.checked_pow_bk,
   both I256.saturating_pow_bk,
   both I256.wrapping_pow_bk,
   both I256.overflowing_pow_bk,
   both I256.pow_bk,
   both I256.sum_bk,
   both I256.product_bk⟩

example : (U256.ofNat dll 10).pow dll 50 = .ok (U256.ofNat dll (10 ^ 50)) := by decide +kernel

/-- C46: conversion between the two types and from `bool`. -/
theorem C46_api_try_between :
    SameInBoth U256.of_bool
    ∧ SameInBoth U256.try_from_i256
    ∧ SameInBoth I256.of_bool
    ∧ SameInBoth I256.try_from_u256 :=
  ⟨both U256.of_bool_bk,
   both U256.try_from_i256_bk,
   both I256.of_bool_bk,
   both I256.try_from_u256_bk⟩

example : I256.try_from_u256 rll U256.MAX = none := by decide +kernel

/-- C46: bytes. -/
theorem C46_api_to_bytes :
    SameInBoth U256.to_be_bytes
    ∧ SameInBoth U256.to_le_bytes
    ∧ SameInBoth I256.to_be_bytes
    ∧ SameInBoth I256.to_le_bytes
    ∧ SameInBoth U256.to_ne_bytes
    ∧ SameInBoth I256.to_ne_bytes
    ∧ SameInBoth U256.from_be_bytes
    ∧ SameInBoth U256.from_le_bytes
    ∧ SameInBoth U256.from_ne_bytes
    ∧ SameInBoth I256.from_be_bytes
    ∧ SameInBoth I256.from_le_bytes
    ∧ SameInBoth I256.from_ne_bytes :=
  ⟨both U256.to_be_bytes_bk,
   both U256.to_le_bytes_bk,
   both I256.to_be_bytes_bk,
   both I256.to_le_bytes_bk,
   both U256.to_ne_bytes_bk,
   both I256.to_ne_bytes_bk,
   both U256.from_be_bytes_bk,
   both U256.from_le_bytes_bk,
   both U256.from_ne_bytes_bk,
   both I256.from_be_bytes_bk,
   both I256.from_le_bytes_bk,
   both I256.from_ne_bytes_bk⟩

example : (U256.ofNat dll 258).to_be_bytes dll = List.replicate 30 0 ++ [1, 2] := by decide +kernel

/-- C46: conversion to floating point. -/
theorem C46_api_to_float :
    SameInBoth U256.as_f32
    ∧ SameInBoth U256.as_f64
    ∧ SameInBoth I256.as_f64
    ∧ SameInBoth I256.as_f32
    ∧ SameInBoth U256.lower_exp
    ∧ SameInBoth U256.upper_exp
    ∧ SameInBoth I256.lower_exp
    ∧ SameInBoth I256.upper_exp
    ∧ SameInBoth U256.into_f32
    ∧ SameInBoth U256.into_f64
    ∧ SameInBoth I256.into_f32
    ∧ SameInBoth I256.into_f64 :=
  ⟨both U256.as_f32_bk,
   both U256.as_f64_bk,
   both I256.as_f64_bk,
   both I256.as_f32_bk,
   both U256.lower_exp_bk,
   both U256.upper_exp_bk,
   both I256.lower_exp_bk,
   both I256.upper_exp_bk,
   both U256.into_f32_bk,
   both U256.into_f64_bk,
   both I256.into_f32_bk,
   both I256.into_f64_bk⟩

example : (U256.ofNat rll (2 ^ 128)).as_f64 rll = FloatTy.f64.ofInt (2 ^ 128) := by decide +kernel

/-- C46: formatting. -/
theorem C46_api_format :
    SameInBoth U256.display
    ∧ SameInBoth U256.debug
    ∧ SameInBoth U256.fmtRadix
    ∧ SameInBoth I256.display
    ∧ SameInBoth I256.debug
    ∧ SameInBoth I256.fmtRadix :=
  ⟨both U256.display_bk,
   both U256.debug_bk,
   both U256.fmtRadix_bk,
   both I256.display_bk,
   both I256.debug_bk,
   both I256.fmtRadix_bk⟩

example : (I256.ofInt dll (-42)).display dll .default = .ok "-42".toList := by decide +kernel

/-- C46: parsing. -/
theorem C46_api_parse :
    SameInBoth U256.from_str_radix
    ∧ SameInBoth U256.from_str
    ∧ SameInBoth U256.from_str_hex
    ∧ SameInBoth U256.from_str_prefixed
    ∧ SameInBoth U256.const_from_str_prefixed
    ∧ SameInBoth I256.from_str_radix
    ∧ SameInBoth I256.from_str
    ∧ SameInBoth I256.from_str_hex
    ∧ SameInBoth I256.from_str_prefixed
    ∧ SameInBoth I256.const_from_str_prefixed :=
  ⟨both U256.from_str_radix_bk,
   both U256.from_str_bk,
   both U256.from_str_hex_bk,
   both U256.from_str_prefixed_bk,
   both U256.const_from_str_prefixed_bk,
   both I256.from_str_radix_bk,
   both I256.from_str_bk,
   both I256.from_str_hex_bk,
   both I256.from_str_prefixed_bk,
   both I256.const_from_str_prefixed_bk⟩

example : U256.from_str_hex rll (str "0x1f") = .ok (.ok (U256.ofNat rll 31)) := by decide +kernel

/-- C46: serialization. -/
theorem C46_api_serialize :
    SameInBoth U256.serialize
    ∧ SameInBoth U256.serialize_decimal
    ∧ SameInBoth U256.serialize_bytes
    ∧ SameInBoth U256.serialize_compressed
    ∧ SameInBoth I256.serialize
    ∧ SameInBoth I256.serialize_decimal
    ∧ SameInBoth I256.serialize_bytes
    ∧ SameInBoth I256.serialize_compressed :=
  ⟨both U256.serialize_bk,
   both U256.serialize_decimal_bk,
   both U256.serialize_bytes_bk,
   both U256.serialize_compressed_bk,
   both I256.serialize_bk,
   both I256.serialize_decimal_bk,
   both I256.serialize_bytes_bk,
   both I256.serialize_compressed_bk⟩

example : (I256.ofInt dll (-255)).serialize dll .bytewise = .ok (.str (str "-0xff")) := by decide +kernel

/-- C46: deserialization. -/
theorem C46_api_deserialize :
    SameInBoth U256.deserialize
    ∧ SameInBoth U256.deserialize_decimal
    ∧ SameInBoth U256.deserialize_prefixed
    ∧ SameInBoth U256.deserialize_permissive
    ∧ SameInBoth U256.deserialize_bytes
    ∧ SameInBoth U256.deserialize_compressed
    ∧ SameInBoth I256.deserialize
    ∧ SameInBoth I256.deserialize_decimal
    ∧ SameInBoth I256.deserialize_prefixed
    ∧ SameInBoth I256.deserialize_permissive
    ∧ SameInBoth I256.deserialize_bytes
    ∧ SameInBoth I256.deserialize_compressed :=
  ⟨both U256.deserialize_bk,
   both U256.deserialize_decimal_bk,
   both U256.deserialize_prefixed_bk,
   both U256.deserialize_permissive_bk,
   both U256.deserialize_bytes_bk,
   both U256.deserialize_compressed_bk,
   both I256.deserialize_bk,
   both I256.deserialize_decimal_bk,
   both I256.deserialize_prefixed_bk,
   both I256.deserialize_permissive_bk,
   both I256.deserialize_bytes_bk,
   both I256.deserialize_compressed_bk⟩

example : U256.deserialize_compressed rll .be (.bytes [1, 2]) = .ok (.ok (U256.ofNat rll 258)) := by decide +kernel

/-- C46: conversions to and from every primitive integer type. -/
theorem C46_api_prim (c : Cfg) (t : PrimTy) (v : t.Val c) (a : U256) (x : I256) :
    let n : Cfg := { c with llvm := false }
    let l : Cfg := { c with llvm := true }
    (a.as_prim l t : t.Val c) = a.as_prim n t ∧ (x.as_prim l t : t.Val c) = x.as_prim n t
    ∧ (a.prim_try_from l t : Option (t.Val c)) = a.prim_try_from n t
    ∧ (x.prim_try_from l t : Option (t.Val c)) = x.prim_try_from n t
    ∧ U256.of_prim_as l t v = U256.of_prim_as n t v ∧ I256.of_prim_as l t v = I256.of_prim_as n t v
    ∧ U256.from_prim l t v = U256.from_prim n t v ∧ I256.from_prim l t v = I256.from_prim n t v
    ∧ U256.try_from_prim l t v = U256.try_from_prim n t v :=
  ⟨rfl, rfl, rfl, rfl, rfl, rfl, rfl, rfl, rfl⟩

example : I256.from_prim dll .i8 (-5#8) = I256.ofInt dll (-5) := by decide +kernel

/-- C46: conversion from floating point. -/
theorem C46_api_from_float (t : FloatTy) :
    SameInBoth (fun c => U256.of_float c t) ∧ SameInBoth (fun c => I256.of_float c t) :=
  ⟨both (fun c b => congrFun (U256.of_float_bk c b) t), both (fun c b => congrFun (I256.of_float_bk c b) t)⟩

example : U256.of_float dll .f64 (0x47f0000000000000#64 : BitVec 64) = .ok (U256.from_words dll 1 0) := by decide +kernel

/-- C46: binary operators with a primitive operand, for every operator that is the same in both. -/
theorem C46_api_mixed_operands {α β : Type} (op : Cfg → U256 → U256 → α) (iop : Cfg → I256 → I256 → β)
    (h : SameInBoth op) (hi : SameInBoth iop) :
    SameInBoth (fun c => U256.withPrim c op) ∧ SameInBoth (fun c => U256.primWith c op)
    ∧ SameInBoth (fun c => I256.withPrim c iop) ∧ SameInBoth (fun c => I256.primWith c iop) :=
  ⟨fun c => by funext a b; exact congrFun (congrFun (h c) a) _, fun c => by funext a b; exact congrFun (congrFun (h c) _) b,
   fun c => by funext a b; exact congrFun (congrFun (hi c) a) _, fun c => by funext a b; exact congrFun (congrFun (hi c) _) b⟩

example : SameInBoth (fun c => U256.withPrim c U256.mul) :=
  (C46_api_mixed_operands U256.mul I256.mul C46_api_u256_arithmetic.2.2.1 C46_api_i256_arithmetic.2.2.1).1

/-- C46: rotation by `n` is the same with both back-ends for every value, exactly if `n` is at most 256 or overflow
checks are off (the native rotations panic otherwise, `C13_rotate_panics`). -/
theorem C46_api_rotate (c : Cfg) (n : U32) :
    let na : Cfg := { c with llvm := false }
    let ll : Cfg := { c with llvm := true }
    let p := c.overflowChecks = true → n.toNat ≤ 256
    ((∀ a : U256, a.rotate_left ll n = a.rotate_left na n) ↔ p)
    ∧ ((∀ a : U256, a.rotate_right ll n = a.rotate_right na n) ↔ p)
    ∧ ((∀ a : I256, a.rotate_left ll n = a.rotate_left na n) ↔ p)
    ∧ ((∀ a : I256, a.rotate_right ll n = a.rotate_right na n) ↔ p) := by
  intro na ll p
  by_cases h : p
  · have hu : ∀ a : U256, a.rotate_left ll n = a.rotate_left na n ∧ a.rotate_right ll n = a.rotate_right na n := fun a => by
      have := C46_rotate_partial na a n h
      exact ⟨this.1.symm, this.2.symm⟩
    have hs : ∀ a : I256, a.rotate_left ll n = a.rotate_left na n ∧ a.rotate_right ll n = a.rotate_right na n := fun a => by
      have h1 : Intr.rol3 ll a.as_u256 n = Intr.rol3 na a.as_u256 n := (hu a.as_u256).1
      have h2 : Intr.ror3 ll a.as_u256 n = Intr.ror3 na a.as_u256 n := (hu a.as_u256).2
      unfold I256.rotate_left I256.rotate_right Intr.irol3 Intr.iror3
      rw [h1, h2]
      exact ⟨rfl, rfl⟩
    exact ⟨⟨fun _ => h, fun _ a => (hu a).1⟩, ⟨fun _ => h, fun _ a => (hu a).2⟩,
      ⟨fun _ => h, fun _ a => (hs a).1⟩, ⟨fun _ => h, fun _ a => (hs a).2⟩⟩
  · have hc : c.overflowChecks = true := by by_contra hc; exact h (fun hc' => absurd hc' hc)
    have hn : 256 < n.toNat := by by_contra hn; exact h (fun _ => by omega)
    obtain ⟨h1, h2, h3, h4⟩ := C13_rotate_panics na hc rfl U256.ZERO I256.ZERO n hn
    have hx : ll.overflowChecks = true → ll.llvm = false → n.toNat ≤ 256 := fun _ h => by cases h
    obtain ⟨_, _, g1, g2, _⟩ := C13_u256_rotate_partial ll U256.ZERO n hx
    obtain ⟨_, _, g3, g4, _⟩ := C13_i256_rotate_partial ll I256.ZERO n hx
    have no : ∀ {α : Type} {r s : Res α} {v : α}, Panics r → s = .ok v → s = r → False := by
      rintro α r s v ⟨q, hq⟩ hs e; rw [hq, hs] at e; cases e
    exact ⟨⟨fun e => (no h1 g1 (e _)).elim, fun e => absurd e h⟩, ⟨fun e => (no h2 g2 (e _)).elim, fun e => absurd e h⟩,
      ⟨fun e => (no h3 g3 (e _)).elim, fun e => absurd e h⟩, ⟨fun e => (no h4 g4 (e _)).elim, fun e => absurd e h⟩⟩

example : (U256.ONE rel).rotate_left { rel with llvm := true } 300 = (U256.ONE rel).rotate_left { rel with llvm := false } 300
    ∧ (U256.ONE dbg).rotate_left { dbg with llvm := true } 300 ≠ (U256.ONE dbg).rotate_left { dbg with llvm := false } 300 := by
  decide +kernel

theorem ShiftBy.value_inBuild {c : Cfg} (b : Bool) (s : ShiftBy c) : (s.inBuild b).value = s.value := by cases s <;> rfl

/-- C46: shifting by `s`, an amount of any type, is the same with both back-ends for every value, exactly if debug
assertions are on, or the amount modulo `2^32` is below 256, or the amount modulo 256 is at least 128. -/
theorem C46_api_shift_by (c : Cfg) (s : ShiftBy c) :
    let p := c.debugAssertions = true ∨ s.value % 2 ^ 32 < 256 ∨ 128 ≤ s.value % 256
    ((∀ a : U256, a.shlBy _ (s.inBuild true) = a.shlBy _ (s.inBuild false)) ↔ p)
    ∧ ((∀ a : U256, a.shrBy _ (s.inBuild true) = a.shrBy _ (s.inBuild false)) ↔ p)
    ∧ ((∀ a : I256, a.shlBy _ (s.inBuild true) = a.shlBy _ (s.inBuild false)) ↔ p)
    ∧ ((∀ a : I256, a.shrBy _ (s.inBuild true) = a.shrBy _ (s.inBuild false)) ↔ p) := by
  intro p
  have ha : ∀ b, (s.inBuild b).amount = s.amount := fun b => by cases s <;> rfl
  unfold U256.shlBy U256.shrBy I256.shlBy I256.shrBy
  rw [ha, ha]
  by_cases hd : c.debugAssertions = true
  · have hp : p := .inl hd
    have ht : ({ c with llvm := true } : Cfg).debugAssertions = true := hd
    have hf : ({ c with llvm := false } : Cfg).debugAssertions = true := hd
    by_cases hl : s.amount.toNat < 256
    · exact ⟨⟨fun _ => hp, fun _ a => (U256.shl_bk c true a hl).trans (U256.shl_bk c false a hl).symm⟩,
        ⟨fun _ => hp, fun _ a => (U256.shr_bk c true a hl).trans (U256.shr_bk c false a hl).symm⟩,
        ⟨fun _ => hp, fun _ a => (I256.shl_bk c true a hl).trans (I256.shl_bk c false a hl).symm⟩,
        ⟨fun _ => hp, fun _ a => (I256.shr_bk c true a hl).trans (I256.shr_bk c false a hl).symm⟩⟩
    · have hl : 256 ≤ s.amount.toNat := by omega
      exact ⟨⟨fun _ => hp, fun _ a => by rw [U256.shl_debug _ ht a hl, U256.shl_debug _ hf a hl]⟩,
        ⟨fun _ => hp, fun _ a => by rw [U256.shr_debug _ ht a hl, U256.shr_debug _ hf a hl]⟩,
        ⟨fun _ => hp, fun _ a => by rw [I256.shl_debug _ ht a hl, I256.shl_debug _ hf a hl]⟩,
        ⟨fun _ => hp, fun _ a => by rw [I256.shr_debug _ ht a hl, I256.shr_debug _ hf a hl]⟩⟩
  · have hd : c.debugAssertions = false := by simpa using hd
    have e := s.amount_release hd
    generalize s.amount = n at e
    have hp : p ↔ n.toNat < 256 ∨ (c.debugAssertions = false ∧ 128 ≤ n.toNat % 256) := by
      show (c.debugAssertions = true ∨ s.value % 2 ^ 32 < 256 ∨ 128 ≤ s.value % 256) ↔ _
      simp only [hd, Bool.false_eq_true, false_or, true_and]
      omega
    have h1 : ∀ a : U256, a.shl { c with llvm := true } n = .ok (Llvm.shl3 c a n) := fun a => by
      unfold U256.shl; rw [if_neg (by simp [hd])]; rfl
    have h2 : ∀ a : U256, a.shl { c with llvm := false } n = Native.shl3 c a n := fun a => by
      unfold U256.shl; rw [if_neg (by simp [hd])]; rfl
    have h3 : ∀ a : U256, a.shr { c with llvm := true } n = .ok (Llvm.shr3 c a n) := fun a => by
      unfold U256.shr; rw [if_neg (by simp [hd])]; rfl
    have h4 : ∀ a : U256, a.shr { c with llvm := false } n = Native.shr3 c a n := fun a => by
      unfold U256.shr; rw [if_neg (by simp [hd])]; rfl
    have h5 : ∀ a : I256, a.shr { c with llvm := true } n = .ok (Llvm.sar3 c a n) := fun a => by
      unfold I256.shr; rw [if_neg (by simp [hd])]; rfl
    have h6 : ∀ a : I256, a.shr { c with llvm := false } n = Native.sar3 c a n := fun a => by
      unfold I256.shr; rw [if_neg (by simp [hd])]; rfl
    have h7 : ∀ a : I256, a.shl { c with llvm := true } n = .ok (Llvm.shl3 c a.as_u256 n).as_i256 := fun a => by
      unfold I256.shl; rw [if_neg (by simp [hd])]; rfl
    have h8 : ∀ a : I256, a.shl { c with llvm := false } n = (Native.shl3 c a.as_u256 n).map U256.as_i256 := fun a => by
      unfold I256.shl; rw [if_neg (by simp [hd])]
      show (Native.shl3 c a.as_u256 n >>= fun r => pure r.as_i256) = _
      cases Native.shl3 c a.as_u256 n <;> rfl
    obtain ⟨g1, g2, g3⟩ := C46_shift_agree_iff c n
    simp only [h1, h2, h3, h4, h5, h6, h7, h8, hp]
    refine ⟨⟨fun h => g1.1 (fun a => (h a).symm), fun h a => (g1.2 h a).symm⟩,
      ⟨fun h => g2.1 (fun a => (h a).symm), fun h a => (g2.2 h a).symm⟩,
      ⟨fun h => g1.1 (fun a => ?_), fun h a => by rw [g1.2 h]; rfl⟩,
      ⟨fun h => g3.1 (fun a => (h a).symm), fun h a => (g3.2 h a).symm⟩⟩
    have := h a.as_i256
    have ea : a.as_i256.as_u256 = a := rfl
    rw [ea] at this
    cases hr : Native.shl3 c a n with
    | error f => rw [hr] at this; cases this
    | ok r =>
      rw [hr] at this
      have h' : (Llvm.shl3 c a n).as_i256 = r.as_i256 := Except.ok.inj this
      exact congrArg Except.ok (congrArg I256.as_u256 h').symm

example : ¬ (∀ a : U256, a.shlBy _ ((.prim .u16 256 : ShiftBy rel).inBuild true)
      = a.shlBy _ ((.prim .u16 256 : ShiftBy rel).inBuild false))
    ∧ (∀ a : U256, a.shlBy _ ((.prim .u16 400 : ShiftBy rel).inBuild true)
      = a.shlBy _ ((.prim .u16 400 : ShiftBy rel).inBuild false)) :=
  ⟨fun h => absurd ((C46_api_shift_by rel (.prim .u16 256)).1.1 h) (by decide),
   (C46_api_shift_by rel (.prim .u16 400)).1.2 (by decide)⟩

end Ethnum
