import Verif.Proofs.Endian.UintApi

namespace Ethnum
namespace I256
@[mv_push] theorem count_ones_mv (c : Cfg) (x : I256) : count_ones c.other x = count_ones c (mv x) := by
  unfold count_ones addC; rw [Nat.add_comm, BitVec.add_comm]; rfl
@[mv_push] theorem count_zeros_mv (c : Cfg) (x : I256) : count_zeros c.other x = count_zeros c (mv x) := by
  unfold count_zeros addC; rw [Nat.add_comm, BitVec.add_comm]; rfl
@[mv_push] theorem leading_zeros_mv (c : Cfg) (x : I256) : leading_zeros c.other x = leading_zeros c (mv x) := by
  unfold leading_zeros; mv_base_auto
@[mv_push] theorem trailing_zeros_mv (c : Cfg) (x : I256) : trailing_zeros c.other x = trailing_zeros c (mv x) := by
  unfold trailing_zeros; mv_base_auto
@[mv_push] theorem leading_ones_mv (c : Cfg) (x : I256) : leading_ones c.other x = leading_ones c (mv x) := by
  unfold leading_ones; mv_base_auto
@[mv_push] theorem trailing_ones_mv (c : Cfg) (x : I256) : trailing_ones c.other x = trailing_ones c (mv x) := by
  unfold trailing_ones; mv_base_auto
@[mv_push] theorem rotate_left_mv (c : Cfg) (x : I256) (n : U32) : mv (rotate_left c x n) = rotate_left c.other (mv x) n := by
  unfold rotate_left; mv_auto
@[mv_push] theorem rotate_right_mv (c : Cfg) (x : I256) (n : U32) : mv (rotate_right c x n) = rotate_right c.other (mv x) n := by
  unfold rotate_right; mv_auto
@[mv_push] theorem swap_bytes_mv (x : I256) : mv (swap_bytes x) = swap_bytes (mv x) := by
  unfold swap_bytes; mv_auto
@[mv_push] theorem reverse_bits_mv (x : I256) : mv (reverse_bits x) = reverse_bits (mv x) := by
  unfold reverse_bits; mv_auto
@[mv_push] theorem signum128_mv (c : Cfg) (x : I256) : signum128 c.other x = signum128 c (mv x) := by
  unfold signum128; mv_base_auto
@[mv_push] theorem signum_mv (c : Cfg) (x : I256) : mv (signum c x) = signum c.other (mv x) := by
  unfold signum; mv_auto
@[mv_push] theorem is_positive_mv (c : Cfg) (x : I256) : is_positive c.other x = is_positive c (mv x) := by
  unfold is_positive; mv_base_auto
@[mv_push] theorem is_negative_mv (c : Cfg) (x : I256) : is_negative c.other x = is_negative c (mv x) := by
  unfold is_negative; mv_base_auto
@[mv_push] theorem overflowing_add_mv (c : Cfg) (a b : I256) : mv (overflowing_add c a b) = overflowing_add c.other (mv a) (mv b) := by
  unfold overflowing_add; mv_auto
@[mv_push] theorem wrapping_add_mv (c : Cfg) (a b : I256) : mv (wrapping_add c a b) = wrapping_add c.other (mv a) (mv b) := by
  unfold wrapping_add; mv_auto
@[mv_push] theorem checked_add_mv (c : Cfg) (a b : I256) : mv (checked_add c a b) = checked_add c.other (mv a) (mv b) := by
  unfold checked_add; mv_auto
@[mv_push] theorem saturating_add_mv (c : Cfg) (a b : I256) : mv (saturating_add c a b) = saturating_add c.other (mv a) (mv b) := by
  have h := checked_add_mv c a b; unfold saturating_add; rw [← h]; cases checked_add c a b <;> mv_auto
@[mv_push] theorem overflowing_sub_mv (c : Cfg) (a b : I256) : mv (overflowing_sub c a b) = overflowing_sub c.other (mv a) (mv b) := by
  unfold overflowing_sub; mv_auto
@[mv_push] theorem checked_sub_mv (c : Cfg) (a b : I256) : mv (checked_sub c a b) = checked_sub c.other (mv a) (mv b) := by
  unfold checked_sub; mv_auto
@[mv_push] theorem saturating_sub_mv (c : Cfg) (a b : I256) : mv (saturating_sub c a b) = saturating_sub c.other (mv a) (mv b) := by
  have h := checked_sub_mv c a b; unfold saturating_sub; rw [← h]; cases checked_sub c a b <;> mv_auto
@[mv_push] theorem overflowing_add_unsigned_mv (c : Cfg) (a : I256) (b : U256) : mv (overflowing_add_unsigned c a b) = overflowing_add_unsigned c.other (mv a) (mv b) := by
  have h := overflowing_add_mv c a b.as_i256; rw [U256.as_i256_mv] at h; unfold overflowing_add_unsigned; dsimp only; rw [← h]; generalize overflowing_add c a b.as_i256 = p; obtain ⟨r, o⟩ := p; mv_auto
@[mv_push] theorem checked_add_unsigned_mv (c : Cfg) (a : I256) (b : U256) : mv (checked_add_unsigned c a b) = checked_add_unsigned c.other (mv a) (mv b) := by
  unfold checked_add_unsigned; mv_auto
@[mv_push] theorem saturating_add_unsigned_mv (c : Cfg) (a : I256) (b : U256) : mv (saturating_add_unsigned c a b) = saturating_add_unsigned c.other (mv a) (mv b) := by
  have h := checked_add_unsigned_mv c a b; unfold saturating_add_unsigned; rw [← h]; cases checked_add_unsigned c a b <;> mv_auto
@[mv_push] theorem wrapping_add_unsigned_mv (c : Cfg) (a : I256) (b : U256) : mv (wrapping_add_unsigned c a b) = wrapping_add_unsigned c.other (mv a) (mv b) := by
  unfold wrapping_add_unsigned; mv_auto
@[mv_push] theorem overflowing_sub_unsigned_mv (c : Cfg) (a : I256) (b : U256) : mv (overflowing_sub_unsigned c a b) = overflowing_sub_unsigned c.other (mv a) (mv b) := by
  have h := overflowing_sub_mv c a b.as_i256; rw [U256.as_i256_mv] at h; unfold overflowing_sub_unsigned; dsimp only; rw [← h]; generalize overflowing_sub c a b.as_i256 = p; obtain ⟨r, o⟩ := p; mv_auto
@[mv_push] theorem checked_sub_unsigned_mv (c : Cfg) (a : I256) (b : U256) : mv (checked_sub_unsigned c a b) = checked_sub_unsigned c.other (mv a) (mv b) := by
  unfold checked_sub_unsigned; mv_auto
@[mv_push] theorem saturating_sub_unsigned_mv (c : Cfg) (a : I256) (b : U256) : mv (saturating_sub_unsigned c a b) = saturating_sub_unsigned c.other (mv a) (mv b) := by
  have h := checked_sub_unsigned_mv c a b; unfold saturating_sub_unsigned; rw [← h]; cases checked_sub_unsigned c a b <;> mv_auto
@[mv_push] theorem wrapping_sub_unsigned_mv (c : Cfg) (a : I256) (b : U256) : mv (wrapping_sub_unsigned c a b) = wrapping_sub_unsigned c.other (mv a) (mv b) := by
  unfold wrapping_sub_unsigned; mv_auto
@[mv_push] theorem overflowing_neg_mv (c : Cfg) (a : I256) : mv (overflowing_neg c a) = overflowing_neg c.other (mv a) := by
  unfold overflowing_neg; mv_auto
@[mv_push] theorem checked_neg_mv (c : Cfg) (a : I256) : mv (checked_neg c a) = checked_neg c.other (mv a) := by
  unfold checked_neg; mv_auto
@[mv_push] theorem saturating_neg_mv (c : Cfg) (a : I256) : mv (saturating_neg c a) = saturating_neg c.other (mv a) := by
  unfold saturating_neg; mv_auto
@[mv_push] theorem wrapping_neg_mv (c : Cfg) (a : I256) : mv (wrapping_neg c a) = wrapping_neg c.other (mv a) := by
  unfold wrapping_neg; mv_auto
@[mv_push] theorem checked_abs_mv (c : Cfg) (a : I256) : mv (checked_abs c a) = checked_abs c.other (mv a) := by
  unfold checked_abs; mv_auto
@[mv_push] theorem saturating_abs_mv (c : Cfg) (a : I256) : mv (saturating_abs c a) = saturating_abs c.other (mv a) := by
  unfold saturating_abs; mv_auto
@[mv_push] theorem wrapping_abs_mv (c : Cfg) (a : I256) : mv (wrapping_abs c a) = wrapping_abs c.other (mv a) := by
  unfold wrapping_abs; mv_auto
@[mv_push] theorem unsigned_abs_mv (c : Cfg) (a : I256) : mv (unsigned_abs c a) = unsigned_abs c.other (mv a) := by
  unfold unsigned_abs; mv_auto
@[mv_push] theorem overflowing_abs_mv (c : Cfg) (a : I256) : mv (overflowing_abs c a) = overflowing_abs c.other (mv a) := by
  unfold overflowing_abs; mv_auto
@[mv_push] theorem abs_mv (c : Cfg) (a : I256) : mv (abs c a) = abs c.other (mv a) := by
  unfold abs; mv_auto
@[mv_push] theorem abs_diff_mv (c : Cfg) (a b : I256) : mv (abs_diff c a b) = abs_diff c.other (mv a) (mv b) := by
  unfold abs_diff; mv_auto
@[mv_push] theorem overflowing_mul_mv (c : Cfg) (a b : I256) : mv (overflowing_mul c a b) = overflowing_mul c.other (mv a) (mv b) := by
  unfold overflowing_mul; mv_auto
@[mv_push] theorem wrapping_mul_mv (c : Cfg) (a b : I256) : mv (wrapping_mul c a b) = wrapping_mul c.other (mv a) (mv b) := by
  unfold wrapping_mul; mv_auto
@[mv_push] theorem checked_mul_mv (c : Cfg) (a b : I256) : mv (checked_mul c a b) = checked_mul c.other (mv a) (mv b) := by
  unfold checked_mul; mv_auto
@[mv_push] theorem saturating_mul_mv (c : Cfg) (a b : I256) : mv (saturating_mul c a b) = saturating_mul c.other (mv a) (mv b) := by
  unfold saturating_mul; mv_auto
@[mv_push] theorem minByMinusOne_mv (c : Cfg) (a b : I256) : minByMinusOne c.other a b = minByMinusOne c (mv a) (mv b) := by
  unfold minByMinusOne; mv_base_auto
@[mv_push] theorem div_euclid_mv (c : Cfg) (a b : I256) : mv (div_euclid c a b) = div_euclid c.other (mv a) (mv b) := by
  unfold div_euclid; mv_auto
@[mv_push] theorem rem_euclid_mv (c : Cfg) (a b : I256) : mv (rem_euclid c a b) = rem_euclid c.other (mv a) (mv b) := by
  unfold rem_euclid; mv_auto
@[mv_push] theorem checked_div_mv (c : Cfg) (a b : I256) : mv (checked_div c a b) = checked_div c.other (mv a) (mv b) := by
  unfold checked_div; mv_auto
@[mv_push] theorem checked_div_euclid_mv (c : Cfg) (a b : I256) : mv (checked_div_euclid c a b) = checked_div_euclid c.other (mv a) (mv b) := by
  unfold checked_div_euclid; mv_auto
@[mv_push] theorem checked_rem_mv (c : Cfg) (a b : I256) : mv (checked_rem c a b) = checked_rem c.other (mv a) (mv b) := by
  unfold checked_rem; mv_auto
@[mv_push] theorem checked_rem_euclid_mv (c : Cfg) (a b : I256) : mv (checked_rem_euclid c a b) = checked_rem_euclid c.other (mv a) (mv b) := by
  unfold checked_rem_euclid; mv_auto
@[mv_push] theorem overflowing_div_mv (c : Cfg) (a b : I256) : mv (overflowing_div c a b) = overflowing_div c.other (mv a) (mv b) := by
  unfold overflowing_div; mv_auto
@[mv_push] theorem overflowing_div_euclid_mv (c : Cfg) (a b : I256) : mv (overflowing_div_euclid c a b) = overflowing_div_euclid c.other (mv a) (mv b) := by
  unfold overflowing_div_euclid; mv_auto
@[mv_push] theorem overflowing_rem_mv (c : Cfg) (a b : I256) : mv (overflowing_rem c a b) = overflowing_rem c.other (mv a) (mv b) := by
  unfold overflowing_rem; mv_auto
@[mv_push] theorem overflowing_rem_euclid_mv (c : Cfg) (a b : I256) : mv (overflowing_rem_euclid c a b) = overflowing_rem_euclid c.other (mv a) (mv b) := by
  unfold overflowing_rem_euclid; mv_auto
@[mv_push] theorem wrapping_div_mv (c : Cfg) (a b : I256) : mv (wrapping_div c a b) = wrapping_div c.other (mv a) (mv b) := by
  unfold wrapping_div; mv_auto
@[mv_push] theorem wrapping_div_euclid_mv (c : Cfg) (a b : I256) : mv (wrapping_div_euclid c a b) = wrapping_div_euclid c.other (mv a) (mv b) := by
  unfold wrapping_div_euclid; mv_auto
@[mv_push] theorem wrapping_rem_mv (c : Cfg) (a b : I256) : mv (wrapping_rem c a b) = wrapping_rem c.other (mv a) (mv b) := by
  unfold wrapping_rem; mv_auto
@[mv_push] theorem wrapping_rem_euclid_mv (c : Cfg) (a b : I256) : mv (wrapping_rem_euclid c a b) = wrapping_rem_euclid c.other (mv a) (mv b) := by
  unfold wrapping_rem_euclid; mv_auto
@[mv_push] theorem saturating_div_mv (c : Cfg) (a b : I256) : mv (saturating_div c a b) = saturating_div c.other (mv a) (mv b) := by
  unfold saturating_div; refine mv_bind2 (overflowing_div_mv c a b) (fun r o => ?_); cases o <;> mv_auto
@[mv_push] theorem wrapping_div_rem_mv (c : Cfg) (a b : I256) : mv (wrapping_div_rem c a b) = wrapping_div_rem c.other (mv a) (mv b) := by
  unfold wrapping_div_rem; mv_auto
@[mv_push] theorem div_rem_mv (c : Cfg) (a b : I256) : mv (div_rem c a b) = div_rem c.other (mv a) (mv b) := by
  unfold div_rem; mv_auto
@[mv_push] theorem checked_div_rem_mv (c : Cfg) (a b : I256) : mv (checked_div_rem c a b) = checked_div_rem c.other (mv a) (mv b) := by
  unfold checked_div_rem; mv_auto
@[mv_push] theorem overflowing_div_rem_mv (c : Cfg) (a b : I256) : mv (overflowing_div_rem c a b) = overflowing_div_rem c.other (mv a) (mv b) := by
  unfold overflowing_div_rem; mv_auto
@[mv_push] theorem saturating_div_rem_mv (c : Cfg) (a b : I256) : mv (saturating_div_rem c a b) = saturating_div_rem c.other (mv a) (mv b) := by
  unfold saturating_div_rem; refine mv_bind3 (overflowing_div_rem_mv c a b) (fun q r o => ?_); cases o <;> mv_auto
@[mv_push] theorem euclidCheck_mv (c : Cfg) (remainder : I256) (abs_divisor : U256) : euclidCheck c.other remainder abs_divisor = euclidCheck c (mv remainder) (mv abs_divisor) := by
  unfold euclidCheck; mv_base_auto
@[mv_push] theorem euclidQuot_mv (c : Cfg) (adjust quotient_sign : Bool) (quotient : I256) : mv (euclidQuot c adjust quotient_sign quotient) = euclidQuot c.other adjust quotient_sign (mv quotient) := by
  unfold euclidQuot; mv_auto
@[mv_push] theorem wrapping_div_rem_euclid_mv (c : Cfg) (a b : I256) : mv (wrapping_div_rem_euclid c a b) = wrapping_div_rem_euclid c.other (mv a) (mv b) := by
  unfold wrapping_div_rem_euclid; mv_auto
@[mv_push] theorem div_rem_euclid_mv (c : Cfg) (a b : I256) : mv (div_rem_euclid c a b) = div_rem_euclid c.other (mv a) (mv b) := by
  unfold div_rem_euclid; mv_auto
@[mv_push] theorem checked_div_rem_euclid_mv (c : Cfg) (a b : I256) : mv (checked_div_rem_euclid c a b) = checked_div_rem_euclid c.other (mv a) (mv b) := by
  unfold checked_div_rem_euclid; mv_auto
@[mv_push] theorem overflowing_div_rem_euclid_mv (c : Cfg) (a b : I256) : mv (overflowing_div_rem_euclid c a b) = overflowing_div_rem_euclid c.other (mv a) (mv b) := by
  unfold overflowing_div_rem_euclid; mv_auto
@[mv_push] theorem saturating_div_rem_euclid_mv (c : Cfg) (a b : I256) : mv (saturating_div_rem_euclid c a b) = saturating_div_rem_euclid c.other (mv a) (mv b) := by
  unfold saturating_div_rem_euclid; refine mv_bind3 (overflowing_div_rem_euclid_mv c a b) (fun q r o => ?_); cases o <;> mv_auto
@[mv_push] theorem wrapping_shl_mv (c : Cfg) (a : I256) (n : U32) : mv (wrapping_shl c a n) = wrapping_shl c.other (mv a) n := by
  unfold wrapping_shl; mv_auto
@[mv_push] theorem wrapping_shr_mv (c : Cfg) (a : I256) (n : U32) : mv (wrapping_shr c a n) = wrapping_shr c.other (mv a) n := by
  unfold wrapping_shr; mv_auto
@[mv_push] theorem overflowing_shl_mv (c : Cfg) (a : I256) (n : U32) : mv (overflowing_shl c a n) = overflowing_shl c.other (mv a) n := by
  unfold overflowing_shl; mv_auto
@[mv_push] theorem overflowing_shr_mv (c : Cfg) (a : I256) (n : U32) : mv (overflowing_shr c a n) = overflowing_shr c.other (mv a) n := by
  unfold overflowing_shr; mv_auto
@[mv_push] theorem checked_shl_mv (c : Cfg) (a : I256) (n : U32) : mv (checked_shl c a n) = checked_shl c.other (mv a) n := by
  unfold checked_shl; mv_auto
@[mv_push] theorem checked_shr_mv (c : Cfg) (a : I256) (n : U32) : mv (checked_shr c a n) = checked_shr c.other (mv a) n := by
  unfold checked_shr; mv_auto
@[mv_push] theorem checked_pow_loop_mv (c : Cfg) (x0 : Nat) (x1 : U32) (x2 : I256) (x3 : I256) : mv (checked_pow_loop c x0 x1 x2 x3) = checked_pow_loop c.other x0 x1 (mv x2) (mv x3) := by
  induction x0 generalizing x1 x2 x3 with
  | zero => rfl
  | succ n ih => unfold checked_pow_loop; mv_auto
@[mv_push] theorem checked_pow_mv (c : Cfg) (a : I256) (exp : U32) : mv (checked_pow c a exp) = checked_pow c.other (mv a) exp := by
  unfold checked_pow; mv_auto
@[mv_push] theorem saturating_pow_mv (c : Cfg) (a : I256) (exp : U32) : mv (saturating_pow c a exp) = saturating_pow c.other (mv a) exp := by
  unfold saturating_pow; mv_auto
@[mv_push] theorem wrapping_pow_loop_mv (c : Cfg) (x0 : Nat) (x1 : U32) (x2 : I256) (x3 : I256) : mv (wrapping_pow_loop c x0 x1 x2 x3) = wrapping_pow_loop c.other x0 x1 (mv x2) (mv x3) := by
  induction x0 generalizing x1 x2 x3 with
  | zero => rfl
  | succ n ih => unfold wrapping_pow_loop; mv_auto
@[mv_push] theorem wrapping_pow_mv (c : Cfg) (a : I256) (exp : U32) : mv (wrapping_pow c a exp) = wrapping_pow c.other (mv a) exp := by
  unfold wrapping_pow; mv_auto
@[mv_push] theorem overflowing_pow_loop_mv (c : Cfg) (x0 : Nat) (x1 : U32) (x2 : I256) (x3 : I256) (x4 : Bool) : mv (overflowing_pow_loop c x0 x1 x2 x3 x4) = overflowing_pow_loop c.other x0 x1 (mv x2) (mv x3) x4 := by
  induction x0 generalizing x1 x2 x3 x4 with
  | zero => rfl
  | succ n ih => unfold overflowing_pow_loop; mv_auto
@[mv_push] theorem overflowing_pow_mv (c : Cfg) (a : I256) (exp : U32) : mv (overflowing_pow c a exp) = overflowing_pow c.other (mv a) exp := by
  unfold overflowing_pow; mv_auto
@[mv_push] theorem pow_loop_mv (c : Cfg) (x0 : Nat) (x1 : U32) (x2 : I256) (x3 : I256) : mv (pow_loop c x0 x1 x2 x3) = pow_loop c.other x0 x1 (mv x2) (mv x3) := by
  induction x0 generalizing x1 x2 x3 with
  | zero => rfl
  | succ n ih => unfold pow_loop; mv_auto
@[mv_push] theorem pow_mv (c : Cfg) (a : I256) (exp : U32) : mv (pow c a exp) = pow c.other (mv a) exp := by
  unfold pow; mv_auto
@[mv_push] theorem sum_mv (c : Cfg) (l : List I256) : mv (sum c l) = sum c.other (mv l) := by
  exact mv_foldlM (fun a b => add_mv c a b) l _
@[mv_push] theorem product_mv (c : Cfg) (l : List I256) : mv (product c l) = product c.other (mv l) := by
  unfold product; rw [← ONE_mv]; exact mv_foldlM (fun a b => mul_mv c a b) l _
end I256
end Ethnum
