import Verif.Proofs.Endian.Ops

namespace Ethnum

@[mv_push] theorem U256.checkedOf_mv {α : Type} [Mv α] (r : α × Bool) : mv (U256.checkedOf r) = U256.checkedOf (mv r) := by
  obtain ⟨a, b⟩ := r; cases b <;> rfl
@[mv_push] theorem getD_mv {α : Type} [Mv α] (o : Option α) (d : α) : mv (o.getD d) = (mv o).getD (mv d) := by
  cases o <;> rfl
@[mv_push] theorem fst_mv {α β : Type} [Mv α] [Mv β] (p : α × β) : mv p.1 = (mv p).1 := rfl
namespace U256
@[mv_push] theorem count_ones_mv (c : Cfg) (x : U256) : count_ones c.other x = count_ones c (mv x) := by
  unfold count_ones addC; rw [Nat.add_comm, BitVec.add_comm]; rfl
@[mv_push] theorem count_zeros_mv (c : Cfg) (x : U256) : count_zeros c.other x = count_zeros c (mv x) := by
  unfold count_zeros addC; rw [Nat.add_comm, BitVec.add_comm]; rfl
@[mv_push] theorem leading_zeros_mv (c : Cfg) (x : U256) : leading_zeros c.other x = leading_zeros c (mv x) := by
  unfold leading_zeros; mv_base_auto
@[mv_push] theorem trailing_zeros_mv (c : Cfg) (x : U256) : trailing_zeros c.other x = trailing_zeros c (mv x) := by
  unfold trailing_zeros; mv_base_auto
@[mv_push] theorem leading_ones_mv (c : Cfg) (x : U256) : leading_ones c.other x = leading_ones c (mv x) := by
  unfold leading_ones; mv_base_auto
@[mv_push] theorem trailing_ones_mv (c : Cfg) (x : U256) : trailing_ones c.other x = trailing_ones c (mv x) := by
  unfold trailing_ones; mv_base_auto
@[mv_push] theorem rotate_left_mv (c : Cfg) (x : U256) (n : U32) : mv (rotate_left c x n) = rotate_left c.other (mv x) n := by
  unfold rotate_left; mv_auto
@[mv_push] theorem rotate_right_mv (c : Cfg) (x : U256) (n : U32) : mv (rotate_right c x n) = rotate_right c.other (mv x) n := by
  unfold rotate_right; mv_auto
@[mv_push] theorem swap_bytes_mv (x : U256) : mv (swap_bytes x) = swap_bytes (mv x) := by
  unfold swap_bytes; mv_auto
@[mv_push] theorem reverse_bits_mv (x : U256) : mv (reverse_bits x) = reverse_bits (mv x) := by
  unfold reverse_bits; mv_auto
@[mv_push] theorem overflowing_add_mv (c : Cfg) (a b : U256) : mv (overflowing_add c a b) = overflowing_add c.other (mv a) (mv b) := by
  unfold overflowing_add; mv_auto
@[mv_push] theorem wrapping_add_mv (c : Cfg) (a b : U256) : mv (wrapping_add c a b) = wrapping_add c.other (mv a) (mv b) := by
  unfold wrapping_add; mv_auto
@[mv_push] theorem checked_add_mv (c : Cfg) (a b : U256) : mv (checked_add c a b) = checked_add c.other (mv a) (mv b) := by
  unfold checked_add; mv_auto
@[mv_push] theorem saturating_add_mv (c : Cfg) (a b : U256) : mv (saturating_add c a b) = saturating_add c.other (mv a) (mv b) := by
  unfold saturating_add; mv_auto
@[mv_push] theorem overflowing_add_signed_mv (c : Cfg) (a : U256) (b : I256) : mv (overflowing_add_signed c a b) = overflowing_add_signed c.other (mv a) (mv b) := by
  have h := overflowing_add_mv c a b.as_u256; rw [I256.as_u256_mv] at h; unfold overflowing_add_signed; rw [← h]; generalize overflowing_add c a b.as_u256 = p; obtain ⟨r, o⟩ := p; mv_auto
@[mv_push] theorem checked_add_signed_mv (c : Cfg) (a : U256) (b : I256) : mv (checked_add_signed c a b) = checked_add_signed c.other (mv a) (mv b) := by
  unfold checked_add_signed; mv_auto
@[mv_push] theorem saturating_add_signed_mv (c : Cfg) (a : U256) (b : I256) : mv (saturating_add_signed c a b) = saturating_add_signed c.other (mv a) (mv b) := by
  have h := overflowing_add_mv c a b.as_u256; rw [I256.as_u256_mv] at h; unfold saturating_add_signed; rw [← h]; mv_auto
@[mv_push] theorem wrapping_add_signed_mv (c : Cfg) (a : U256) (b : I256) : mv (wrapping_add_signed c a b) = wrapping_add_signed c.other (mv a) (mv b) := by
  unfold wrapping_add_signed; mv_auto
@[mv_push] theorem overflowing_sub_mv (c : Cfg) (a b : U256) : mv (overflowing_sub c a b) = overflowing_sub c.other (mv a) (mv b) := by
  unfold overflowing_sub; mv_auto
@[mv_push] theorem wrapping_sub_mv (c : Cfg) (a b : U256) : mv (wrapping_sub c a b) = wrapping_sub c.other (mv a) (mv b) := by
  unfold wrapping_sub; mv_auto
@[mv_push] theorem checked_sub_mv (c : Cfg) (a b : U256) : mv (checked_sub c a b) = checked_sub c.other (mv a) (mv b) := by
  unfold checked_sub; mv_auto
@[mv_push] theorem saturating_sub_mv (c : Cfg) (a b : U256) : mv (saturating_sub c a b) = saturating_sub c.other (mv a) (mv b) := by
  unfold saturating_sub; mv_auto
@[mv_push] theorem abs_diff_mv (c : Cfg) (a b : U256) : mv (abs_diff c a b) = abs_diff c.other (mv a) (mv b) := by
  unfold abs_diff; mv_auto
@[mv_push] theorem overflowing_neg_mv (c : Cfg) (a : U256) : mv (overflowing_neg c a) = overflowing_neg c.other (mv a) := by
  unfold overflowing_neg; mv_auto
@[mv_push] theorem wrapping_neg_mv (c : Cfg) (a : U256) : mv (wrapping_neg c a) = wrapping_neg c.other (mv a) := by
  unfold wrapping_neg; mv_auto
@[mv_push] theorem checked_neg_mv (c : Cfg) (a : U256) : mv (checked_neg c a) = checked_neg c.other (mv a) := by
  unfold checked_neg; mv_auto
@[mv_push] theorem overflowing_mul_mv (c : Cfg) (a b : U256) : mv (overflowing_mul c a b) = overflowing_mul c.other (mv a) (mv b) := by
  unfold overflowing_mul; mv_auto
@[mv_push] theorem wrapping_mul_mv (c : Cfg) (a b : U256) : mv (wrapping_mul c a b) = wrapping_mul c.other (mv a) (mv b) := by
  unfold wrapping_mul; mv_auto
@[mv_push] theorem checked_mul_mv (c : Cfg) (a b : U256) : mv (checked_mul c a b) = checked_mul c.other (mv a) (mv b) := by
  unfold checked_mul; mv_auto
@[mv_push] theorem saturating_mul_mv (c : Cfg) (a b : U256) : mv (saturating_mul c a b) = saturating_mul c.other (mv a) (mv b) := by
  unfold saturating_mul; mv_auto
@[mv_push] theorem div_euclid_mv (c : Cfg) (a b : U256) : mv (div_euclid c a b) = div_euclid c.other (mv a) (mv b) := by
  unfold div_euclid; mv_auto
@[mv_push] theorem rem_euclid_mv (c : Cfg) (a b : U256) : mv (rem_euclid c a b) = rem_euclid c.other (mv a) (mv b) := by
  unfold rem_euclid; mv_auto
@[mv_push] theorem checked_div_mv (c : Cfg) (a b : U256) : mv (checked_div c a b) = checked_div c.other (mv a) (mv b) := by
  unfold checked_div; mv_auto
@[mv_push] theorem checked_div_euclid_mv (c : Cfg) (a b : U256) : mv (checked_div_euclid c a b) = checked_div_euclid c.other (mv a) (mv b) := by
  unfold checked_div_euclid; mv_auto
@[mv_push] theorem checked_rem_mv (c : Cfg) (a b : U256) : mv (checked_rem c a b) = checked_rem c.other (mv a) (mv b) := by
  unfold checked_rem; mv_auto
@[mv_push] theorem checked_rem_euclid_mv (c : Cfg) (a b : U256) : mv (checked_rem_euclid c a b) = checked_rem_euclid c.other (mv a) (mv b) := by
  unfold checked_rem_euclid; mv_auto
@[mv_push] theorem wrapping_div_mv (c : Cfg) (a b : U256) : mv (wrapping_div c a b) = wrapping_div c.other (mv a) (mv b) := by
  unfold wrapping_div; mv_auto
@[mv_push] theorem wrapping_div_euclid_mv (c : Cfg) (a b : U256) : mv (wrapping_div_euclid c a b) = wrapping_div_euclid c.other (mv a) (mv b) := by
  unfold wrapping_div_euclid; mv_auto
@[mv_push] theorem wrapping_rem_mv (c : Cfg) (a b : U256) : mv (wrapping_rem c a b) = wrapping_rem c.other (mv a) (mv b) := by
  unfold wrapping_rem; mv_auto
@[mv_push] theorem wrapping_rem_euclid_mv (c : Cfg) (a b : U256) : mv (wrapping_rem_euclid c a b) = wrapping_rem_euclid c.other (mv a) (mv b) := by
  unfold wrapping_rem_euclid; mv_auto
@[mv_push] theorem saturating_div_mv (c : Cfg) (a b : U256) : mv (saturating_div c a b) = saturating_div c.other (mv a) (mv b) := by
  unfold saturating_div; mv_auto
@[mv_push] theorem overflowing_div_mv (c : Cfg) (a b : U256) : mv (overflowing_div c a b) = overflowing_div c.other (mv a) (mv b) := by
  unfold overflowing_div; mv_auto
@[mv_push] theorem overflowing_div_euclid_mv (c : Cfg) (a b : U256) : mv (overflowing_div_euclid c a b) = overflowing_div_euclid c.other (mv a) (mv b) := by
  unfold overflowing_div_euclid; mv_auto
@[mv_push] theorem overflowing_rem_mv (c : Cfg) (a b : U256) : mv (overflowing_rem c a b) = overflowing_rem c.other (mv a) (mv b) := by
  unfold overflowing_rem; mv_auto
@[mv_push] theorem overflowing_rem_euclid_mv (c : Cfg) (a b : U256) : mv (overflowing_rem_euclid c a b) = overflowing_rem_euclid c.other (mv a) (mv b) := by
  unfold overflowing_rem_euclid; mv_auto
@[mv_push] theorem div_rem_mv (c : Cfg) (a b : U256) : mv (div_rem c a b) = div_rem c.other (mv a) (mv b) := by
  unfold div_rem; mv_auto
@[mv_push] theorem div_rem_euclid_mv (c : Cfg) (a b : U256) : mv (div_rem_euclid c a b) = div_rem_euclid c.other (mv a) (mv b) := by
  unfold div_rem_euclid; mv_auto
@[mv_push] theorem checked_div_rem_mv (c : Cfg) (a b : U256) : mv (checked_div_rem c a b) = checked_div_rem c.other (mv a) (mv b) := by
  unfold checked_div_rem; mv_auto
@[mv_push] theorem checked_div_rem_euclid_mv (c : Cfg) (a b : U256) : mv (checked_div_rem_euclid c a b) = checked_div_rem_euclid c.other (mv a) (mv b) := by
  unfold checked_div_rem_euclid; mv_auto
@[mv_push] theorem saturating_div_rem_mv (c : Cfg) (a b : U256) : mv (saturating_div_rem c a b) = saturating_div_rem c.other (mv a) (mv b) := by
  unfold saturating_div_rem; mv_auto
@[mv_push] theorem saturating_div_rem_euclid_mv (c : Cfg) (a b : U256) : mv (saturating_div_rem_euclid c a b) = saturating_div_rem_euclid c.other (mv a) (mv b) := by
  unfold saturating_div_rem_euclid; mv_auto
@[mv_push] theorem wrapping_div_rem_mv (c : Cfg) (a b : U256) : mv (wrapping_div_rem c a b) = wrapping_div_rem c.other (mv a) (mv b) := by
  unfold wrapping_div_rem; mv_auto
@[mv_push] theorem wrapping_div_rem_euclid_mv (c : Cfg) (a b : U256) : mv (wrapping_div_rem_euclid c a b) = wrapping_div_rem_euclid c.other (mv a) (mv b) := by
  unfold wrapping_div_rem_euclid; mv_auto
@[mv_push] theorem overflowing_div_rem_mv (c : Cfg) (a b : U256) : mv (overflowing_div_rem c a b) = overflowing_div_rem c.other (mv a) (mv b) := by
  unfold overflowing_div_rem; mv_auto
@[mv_push] theorem overflowing_div_rem_euclid_mv (c : Cfg) (a b : U256) : mv (overflowing_div_rem_euclid c a b) = overflowing_div_rem_euclid c.other (mv a) (mv b) := by
  unfold overflowing_div_rem_euclid; mv_auto
@[mv_push] theorem wrapping_shl_mv (c : Cfg) (a : U256) (n : U32) : mv (wrapping_shl c a n) = wrapping_shl c.other (mv a) n := by
  unfold wrapping_shl; mv_auto
@[mv_push] theorem wrapping_shr_mv (c : Cfg) (a : U256) (n : U32) : mv (wrapping_shr c a n) = wrapping_shr c.other (mv a) n := by
  unfold wrapping_shr; mv_auto
@[mv_push] theorem overflowing_shl_mv (c : Cfg) (a : U256) (n : U32) : mv (overflowing_shl c a n) = overflowing_shl c.other (mv a) n := by
  unfold overflowing_shl; mv_auto
@[mv_push] theorem overflowing_shr_mv (c : Cfg) (a : U256) (n : U32) : mv (overflowing_shr c a n) = overflowing_shr c.other (mv a) n := by
  unfold overflowing_shr; mv_auto
@[mv_push] theorem checked_shl_mv (c : Cfg) (a : U256) (n : U32) : mv (checked_shl c a n) = checked_shl c.other (mv a) n := by
  unfold checked_shl; mv_auto
@[mv_push] theorem checked_shr_mv (c : Cfg) (a : U256) (n : U32) : mv (checked_shr c a n) = checked_shr c.other (mv a) n := by
  unfold checked_shr; mv_auto
@[mv_push] theorem checked_pow_loop_mv (c : Cfg) (x0 : Nat) (x1 : U32) (x2 : U256) (x3 : U256) : mv (checked_pow_loop c x0 x1 x2 x3) = checked_pow_loop c.other x0 x1 (mv x2) (mv x3) := by
  induction x0 generalizing x1 x2 x3 with
  | zero => rfl
  | succ n ih => unfold checked_pow_loop; mv_auto
@[mv_push] theorem checked_pow_mv (c : Cfg) (a : U256) (exp : U32) : mv (checked_pow c a exp) = checked_pow c.other (mv a) exp := by
  unfold checked_pow; mv_auto
@[mv_push] theorem saturating_pow_mv (c : Cfg) (a : U256) (exp : U32) : mv (saturating_pow c a exp) = saturating_pow c.other (mv a) exp := by
  unfold saturating_pow; mv_auto
@[mv_push] theorem wrapping_pow_loop_mv (c : Cfg) (x0 : Nat) (x1 : U32) (x2 : U256) (x3 : U256) : mv (wrapping_pow_loop c x0 x1 x2 x3) = wrapping_pow_loop c.other x0 x1 (mv x2) (mv x3) := by
  induction x0 generalizing x1 x2 x3 with
  | zero => rfl
  | succ n ih => unfold wrapping_pow_loop; mv_auto
@[mv_push] theorem wrapping_pow_mv (c : Cfg) (a : U256) (exp : U32) : mv (wrapping_pow c a exp) = wrapping_pow c.other (mv a) exp := by
  unfold wrapping_pow; mv_auto
@[mv_push] theorem overflowing_pow_loop_mv (c : Cfg) (x0 : Nat) (x1 : U32) (x2 : U256) (x3 : U256) (x4 : Bool) : mv (overflowing_pow_loop c x0 x1 x2 x3 x4) = overflowing_pow_loop c.other x0 x1 (mv x2) (mv x3) x4 := by
  induction x0 generalizing x1 x2 x3 x4 with
  | zero => rfl
  | succ n ih => unfold overflowing_pow_loop; mv_auto
@[mv_push] theorem overflowing_pow_mv (c : Cfg) (a : U256) (exp : U32) : mv (overflowing_pow c a exp) = overflowing_pow c.other (mv a) exp := by
  unfold overflowing_pow; mv_auto
@[mv_push] theorem pow_loop_mv (c : Cfg) (x0 : Nat) (x1 : U32) (x2 : U256) (x3 : U256) : mv (pow_loop c x0 x1 x2 x3) = pow_loop c.other x0 x1 (mv x2) (mv x3) := by
  induction x0 generalizing x1 x2 x3 with
  | zero => rfl
  | succ n ih => unfold pow_loop; mv_auto
@[mv_push] theorem pow_mv (c : Cfg) (a : U256) (exp : U32) : mv (pow c a exp) = pow c.other (mv a) exp := by
  unfold pow; mv_auto
@[mv_push] theorem is_power_of_two_mv (c : Cfg) (a : U256) : is_power_of_two c.other a = is_power_of_two c (mv a) := by
  unfold is_power_of_two; mv_base_auto
@[mv_push] theorem one_less_than_next_power_of_two_mv (c : Cfg) (a : U256) : mv (one_less_than_next_power_of_two c a) = one_less_than_next_power_of_two c.other (mv a) := by
  unfold one_less_than_next_power_of_two; mv_auto
@[mv_push] theorem next_power_of_two_mv (c : Cfg) (a : U256) : mv (next_power_of_two c a) = next_power_of_two c.other (mv a) := by
  unfold next_power_of_two; mv_auto
@[mv_push] theorem checked_next_power_of_two_mv (c : Cfg) (a : U256) : mv (checked_next_power_of_two c a) = checked_next_power_of_two c.other (mv a) := by
  unfold checked_next_power_of_two; mv_auto
@[mv_push] theorem sum_mv (c : Cfg) (l : List U256) : mv (sum c l) = sum c.other (mv l) := by
  exact mv_foldlM (fun a b => add_mv c a b) l _
@[mv_push] theorem product_mv (c : Cfg) (l : List U256) : mv (product c l) = product c.other (mv l) := by
  unfold product; rw [← ONE_mv]; exact mv_foldlM (fun a b => mul_mv c a b) l _
end U256
end Ethnum
