import Verif.Proofs.Endian.Intrinsics

namespace Ethnum
namespace Intr
@[mv_push] theorem shl_nz_mv (c : Cfg) (x : U128) (n : U32) : shl_nz c.other x n = shl_nz c x n := by
  unfold shl_nz; mv_base_auto
@[mv_push] theorem shr_nz_mv (c : Cfg) (x : U128) (n : U32) : shr_nz c.other x n = shr_nz c x n := by
  unfold shr_nz; mv_base_auto
@[mv_push] theorem corrTest_mv (c : Cfg) (q rhat vn0 un : U128) : corrTest c.other q rhat vn0 un = corrTest c q rhat vn0 un := by
  unfold corrTest; mv_base_auto
@[mv_push] theorem corrLoop_mv (c : Cfg) (vn1 vn0 un : U128) (x0 : Nat) (x1 : U128) (x2 : U128) : corrLoop c.other vn1 vn0 un x0 x1 x2 = corrLoop c vn1 vn0 un x0 x1 x2 := by
  induction x0 generalizing x1 x2 with
  | zero => rfl
  | succ n ih => unfold corrLoop; mv_base_auto
@[mv_push] theorem normalize_mv (c : Cfg) (u1 u0 v : U128) (s : U32) : normalize c.other u1 u0 v s = normalize c u1 u0 v s := by
  unfold normalize; mv_base_auto
@[mv_push] theorem quotDigit_mv (c : Cfg) (un un' vn1 vn0 : U128) : quotDigit c.other un un' vn1 vn0 = quotDigit c un un' vn1 vn0 := by
  unfold quotDigit; mv_base_auto
@[mv_push] theorem udiv256_by_128_to_128_mv (c : Cfg) (u1 u0 v : U128) : udiv256_by_128_to_128 c.other u1 u0 v = udiv256_by_128_to_128 c u1 u0 v := by
  unfold udiv256_by_128_to_128; mv_base_auto
@[mv_push] theorem full_shl_mv (c : Cfg) (a : U256) (shift : U32) : full_shl c.other a shift = full_shl c (mv a) shift := by
  unfold full_shl; mv_base_auto
@[mv_push] theorem full_shr_mv (c : Cfg) (u : U128 × U128 × U128) (shift : U32) : mv (full_shr c u shift) = full_shr c.other u shift := by
  unfold full_shr; mv_auto
@[mv_push] theorem fullmul_u128_mv (c : Cfg) (a b : U128) : fullmul_u128 c.other a b = fullmul_u128 c a b := by
  unfold fullmul_u128; mv_base_auto
@[mv_push] theorem fullmul_u256_u128_mv (c : Cfg) (a : U256) (b : U128) : fullmul_u256_u128 c.other a b = fullmul_u256_u128 c (mv a) b := by
  unfold fullmul_u256_u128; mv_base_auto
@[mv_push] theorem knuthLoop_mv (c : Cfg) (v_n_1 v_n_2 u0 : U128) (x0 : Nat) (x1 : U128) (x2 : U128) : knuthLoop c.other v_n_1 v_n_2 u0 x0 x1 x2 = knuthLoop c v_n_1 v_n_2 u0 x0 x1 x2 := by
  induction x0 generalizing x1 x2 with
  | zero => rfl
  | succ n ih => unfold knuthLoop; mv_base_auto
@[mv_push] theorem knuthQhat_mv (c : Cfg) (u0 u1 u2 v_n_1 v_n_2 : U128) : knuthQhat c.other u0 u1 u2 v_n_1 v_n_2 = knuthQhat c u0 u1 u2 v_n_1 v_n_2 := by
  unfold knuthQhat; mv_base_auto
@[mv_push] theorem knuthSub_mv (c : Cfg) (u0 u1 u2 : U128) (v : U256) (q_hat : U128) : knuthSub c.other u0 u1 u2 v q_hat = knuthSub c u0 u1 u2 (mv v) q_hat := by
  unfold knuthSub; mv_base_auto
@[mv_push] theorem knuthCheck_mv (c : Cfg) (v_n_1 : U128) : knuthCheck c.other v_n_1 = knuthCheck c v_n_1 := by
  unfold knuthCheck; mv_base_auto
@[mv_push] theorem div_mod_knuth_mv (c : Cfg) (u v : U256) : mv (div_mod_knuth c u v) = div_mod_knuth c.other (mv u) (mv v) := by
  unfold div_mod_knuth; mv_auto
@[mv_push] theorem udivmodNarrow_mv (c : Cfg) (dividend divisor : U256) : mv (udivmodNarrow c dividend divisor) = udivmodNarrow c.other (mv dividend) (mv divisor) := by
  unfold udivmodNarrow; mv_auto
@[mv_push] theorem udivmod4_mv (c : Cfg) (a b : U256) (wantRem : Bool) : mv (udivmod4 c a b wantRem) = udivmod4 c.other (mv a) (mv b) wantRem := by
  unfold udivmod4; mv_auto
@[mv_push] theorem assumeInit_mv {α : Type} [Mv α] (o : Option α) : mv (assumeInit o) = assumeInit (mv o) := by
  cases o <;> rfl
@[mv_push] theorem udiv2_mv (c : Cfg) (r a : U256) : mv (udiv2 c r a) = udiv2 c.other (mv r) (mv a) := by
  unfold udiv2; mv_auto
@[mv_push] theorem udiv3_mv (c : Cfg) (a b : U256) : mv (udiv3 c a b) = udiv3 c.other (mv a) (mv b) := by
  unfold udiv3; mv_auto
@[mv_push] theorem urem2_mv (c : Cfg) (r a : U256) : mv (urem2 c r a) = urem2 c.other (mv r) (mv a) := by
  unfold urem2; mv_auto
@[mv_push] theorem urem3_mv (c : Cfg) (a b : U256) : mv (urem3 c a b) = urem3 c.other (mv a) (mv b) := by
  unfold urem3; mv_auto
@[mv_push] theorem idivmod4_mv (c : Cfg) (a b : I256) (wantRem : Bool) : mv (idivmod4 c a b wantRem) = idivmod4 c.other (mv a) (mv b) wantRem := by
  unfold idivmod4; mv_auto
@[mv_push] theorem idiv2_mv (c : Cfg) (r a : I256) : mv (idiv2 c r a) = idiv2 c.other (mv r) (mv a) := by
  unfold idiv2; mv_auto
@[mv_push] theorem idiv3_mv (c : Cfg) (a b : I256) : mv (idiv3 c a b) = idiv3 c.other (mv a) (mv b) := by
  unfold idiv3; mv_auto
@[mv_push] theorem irem2_mv (c : Cfg) (r a : I256) : mv (irem2 c r a) = irem2 c.other (mv r) (mv a) := by
  unfold irem2; mv_auto
@[mv_push] theorem irem3_mv (c : Cfg) (a b : I256) : mv (irem3 c a b) = irem3 c.other (mv a) (mv b) := by
  unfold irem3; mv_auto
end Intr
end Ethnum
