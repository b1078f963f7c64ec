import Verif.Proofs.Endian.DivMod

namespace Ethnum
@[mv_push] theorem PrimTy.MAX_mv (c : Cfg) (t : PrimTy) : PrimTy.MAX c.other t = PrimTy.MAX c t := by
  unfold PrimTy.MAX; mv_base_auto
@[mv_push] theorem PrimTy.MIN_mv (c : Cfg) (t : PrimTy) : PrimTy.MIN c.other t = PrimTy.MIN c t := by
  unfold PrimTy.MIN; mv_base_auto
namespace U256
@[mv_push] theorem as_prim_mv (c : Cfg) (t : PrimTy) (x : U256) : as_prim c.other t x = as_prim c t (mv x) := by
  unfold as_prim; mv_base_auto
@[mv_push] theorem as_u32_mv (c : Cfg) (x : U256) : as_u32 c.other x = as_u32 c (mv x) := by
  unfold as_u32; mv_base_auto
@[mv_push] theorem as_u8_mv (c : Cfg) (x : U256) : as_u8 c.other x = as_u8 c (mv x) := by
  unfold as_u8; mv_base_auto
@[mv_push] theorem of_prim_as_mv (c : Cfg) (t : PrimTy) (x : t.Val c) : mv (of_prim_as c t x) = of_prim_as c.other t x := by
  unfold of_prim_as; mv_auto
@[mv_push] theorem of_bool_mv (c : Cfg) (b : Bool) : mv (of_bool c b) = of_bool c.other b := by
  unfold of_bool; mv_auto
@[mv_push] theorem from_prim_mv (c : Cfg) (t : PrimTy) (x : t.Val c) : mv (from_prim c t x) = from_prim c.other t x := by
  unfold from_prim; mv_auto
@[mv_push] theorem try_from_prim_mv (c : Cfg) (t : PrimTy) (x : t.Val c) : mv (try_from_prim c t x) = try_from_prim c.other t x := by
  unfold try_from_prim; rw [show u128_try_from (c := c.other) t x = u128_try_from (c := c) t x from rfl]; cases u128_try_from t x <;> mv_auto
@[mv_push] theorem try_from_i256_mv (c : Cfg) (value : I256) : mv (try_from_i256 c value) = try_from_i256 c.other (mv value) := by
  unfold try_from_i256; mv_auto
@[mv_push] theorem prim_try_from_mv (c : Cfg) (t : PrimTy) (x : U256) : prim_try_from c.other t x = prim_try_from c t (mv x) := by
  have h1 := of_prim_as_mv c t (PrimTy.MAX c t)
  unfold prim_try_from
  refine base_of (fun z => mv_base z) (mv_ite' ?_ ?_ rfl)
  · rw [show of_prim_as c.other t (PrimTy.MAX c.other t) = mv (of_prim_as c t (PrimTy.MAX c t)) from h1.symm]
    simp only [le_mv, Mv.inv]
  · rw [low_mv]; rfl
end U256
namespace I256
@[mv_push] theorem as_prim_mv (c : Cfg) (t : PrimTy) (x : I256) : as_prim c.other t x = as_prim c t (mv x) := by
  unfold as_prim; mv_base_auto
@[mv_push] theorem as_u32_mv (c : Cfg) (x : I256) : as_u32 c.other x = as_u32 c (mv x) := by
  unfold as_u32; mv_base_auto
@[mv_push] theorem of_prim_as_mv (c : Cfg) (t : PrimTy) (x : t.Val c) : mv (of_prim_as c t x) = of_prim_as c.other t x := by
  unfold of_prim_as; mv_auto
@[mv_push] theorem of_bool_mv (c : Cfg) (b : Bool) : mv (of_bool c b) = of_bool c.other b := by
  unfold of_bool; mv_auto
@[mv_push] theorem from_prim_mv (c : Cfg) (t : PrimTy) (x : t.Val c) : mv (from_prim c t x) = from_prim c.other t x := by
  unfold from_prim; mv_auto
@[mv_push] theorem try_from_u256_mv (c : Cfg) (value : U256) : mv (try_from_u256 c value) = try_from_u256 c.other (mv value) := by
  unfold try_from_u256; mv_auto
@[mv_push] theorem prim_try_from_mv (c : Cfg) (t : PrimTy) (x : I256) : prim_try_from c.other t x = prim_try_from c t (mv x) := by
  have h1 := of_prim_as_mv c t (PrimTy.MAX c t)
  have h2 := of_prim_as_mv c t (PrimTy.MIN c t)
  unfold prim_try_from
  refine base_of (fun z => mv_base z) (mv_ite' ?_ ?_ rfl)
  · rw [show of_prim_as c.other t (PrimTy.MAX c.other t) = mv (of_prim_as c t (PrimTy.MAX c t)) from h1.symm,
      show of_prim_as c.other t (PrimTy.MIN c.other t) = mv (of_prim_as c t (PrimTy.MIN c t)) from h2.symm]
    simp only [le_mv, ge_mv, Mv.inv]
  · rw [low_mv]; rfl
end I256
end Ethnum
