import Verif.Proofs.Endian.IntApi

namespace Ethnum
namespace FloatTy
@[mv_push] theorem shr_mv (c : Cfg) {w : Nat} (a n : BitVec w) : shr c.other a n = shr c a n := by
  unfold shr; mv_base_auto
end FloatTy
namespace U256
@[mv_push] theorem of_float_mv (c : Cfg) (t : FloatTy) (x : t.Val) : mv (of_float c t x) = of_float c.other t x := by
  unfold of_float; mv_auto
@[mv_push] theorem as_f32_mv (c : Cfg) (x : U256) : as_f32 c.other x = as_f32 c (mv x) := by
  unfold as_f32; simp only [mv_push]
@[mv_push] theorem as_f64_mv (c : Cfg) (x : U256) : as_f64 c.other x = as_f64 c (mv x) := by
  unfold as_f64; simp only [mv_push]
end U256
namespace I256
@[mv_push] theorem of_float_mv (c : Cfg) (t : FloatTy) (x : t.Val) : mv (of_float c t x) = of_float c.other t x := by
  unfold of_float; mv_auto
@[mv_push] theorem as_f64_mv (c : Cfg) (x : I256) : as_f64 c.other x = as_f64 c (mv x) := by
  unfold as_f64; simp only [mv_push]
@[mv_push] theorem as_f32_mv (c : Cfg) (x : I256) : as_f32 c.other x = as_f32 c (mv x) := by
  unfold as_f32; simp only [mv_push]
end I256
end Ethnum
