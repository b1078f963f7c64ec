import Verif.Proofs.Endian.Float

namespace Ethnum
namespace Formatter
end Formatter
namespace Radix
@[mv_push] theorem digit_mv (c : Cfg) (r : Radix) (x : U8) : digit c.other r x = digit c r x := by
  cases r <;> (unfold digit; mv_base_auto)
@[mv_push] theorem loop_mv (c : Cfg) (r : Radix) (base : U256) (x0 : Nat) (x1 : U256) (x2 : Buf) : loop c.other r base x0 x1 x2 = loop c r (mv base) x0 (mv x1) x2 := by
  induction x0 generalizing x1 x2 with
  | zero => rfl
  | succ n ih => unfold loop; mv_base_auto_r
@[mv_push] theorem fmt_u256_mv (c : Cfg) (r : Radix) (x : U256) (is_nonnegative : Bool) (f : Formatter) : fmt_u256 c.other r x is_nonnegative f = fmt_u256 c r (mv x) is_nonnegative f := by
  have h : U256.from_prim c.other .u8 r.BASE = mv (U256.from_prim c .u8 r.BASE) := (U256.from_prim_mv c .u8 r.BASE).symm
  unfold fmt_u256
  rw [h]
  dsimp only
  rw [loop_mv, Mv.inv]
end Radix
@[mv_push] theorem isizeC_mv (c : Cfg) (z : Int) (p : Panic) : isizeC c.other z p = isizeC c z p := by
  unfold isizeC; mv_base_auto
@[mv_push] theorem isizeShl1_mv (c : Cfg) (z : Int) : isizeShl1 c.other z = isizeShl1 c z := by
  unfold isizeShl1; mv_base_auto
@[mv_push] theorem U256.as_isize_mv (c : Cfg) (x : U256) : U256.as_isize c.other x = U256.as_isize c (mv x) := by
  unfold U256.as_isize; mv_base_auto
@[mv_push] theorem decLoop_mv (c : Cfg) (x0 : Nat) (x1 : U256) (x2 : Int) (x3 : Buf) : mv (decLoop c x0 x1 x2 x3) = decLoop c.other x0 (mv x1) x2 x3 := by
  induction x0 generalizing x1 x2 x3 with
  | zero => rfl
  | succ n ih => unfold decLoop; mv_auto
@[mv_push] theorem decTail_mv (c : Cfg) (n curr : Int) (buf : Buf) : decTail c.other n curr buf = decTail c n curr buf := by
  unfold decTail; mv_base_auto
@[mv_push] theorem fmt_u256_mv (c : Cfg) (n : U256) (is_nonnegative : Bool) (f : Formatter) : fmt_u256 c.other n is_nonnegative f = fmt_u256 c (mv n) is_nonnegative f := by
  unfold fmt_u256; mv_base_auto_r
namespace U256
@[mv_push] theorem display_mv (c : Cfg) (x : U256) (f : Formatter) : display c.other x f = display c (mv x) f := by
  unfold display; mv_base_auto_r
@[mv_push] theorem fmtRadix_mv (c : Cfg) (r : Radix) (x : U256) (f : Formatter) : fmtRadix c.other r x f = fmtRadix c r (mv x) f := by
  unfold fmtRadix; simp only [mv_push]; by_cases h : (lt_prim c (mv x) 0 && f.sign_minus) = true <;> simp only [h, if_true, mv_push] <;> rfl
@[mv_push] theorem debug_mv (c : Cfg) (x : U256) (f : Formatter) : debug c.other x f = debug c (mv x) f := by
  unfold debug; mv_base_auto
end U256
namespace I256
@[mv_push] theorem display_mv (c : Cfg) (x : I256) (f : Formatter) : display c.other x f = display c (mv x) f := by
  unfold display; mv_base_auto_r
@[mv_push] theorem fmtRadix_mv (c : Cfg) (r : Radix) (x : I256) (f : Formatter) : fmtRadix c.other r x f = fmtRadix c r (mv x) f := by
  unfold fmtRadix; simp only [mv_push]; by_cases h : (lt_prim c (mv x) 0 && f.sign_minus) = true <;> simp only [h, if_true, mv_push] <;> rfl
@[mv_push] theorem debug_mv (c : Cfg) (x : I256) (f : Formatter) : debug c.other x f = debug c (mv x) f := by
  unfold debug; mv_base_auto
end I256
end Ethnum
