import Verif.Proofs.Endian.Words
import Verif.Proofs.Bytes

namespace Ethnum
namespace Native
@[mv_push] theorem add2_mv (c : Cfg) (r a : U256) : mv (add2 c r a) = add2 c.other (mv r) (mv a) := by
  unfold add2; mv_auto
@[mv_push] theorem add3_mv (c : Cfg) (a b : U256) : mv (add3 c a b) = add3 c.other (mv a) (mv b) := by
  unfold add3; mv_auto
@[mv_push] theorem uaddc_mv (c : Cfg) (a b : U256) : mv (uaddc c a b) = uaddc c.other (mv a) (mv b) := by
  unfold uaddc; mv_auto
@[mv_push] theorem iaddc_mv (c : Cfg) (a b : I256) : mv (iaddc c a b) = iaddc c.other (mv a) (mv b) := by
  unfold iaddc; mv_auto
@[mv_push] theorem sub2_mv (c : Cfg) (r a : U256) : mv (sub2 c r a) = sub2 c.other (mv r) (mv a) := by
  unfold sub2; mv_auto
@[mv_push] theorem sub3_mv (c : Cfg) (a b : U256) : mv (sub3 c a b) = sub3 c.other (mv a) (mv b) := by
  unfold sub3; mv_auto
@[mv_push] theorem usubc_mv (c : Cfg) (a b : U256) : mv (usubc c a b) = usubc c.other (mv a) (mv b) := by
  unfold usubc; mv_auto
@[mv_push] theorem isubc_mv (c : Cfg) (a b : I256) : mv (isubc c a b) = isubc c.other (mv a) (mv b) := by
  unfold isubc; mv_auto
@[mv_push] theorem umulddi3_mv (c : Cfg) (a b : U128) : mv (umulddi3 c a b) = umulddi3 c.other a b := by
  unfold umulddi3; mv_auto
@[mv_push] theorem mul3_mv (c : Cfg) (a b : U256) : mv (mul3 c a b) = mul3 c.other (mv a) (mv b) := by
  unfold mul3; mv_auto
@[mv_push] theorem mul2_mv (c : Cfg) (r a : U256) : mv (mul2 c r a) = mul2 c.other (mv r) (mv a) := by
  unfold mul2; mv_auto
@[mv_push] theorem umulc_mv (c : Cfg) (a b : U256) : mv (umulc c a b) = umulc c.other (mv a) (mv b) := by
  unfold umulc; mv_auto
@[mv_push] theorem shl2_mv (c : Cfg) (r : U256) (a : U32) : mv (shl2 c r a) = shl2 c.other (mv r) a := by
  unfold shl2; mv_auto
@[mv_push] theorem shl3_mv (c : Cfg) (a : U256) (b : U32) : mv (shl3 c a b) = shl3 c.other (mv a) b := by
  unfold shl3; mv_auto
@[mv_push] theorem shr2_mv (c : Cfg) (r : U256) (a : U32) : mv (shr2 c r a) = shr2 c.other (mv r) a := by
  unfold shr2; mv_auto
@[mv_push] theorem shr3_mv (c : Cfg) (a : U256) (b : U32) : mv (shr3 c a b) = shr3 c.other (mv a) b := by
  unfold shr3; mv_auto
@[mv_push] theorem sar2_mv (c : Cfg) (r : I256) (a : U32) : mv (sar2 c r a) = sar2 c.other (mv r) a := by
  unfold sar2; mv_auto
@[mv_push] theorem sar3_mv (c : Cfg) (a : I256) (b : U32) : mv (sar3 c a b) = sar3 c.other (mv a) b := by
  unfold sar3; mv_auto
@[mv_push] theorem ctlz_mv (c : Cfg) (a : U256) : ctlz c.other a = ctlz c (mv a) := by
  unfold ctlz; mv_base_auto
@[mv_push] theorem cttz_mv (c : Cfg) (a : U256) : cttz c.other a = cttz c (mv a) := by
  unfold cttz; mv_base_auto
end Native
namespace Llvm
@[mv_push] theorem load_mv (c : Cfg) (x : U256) : load c.other x = load c (mv x) := by
  show load c.other x = load c ⟨x.w1, x.w0⟩
  unfold load neBytes128
  rcases c with ⟨_ | _, _, _, _, _⟩ <;> simp [Cfg.other]
@[mv_push] theorem store_mv (c : Cfg) (v : BitVec 256) : mv (store c v) = store c.other v := by
  show (⟨(store c v).w1, (store c v).w0⟩ : U256) = _
  unfold store ofNeBytes128
  rcases c with ⟨_ | _, _, _, _, _⟩ <;> simp [Cfg.other, List.take_reverse, List.drop_reverse, length_leBytes]
@[mv_push] theorem iload_mv (c : Cfg) (x : I256) : iload c.other x = iload c (mv x) := load_mv c ⟨x.w0, x.w1⟩
@[mv_push] theorem istore_mv (c : Cfg) (v : BitVec 256) : mv (istore c v) = istore c.other v := by
  have := store_mv c v
  show (⟨(store c v).w1, (store c v).w0⟩ : I256) = ⟨(store c.other v).w0, (store c.other v).w1⟩
  rw [← this]; rfl
@[mv_push] theorem add2_mv (c : Cfg) (r a : U256) : mv (add2 c r a) = add2 c.other (mv r) (mv a) := by
  unfold add2; mv_auto_r
@[mv_push] theorem add3_mv (c : Cfg) (a b : U256) : mv (add3 c a b) = add3 c.other (mv a) (mv b) := by
  unfold add3; mv_auto_r
@[mv_push] theorem uaddc_mv (c : Cfg) (a b : U256) : mv (uaddc c a b) = uaddc c.other (mv a) (mv b) := by
  unfold uaddc Template.uaddc; dsimp only; mv_auto_r
@[mv_push] theorem iaddc_mv (c : Cfg) (a b : I256) : mv (iaddc c a b) = iaddc c.other (mv a) (mv b) := by
  unfold iaddc Template.iaddc; dsimp only; mv_auto_r
@[mv_push] theorem sub2_mv (c : Cfg) (r a : U256) : mv (sub2 c r a) = sub2 c.other (mv r) (mv a) := by
  unfold sub2; mv_auto_r
@[mv_push] theorem sub3_mv (c : Cfg) (a b : U256) : mv (sub3 c a b) = sub3 c.other (mv a) (mv b) := by
  unfold sub3; mv_auto_r
@[mv_push] theorem usubc_mv (c : Cfg) (a b : U256) : mv (usubc c a b) = usubc c.other (mv a) (mv b) := by
  unfold usubc Template.usubc; dsimp only; mv_auto_r
@[mv_push] theorem isubc_mv (c : Cfg) (a b : I256) : mv (isubc c a b) = isubc c.other (mv a) (mv b) := by
  unfold isubc Template.isubc; dsimp only; mv_auto_r
@[mv_push] theorem mul3_mv (c : Cfg) (a b : U256) : mv (mul3 c a b) = mul3 c.other (mv a) (mv b) := by
  unfold mul3; mv_auto_r
@[mv_push] theorem mul2_mv (c : Cfg) (r a : U256) : mv (mul2 c r a) = mul2 c.other (mv r) (mv a) := by
  unfold mul2; mv_auto_r
@[mv_push] theorem umulc_mv (c : Cfg) (a b : U256) : mv (umulc c a b) = umulc c.other (mv a) (mv b) := by
  unfold umulc Template.umulc; dsimp only; mv_auto_r
@[mv_push] theorem shl2_mv (c : Cfg) (r : U256) (a : U32) : mv (shl2 c r a) = shl2 c.other (mv r) a := by
  unfold shl2; mv_auto_r
@[mv_push] theorem shl3_mv (c : Cfg) (a : U256) (b : U32) : mv (shl3 c a b) = shl3 c.other (mv a) b := by
  unfold shl3; mv_auto_r
@[mv_push] theorem shr2_mv (c : Cfg) (r : U256) (a : U32) : mv (shr2 c r a) = shr2 c.other (mv r) a := by
  unfold shr2; mv_auto_r
@[mv_push] theorem shr3_mv (c : Cfg) (a : U256) (b : U32) : mv (shr3 c a b) = shr3 c.other (mv a) b := by
  unfold shr3; mv_auto_r
@[mv_push] theorem sar2_mv (c : Cfg) (r : I256) (a : U32) : mv (sar2 c r a) = sar2 c.other (mv r) a := by
  unfold sar2; mv_auto_r
@[mv_push] theorem sar3_mv (c : Cfg) (a : I256) (b : U32) : mv (sar3 c a b) = sar3 c.other (mv a) b := by
  unfold sar3; mv_auto_r
@[mv_push] theorem ctlz_mv (c : Cfg) (a : U256) : ctlz c.other a = ctlz c (mv a) := by
  unfold ctlz; rw [load_mv]
@[mv_push] theorem cttz_mv (c : Cfg) (a : U256) : cttz c.other a = cttz c (mv a) := by
  unfold cttz; rw [load_mv]
@[mv_push] theorem rol3_mv (c : Cfg) (a : U256) (b : U32) : mv (rol3 c a b) = rol3 c.other (mv a) b := by
  unfold rol3; mv_auto_r
@[mv_push] theorem ror3_mv (c : Cfg) (a : U256) (b : U32) : mv (ror3 c a b) = ror3 c.other (mv a) b := by
  unfold ror3; mv_auto_r
end Llvm
namespace Intr
@[mv_push] theorem add2_mv (c : Cfg) (r a : U256) : mv (add2 c r a) = add2 c.other (mv r) (mv a) := by
  unfold add2; mv_auto_r
@[mv_push] theorem add3_mv (c : Cfg) (a b : U256) : mv (add3 c a b) = add3 c.other (mv a) (mv b) := by
  unfold add3; mv_auto_r
@[mv_push] theorem uaddc_mv (c : Cfg) (a b : U256) : mv (uaddc c a b) = uaddc c.other (mv a) (mv b) := by
  unfold uaddc; mv_auto_r
@[mv_push] theorem iaddc_mv (c : Cfg) (a b : I256) : mv (iaddc c a b) = iaddc c.other (mv a) (mv b) := by
  unfold iaddc; mv_auto_r
@[mv_push] theorem sub2_mv (c : Cfg) (r a : U256) : mv (sub2 c r a) = sub2 c.other (mv r) (mv a) := by
  unfold sub2; mv_auto_r
@[mv_push] theorem sub3_mv (c : Cfg) (a b : U256) : mv (sub3 c a b) = sub3 c.other (mv a) (mv b) := by
  unfold sub3; mv_auto_r
@[mv_push] theorem usubc_mv (c : Cfg) (a b : U256) : mv (usubc c a b) = usubc c.other (mv a) (mv b) := by
  unfold usubc; mv_auto_r
@[mv_push] theorem isubc_mv (c : Cfg) (a b : I256) : mv (isubc c a b) = isubc c.other (mv a) (mv b) := by
  unfold isubc; mv_auto_r
@[mv_push] theorem mul3_mv (c : Cfg) (a b : U256) : mv (mul3 c a b) = mul3 c.other (mv a) (mv b) := by
  unfold mul3; mv_auto_r
@[mv_push] theorem mul2_mv (c : Cfg) (r a : U256) : mv (mul2 c r a) = mul2 c.other (mv r) (mv a) := by
  unfold mul2; mv_auto_r
@[mv_push] theorem umulc_mv (c : Cfg) (a b : U256) : mv (umulc c a b) = umulc c.other (mv a) (mv b) := by
  unfold umulc; mv_auto_r
@[mv_push] theorem shl2_mv (c : Cfg) (r : U256) (a : U32) : mv (shl2 c r a) = shl2 c.other (mv r) a := by
  unfold shl2; mv_auto_r
@[mv_push] theorem shl3_mv (c : Cfg) (a : U256) (b : U32) : mv (shl3 c a b) = shl3 c.other (mv a) b := by
  unfold shl3; mv_auto_r
@[mv_push] theorem shr2_mv (c : Cfg) (r : U256) (a : U32) : mv (shr2 c r a) = shr2 c.other (mv r) a := by
  unfold shr2; mv_auto_r
@[mv_push] theorem shr3_mv (c : Cfg) (a : U256) (b : U32) : mv (shr3 c a b) = shr3 c.other (mv a) b := by
  unfold shr3; mv_auto_r
@[mv_push] theorem sar2_mv (c : Cfg) (r : I256) (a : U32) : mv (sar2 c r a) = sar2 c.other (mv r) a := by
  unfold sar2; mv_auto_r
@[mv_push] theorem sar3_mv (c : Cfg) (a : I256) (b : U32) : mv (sar3 c a b) = sar3 c.other (mv a) b := by
  unfold sar3; mv_auto_r
@[mv_push] theorem ctlz_mv (c : Cfg) (a : U256) : ctlz c.other a = ctlz c (mv a) := by
  unfold ctlz; rw [Llvm.ctlz_mv, Native.ctlz_mv]; rfl
@[mv_push] theorem cttz_mv (c : Cfg) (a : U256) : cttz c.other a = cttz c (mv a) := by
  unfold cttz; rw [Llvm.cttz_mv, Native.cttz_mv]; rfl
@[mv_push] theorem iadd2_mv (c : Cfg) (r a : I256) : mv (iadd2 c r a) = iadd2 c.other (mv r) (mv a) := by
  unfold iadd2; mv_auto
@[mv_push] theorem iadd3_mv (c : Cfg) (a b : I256) : mv (iadd3 c a b) = iadd3 c.other (mv a) (mv b) := by
  unfold iadd3; mv_auto
@[mv_push] theorem isub2_mv (c : Cfg) (r a : I256) : mv (isub2 c r a) = isub2 c.other (mv r) (mv a) := by
  unfold isub2; mv_auto
@[mv_push] theorem isub3_mv (c : Cfg) (a b : I256) : mv (isub3 c a b) = isub3 c.other (mv a) (mv b) := by
  unfold isub3; mv_auto
@[mv_push] theorem imul2_mv (c : Cfg) (r a : I256) : mv (imul2 c r a) = imul2 c.other (mv r) (mv a) := by
  unfold imul2; mv_auto
@[mv_push] theorem imul3_mv (c : Cfg) (a b : I256) : mv (imul3 c a b) = imul3 c.other (mv a) (mv b) := by
  unfold imul3; mv_auto
@[mv_push] theorem ishl2_mv (c : Cfg) (r : I256) (a : U32) : mv (ishl2 c r a) = ishl2 c.other (mv r) a := by
  unfold ishl2; mv_auto
@[mv_push] theorem ishl3_mv (c : Cfg) (a : I256) (b : U32) : mv (ishl3 c a b) = ishl3 c.other (mv a) b := by
  unfold ishl3; mv_auto
@[mv_push] theorem ictlz_mv (c : Cfg) (a : I256) : ictlz c.other a = ictlz c (mv a) := by
  unfold ictlz; mv_base_auto
@[mv_push] theorem icttz_mv (c : Cfg) (a : I256) : icttz c.other a = icttz c (mv a) := by
  unfold icttz; mv_base_auto
end Intr
namespace U256
@[mv_push] theorem not_mv (x : U256) : mv (not x) = not (mv x) := by
  unfold not; mv_auto
@[mv_push] theorem bitand_mv (a b : U256) : mv (bitand a b) = bitand (mv a) (mv b) := by
  unfold bitand; mv_auto
@[mv_push] theorem bitor_mv (a b : U256) : mv (bitor a b) = bitor (mv a) (mv b) := by
  unfold bitor; mv_auto
@[mv_push] theorem bitxor_mv (a b : U256) : mv (bitxor a b) = bitxor (mv a) (mv b) := by
  unfold bitxor; mv_auto
@[mv_push] theorem shl_mv (c : Cfg) (a : U256) (b : U32) : mv (shl c a b) = shl c.other (mv a) b := by
  unfold shl; mv_auto
@[mv_push] theorem shr_mv (c : Cfg) (a : U256) (b : U32) : mv (shr c a b) = shr c.other (mv a) b := by
  unfold shr; mv_auto
end U256
namespace I256
@[mv_push] theorem not_mv (x : I256) : mv (not x) = not (mv x) := by
  unfold not; mv_auto
@[mv_push] theorem bitand_mv (a b : I256) : mv (bitand a b) = bitand (mv a) (mv b) := by
  unfold bitand; mv_auto
@[mv_push] theorem bitor_mv (a b : I256) : mv (bitor a b) = bitor (mv a) (mv b) := by
  unfold bitor; mv_auto
@[mv_push] theorem bitxor_mv (a b : I256) : mv (bitxor a b) = bitxor (mv a) (mv b) := by
  unfold bitxor; mv_auto
@[mv_push] theorem shl_mv (c : Cfg) (a : I256) (b : U32) : mv (shl c a b) = shl c.other (mv a) b := by
  unfold shl; mv_auto
@[mv_push] theorem shr_mv (c : Cfg) (a : I256) (b : U32) : mv (shr c a b) = shr c.other (mv a) b := by
  unfold shr; mv_auto
@[mv_push] theorem wrapping_sub_mv (c : Cfg) (a b : I256) : mv (wrapping_sub c a b) = wrapping_sub c.other (mv a) (mv b) := by
  unfold wrapping_sub; mv_auto
end I256
namespace Native
@[mv_push] theorem rol3_mv (c : Cfg) (a : U256) (b : U32) : mv (rol3 c a b) = rol3 c.other (mv a) b := by
  unfold rol3; mv_auto
@[mv_push] theorem ror3_mv (c : Cfg) (a : U256) (b : U32) : mv (ror3 c a b) = ror3 c.other (mv a) b := by
  unfold ror3; mv_auto
end Native
namespace Intr
@[mv_push] theorem rol3_mv (c : Cfg) (a : U256) (b : U32) : mv (rol3 c a b) = rol3 c.other (mv a) b := by
  unfold rol3; mv_auto_r
@[mv_push] theorem ror3_mv (c : Cfg) (a : U256) (b : U32) : mv (ror3 c a b) = ror3 c.other (mv a) b := by
  unfold ror3; mv_auto_r
@[mv_push] theorem irol3_mv (c : Cfg) (a : I256) (b : U32) : mv (irol3 c a b) = irol3 c.other (mv a) b := by
  unfold irol3; mv_auto
@[mv_push] theorem iror3_mv (c : Cfg) (a : I256) (b : U32) : mv (iror3 c a b) = iror3 c.other (mv a) b := by
  unfold iror3; mv_auto
end Intr
end Ethnum
