import Verif.Proofs.Backend.Attr
import Verif.Model.Forms
import Verif.Model.Serde
import Verif.Model.Error
import Verif.Props.Llvm
import Verif.Props.FloatFrom

/-!
Every modelled function returns the same with both intrinsics back-ends: `f (c.on b) = f c`. Missing here are the
shift operators and the rotations, for which this is false; `shl_bk` and the others have the amounts for which it holds.
-/

set_option linter.unusedSimpArgs false

namespace Ethnum
/-- The same build with the LLVM back-end or the native one. -/
def Cfg.on (c : Cfg) (b : Bool) : Cfg := { c with llvm := b }

macro "bk_auto " f:ident : tactic => `(tactic| (
  unfold $f:ident
  first
  | (simp only [bk]; done)
  | (simp only [bk]; rfl)
  | rfl))

variable (c : Cfg) (b : Bool)
@[bk] theorem U256.ofNat_bk : U256.ofNat (c.on b) = U256.ofNat c := rfl
@[bk] theorem U256.ofInt_bk : U256.ofInt (c.on b) = U256.ofInt c := rfl
@[bk] theorem I256.ofInt_bk : I256.ofInt (c.on b) = I256.ofInt c := rfl

/-! Basic -/

@[bk] theorem Cfg.bigEndian_bk : @Cfg.bigEndian (c.on b) = @Cfg.bigEndian c := by bk_auto Cfg.bigEndian
@[bk] theorem Cfg.debugAssertions_bk : @Cfg.debugAssertions (c.on b) = @Cfg.debugAssertions c := by bk_auto Cfg.debugAssertions
@[bk] theorem Cfg.overflowChecks_bk : @Cfg.overflowChecks (c.on b) = @Cfg.overflowChecks c := by bk_auto Cfg.overflowChecks
@[bk] theorem Cfg.ptr_bk : @Cfg.ptr (c.on b) = @Cfg.ptr c := by bk_auto Cfg.ptr
@[bk] theorem debugAssert_bk : @debugAssert (c.on b) = @debugAssert c := by funext x1; bk_auto debugAssert
@[bk] theorem addC_bk : @addC (c.on b) = @addC c := by funext x1 x2 x3; bk_auto addC
@[bk] theorem subC_bk : @subC (c.on b) = @subC c := by funext x1 x2 x3; bk_auto subC
@[bk] theorem mulC_bk : @mulC (c.on b) = @mulC c := by funext x1 x2 x3; bk_auto mulC
@[bk] theorem shlC_bk : @shlC (c.on b) = @shlC c := by funext x1 x2 x3; bk_auto shlC
@[bk] theorem shrC_bk : @shrC (c.on b) = @shrC c := by funext x1 x2 x3; bk_auto shrC
@[bk] theorem sarC_bk : @sarC (c.on b) = @sarC c := by funext x1 x2 x3; bk_auto sarC
@[bk] theorem negC_bk : @negC (c.on b) = @negC c := by funext x1 x2; bk_auto negC
@[bk] theorem neBytes128_bk : @neBytes128 (c.on b) = @neBytes128 c := by funext x1; bk_auto neBytes128
@[bk] theorem ofNeBytes128_bk : @ofNeBytes128 (c.on b) = @ofNeBytes128 c := by funext x1; bk_auto ofNeBytes128

/-! Model.Words -/

@[bk] theorem U256.from_words_bk : @U256.from_words (c.on b) = @U256.from_words c := by funext x1 x2; bk_auto U256.from_words
@[bk] theorem U256.into_words_bk : @U256.into_words (c.on b) = @U256.into_words c := by funext x1; bk_auto U256.into_words
@[bk] theorem U256.low_bk : @U256.low (c.on b) = @U256.low c := by funext x1; bk_auto U256.low
@[bk] theorem U256.high_bk : @U256.high (c.on b) = @U256.high c := by funext x1; bk_auto U256.high
@[bk] theorem U256.set_low_bk : @U256.set_low (c.on b) = @U256.set_low c := by funext x1 x2; bk_auto U256.set_low
@[bk] theorem U256.set_high_bk : @U256.set_high (c.on b) = @U256.set_high c := by funext x1 x2; bk_auto U256.set_high
@[bk] theorem U256.new_bk : @U256.new (c.on b) = @U256.new c := by funext x1; bk_auto U256.new
@[bk] theorem U256.ONE_bk : @U256.ONE (c.on b) = @U256.ONE c := by bk_auto U256.ONE
@[bk] theorem U256.cmp_bk : @U256.cmp (c.on b) = @U256.cmp c := by funext x1 x2; bk_auto U256.cmp
@[bk] theorem U256.eq_bk : @U256.eq (c.on b) = @U256.eq c := by funext x1 x2; bk_auto U256.eq
@[bk] theorem U256.ne_bk : @U256.ne (c.on b) = @U256.ne c := by funext x1 x2; bk_auto U256.ne
@[bk] theorem U256.partial_cmp_bk : @U256.partial_cmp (c.on b) = @U256.partial_cmp c := by funext x1 x2; bk_auto U256.partial_cmp
@[bk] theorem U256.lt_bk : @U256.lt (c.on b) = @U256.lt c := by funext x1 x2; bk_auto U256.lt
@[bk] theorem U256.le_bk : @U256.le (c.on b) = @U256.le c := by funext x1 x2; bk_auto U256.le
@[bk] theorem U256.gt_bk : @U256.gt (c.on b) = @U256.gt c := by funext x1 x2; bk_auto U256.gt
@[bk] theorem U256.ge_bk : @U256.ge (c.on b) = @U256.ge c := by funext x1 x2; bk_auto U256.ge
@[bk] theorem U256.eq_prim_bk : @U256.eq_prim (c.on b) = @U256.eq_prim c := by funext x1 x2; bk_auto U256.eq_prim
@[bk] theorem U256.prim_eq_bk : @U256.prim_eq (c.on b) = @U256.prim_eq c := by funext x1 x2; bk_auto U256.prim_eq
@[bk] theorem U256.partial_cmp_prim_bk : @U256.partial_cmp_prim (c.on b) = @U256.partial_cmp_prim c := by funext x1 x2; bk_auto U256.partial_cmp_prim
@[bk] theorem U256.prim_partial_cmp_bk : @U256.prim_partial_cmp (c.on b) = @U256.prim_partial_cmp c := by funext x1 x2; bk_auto U256.prim_partial_cmp
@[bk] theorem U256.lt_prim_bk : @U256.lt_prim (c.on b) = @U256.lt_prim c := by funext x1 x2; bk_auto U256.lt_prim
@[bk] theorem U256.le_prim_bk : @U256.le_prim (c.on b) = @U256.le_prim c := by funext x1 x2; bk_auto U256.le_prim
@[bk] theorem U256.gt_prim_bk : @U256.gt_prim (c.on b) = @U256.gt_prim c := by funext x1 x2; bk_auto U256.gt_prim
@[bk] theorem U256.ge_prim_bk : @U256.ge_prim (c.on b) = @U256.ge_prim c := by funext x1 x2; bk_auto U256.ge_prim
@[bk] theorem I256.from_words_bk : @I256.from_words (c.on b) = @I256.from_words c := by funext x1 x2; bk_auto I256.from_words
@[bk] theorem I256.into_words_bk : @I256.into_words (c.on b) = @I256.into_words c := by funext x1; bk_auto I256.into_words
@[bk] theorem I256.low_bk : @I256.low (c.on b) = @I256.low c := by funext x1; bk_auto I256.low
@[bk] theorem I256.high_bk : @I256.high (c.on b) = @I256.high c := by funext x1; bk_auto I256.high
@[bk] theorem I256.set_low_bk : @I256.set_low (c.on b) = @I256.set_low c := by funext x1 x2; bk_auto I256.set_low
@[bk] theorem I256.set_high_bk : @I256.set_high (c.on b) = @I256.set_high c := by funext x1 x2; bk_auto I256.set_high
@[bk] theorem I256.new_bk : @I256.new (c.on b) = @I256.new c := by funext x1; bk_auto I256.new
@[bk] theorem I256.ONE_bk : @I256.ONE (c.on b) = @I256.ONE c := by bk_auto I256.ONE
@[bk] theorem I256.MINUS_ONE_bk : @I256.MINUS_ONE (c.on b) = @I256.MINUS_ONE c := by bk_auto I256.MINUS_ONE
@[bk] theorem I256.MIN_bk : @I256.MIN (c.on b) = @I256.MIN c := by bk_auto I256.MIN
@[bk] theorem I256.MAX_bk : @I256.MAX (c.on b) = @I256.MAX c := by bk_auto I256.MAX
@[bk] theorem I256.cmp_bk : @I256.cmp (c.on b) = @I256.cmp c := by funext x1 x2; bk_auto I256.cmp
@[bk] theorem I256.eq_bk : @I256.eq (c.on b) = @I256.eq c := by funext x1 x2; bk_auto I256.eq
@[bk] theorem I256.ne_bk : @I256.ne (c.on b) = @I256.ne c := by funext x1 x2; bk_auto I256.ne
@[bk] theorem I256.partial_cmp_bk : @I256.partial_cmp (c.on b) = @I256.partial_cmp c := by funext x1 x2; bk_auto I256.partial_cmp
@[bk] theorem I256.lt_bk : @I256.lt (c.on b) = @I256.lt c := by funext x1 x2; bk_auto I256.lt
@[bk] theorem I256.le_bk : @I256.le (c.on b) = @I256.le c := by funext x1 x2; bk_auto I256.le
@[bk] theorem I256.gt_bk : @I256.gt (c.on b) = @I256.gt c := by funext x1 x2; bk_auto I256.gt
@[bk] theorem I256.ge_bk : @I256.ge (c.on b) = @I256.ge c := by funext x1 x2; bk_auto I256.ge
@[bk] theorem I256.eq_prim_bk : @I256.eq_prim (c.on b) = @I256.eq_prim c := by funext x1 x2; bk_auto I256.eq_prim
@[bk] theorem I256.prim_eq_bk : @I256.prim_eq (c.on b) = @I256.prim_eq c := by funext x1 x2; bk_auto I256.prim_eq
@[bk] theorem I256.partial_cmp_prim_bk : @I256.partial_cmp_prim (c.on b) = @I256.partial_cmp_prim c := by funext x1 x2; bk_auto I256.partial_cmp_prim
@[bk] theorem I256.prim_partial_cmp_bk : @I256.prim_partial_cmp (c.on b) = @I256.prim_partial_cmp c := by funext x1 x2; bk_auto I256.prim_partial_cmp
@[bk] theorem I256.lt_prim_bk : @I256.lt_prim (c.on b) = @I256.lt_prim c := by funext x1 x2; bk_auto I256.lt_prim
@[bk] theorem I256.le_prim_bk : @I256.le_prim (c.on b) = @I256.le_prim c := by funext x1 x2; bk_auto I256.le_prim
@[bk] theorem I256.gt_prim_bk : @I256.gt_prim (c.on b) = @I256.gt_prim c := by funext x1 x2; bk_auto I256.gt_prim
@[bk] theorem I256.ge_prim_bk : @I256.ge_prim (c.on b) = @I256.ge_prim c := by funext x1 x2; bk_auto I256.ge_prim

/-! Model.Llvm -/

@[bk] theorem Llvm.load_bk : @Llvm.load (c.on b) = @Llvm.load c := by funext x1; bk_auto Llvm.load
@[bk] theorem Llvm.store_bk : @Llvm.store (c.on b) = @Llvm.store c := by funext x1; bk_auto Llvm.store
@[bk] theorem Llvm.iload_bk : @Llvm.iload (c.on b) = @Llvm.iload c := by funext x1; bk_auto Llvm.iload
@[bk] theorem Llvm.istore_bk : @Llvm.istore (c.on b) = @Llvm.istore c := by funext x1; bk_auto Llvm.istore
@[bk] theorem Llvm.add2_bk : @Llvm.add2 (c.on b) = @Llvm.add2 c := by funext x1 x2; bk_auto Llvm.add2
@[bk] theorem Llvm.add3_bk : @Llvm.add3 (c.on b) = @Llvm.add3 c := by funext x1 x2; bk_auto Llvm.add3
@[bk] theorem Llvm.uaddc_bk : @Llvm.uaddc (c.on b) = @Llvm.uaddc c := by funext x1 x2; bk_auto Llvm.uaddc
@[bk] theorem Llvm.iaddc_bk : @Llvm.iaddc (c.on b) = @Llvm.iaddc c := by funext x1 x2; bk_auto Llvm.iaddc
@[bk] theorem Llvm.sub2_bk : @Llvm.sub2 (c.on b) = @Llvm.sub2 c := by funext x1 x2; bk_auto Llvm.sub2
@[bk] theorem Llvm.sub3_bk : @Llvm.sub3 (c.on b) = @Llvm.sub3 c := by funext x1 x2; bk_auto Llvm.sub3
@[bk] theorem Llvm.usubc_bk : @Llvm.usubc (c.on b) = @Llvm.usubc c := by funext x1 x2; bk_auto Llvm.usubc
@[bk] theorem Llvm.isubc_bk : @Llvm.isubc (c.on b) = @Llvm.isubc c := by funext x1 x2; bk_auto Llvm.isubc
@[bk] theorem Llvm.mul2_bk : @Llvm.mul2 (c.on b) = @Llvm.mul2 c := by funext x1 x2; bk_auto Llvm.mul2
@[bk] theorem Llvm.mul3_bk : @Llvm.mul3 (c.on b) = @Llvm.mul3 c := by funext x1 x2; bk_auto Llvm.mul3
@[bk] theorem Llvm.umulc_bk : @Llvm.umulc (c.on b) = @Llvm.umulc c := by funext x1 x2; bk_auto Llvm.umulc
@[bk] theorem Llvm.shl2_bk : @Llvm.shl2 (c.on b) = @Llvm.shl2 c := by funext x1 x2; bk_auto Llvm.shl2
@[bk] theorem Llvm.shl3_bk : @Llvm.shl3 (c.on b) = @Llvm.shl3 c := by funext x1 x2; bk_auto Llvm.shl3
@[bk] theorem Llvm.sar2_bk : @Llvm.sar2 (c.on b) = @Llvm.sar2 c := by funext x1 x2; bk_auto Llvm.sar2
@[bk] theorem Llvm.sar3_bk : @Llvm.sar3 (c.on b) = @Llvm.sar3 c := by funext x1 x2; bk_auto Llvm.sar3
@[bk] theorem Llvm.shr2_bk : @Llvm.shr2 (c.on b) = @Llvm.shr2 c := by funext x1 x2; bk_auto Llvm.shr2
@[bk] theorem Llvm.shr3_bk : @Llvm.shr3 (c.on b) = @Llvm.shr3 c := by funext x1 x2; bk_auto Llvm.shr3
@[bk] theorem Llvm.rol3_bk : @Llvm.rol3 (c.on b) = @Llvm.rol3 c := by funext x1 x2; bk_auto Llvm.rol3
@[bk] theorem Llvm.ror3_bk : @Llvm.ror3 (c.on b) = @Llvm.ror3 c := by funext x1 x2; bk_auto Llvm.ror3
@[bk] theorem Llvm.ctlz_bk : @Llvm.ctlz (c.on b) = @Llvm.ctlz c := by funext x1; bk_auto Llvm.ctlz
@[bk] theorem Llvm.cttz_bk : @Llvm.cttz (c.on b) = @Llvm.cttz c := by funext x1; bk_auto Llvm.cttz

/-! Model.Intrinsics -/

@[bk] theorem Native.add2_bk : @Native.add2 (c.on b) = @Native.add2 c := by funext x1 x2; bk_auto Native.add2
@[bk] theorem Native.add3_bk : @Native.add3 (c.on b) = @Native.add3 c := by funext x1 x2; bk_auto Native.add3
@[bk] theorem Native.uaddc_bk : @Native.uaddc (c.on b) = @Native.uaddc c := by funext x1 x2; bk_auto Native.uaddc
@[bk] theorem Native.iaddc_bk : @Native.iaddc (c.on b) = @Native.iaddc c := by funext x1 x2; bk_auto Native.iaddc
@[bk] theorem Native.sub2_bk : @Native.sub2 (c.on b) = @Native.sub2 c := by funext x1 x2; bk_auto Native.sub2
@[bk] theorem Native.sub3_bk : @Native.sub3 (c.on b) = @Native.sub3 c := by funext x1 x2; bk_auto Native.sub3
@[bk] theorem Native.usubc_bk : @Native.usubc (c.on b) = @Native.usubc c := by funext x1 x2; bk_auto Native.usubc
@[bk] theorem Native.isubc_bk : @Native.isubc (c.on b) = @Native.isubc c := by funext x1 x2; bk_auto Native.isubc
@[bk] theorem Native.umulddi3_bk : @Native.umulddi3 (c.on b) = @Native.umulddi3 c := by funext x1 x2; bk_auto Native.umulddi3
@[bk] theorem Native.mul3_bk : @Native.mul3 (c.on b) = @Native.mul3 c := by funext x1 x2; bk_auto Native.mul3
@[bk] theorem Native.mul2_bk : @Native.mul2 (c.on b) = @Native.mul2 c := by funext x1 x2; bk_auto Native.mul2
@[bk] theorem Native.umulc_bk : @Native.umulc (c.on b) = @Native.umulc c := by funext x1 x2; bk_auto Native.umulc
@[bk] theorem Native.shl2_bk : @Native.shl2 (c.on b) = @Native.shl2 c := by funext x1 x2; bk_auto Native.shl2
@[bk] theorem Native.shl3_bk : @Native.shl3 (c.on b) = @Native.shl3 c := by funext x1 x2; bk_auto Native.shl3
@[bk] theorem Native.shr2_bk : @Native.shr2 (c.on b) = @Native.shr2 c := by funext x1 x2; bk_auto Native.shr2
@[bk] theorem Native.shr3_bk : @Native.shr3 (c.on b) = @Native.shr3 c := by funext x1 x2; bk_auto Native.shr3
@[bk] theorem Native.sar2_bk : @Native.sar2 (c.on b) = @Native.sar2 c := by funext x1 x2; bk_auto Native.sar2
@[bk] theorem Native.sar3_bk : @Native.sar3 (c.on b) = @Native.sar3 c := by funext x1 x2; bk_auto Native.sar3
@[bk] theorem Native.ctlz_bk : @Native.ctlz (c.on b) = @Native.ctlz c := by funext x1; bk_auto Native.ctlz
@[bk] theorem Native.cttz_bk : @Native.cttz (c.on b) = @Native.cttz c := by funext x1; bk_auto Native.cttz
@[bk] theorem Intr.add2_bk : @Intr.add2 (c.on b) = @Intr.add2 c := by funext x y; rw [Intr.add2_eq, Intr.add2_eq]; rfl
@[bk] theorem Intr.add3_bk : @Intr.add3 (c.on b) = @Intr.add3 c := by funext x y; rw [Intr.add3_eq, Intr.add3_eq]; rfl
@[bk] theorem Intr.uaddc_bk : @Intr.uaddc (c.on b) = @Intr.uaddc c := by funext x y; rw [Intr.uaddc_eq, Intr.uaddc_eq]; rfl
@[bk] theorem Intr.iaddc_bk : @Intr.iaddc (c.on b) = @Intr.iaddc c := by funext x y; rw [Intr.iaddc_eq, Intr.iaddc_eq]; rfl
@[bk] theorem Intr.sub2_bk : @Intr.sub2 (c.on b) = @Intr.sub2 c := by funext x y; rw [Intr.sub2_eq, Intr.sub2_eq]; rfl
@[bk] theorem Intr.sub3_bk : @Intr.sub3 (c.on b) = @Intr.sub3 c := by funext x y; rw [Intr.sub3_eq, Intr.sub3_eq]; rfl
@[bk] theorem Intr.usubc_bk : @Intr.usubc (c.on b) = @Intr.usubc c := by funext x y; rw [Intr.usubc_eq, Intr.usubc_eq]; rfl
@[bk] theorem Intr.isubc_bk : @Intr.isubc (c.on b) = @Intr.isubc c := by funext x y; rw [Intr.isubc_eq, Intr.isubc_eq]; rfl
@[bk] theorem Intr.mul2_bk : @Intr.mul2 (c.on b) = @Intr.mul2 c := by funext x y; rw [Intr.mul2_eq, Intr.mul2_eq]; rfl
@[bk] theorem Intr.mul3_bk : @Intr.mul3 (c.on b) = @Intr.mul3 c := by funext x y; rw [Intr.mul3_eq, Intr.mul3_eq]; rfl
@[bk] theorem Intr.umulc_bk : @Intr.umulc (c.on b) = @Intr.umulc c := by funext x y; rw [Intr.umulc_eq, Intr.umulc_eq]; rfl
theorem Intr.shl2_bk (x : U256) {n : U32} (h : n.toNat < 256) : Intr.shl2 (c.on b) x n = Intr.shl2 c x n := by
  rw [Intr.shl2_eq _ _ _ h, Intr.shl2_eq _ _ _ h]; rfl
theorem Intr.shl3_bk (x : U256) {n : U32} (h : n.toNat < 256) : Intr.shl3 (c.on b) x n = Intr.shl3 c x n := by
  rw [Intr.shl3_eq _ _ _ h, Intr.shl3_eq _ _ _ h]; rfl
theorem Intr.sar2_bk (x : I256) {n : U32} (h : n.toNat < 256) : Intr.sar2 (c.on b) x n = Intr.sar2 c x n := by
  rw [Intr.sar2_eq _ _ _ h, Intr.sar2_eq _ _ _ h]; rfl
theorem Intr.sar3_bk (x : I256) {n : U32} (h : n.toNat < 256) : Intr.sar3 (c.on b) x n = Intr.sar3 c x n := by
  rw [Intr.sar3_eq _ _ _ h, Intr.sar3_eq _ _ _ h]; rfl
theorem Intr.shr2_bk (x : U256) {n : U32} (h : n.toNat < 256) : Intr.shr2 (c.on b) x n = Intr.shr2 c x n := by
  rw [Intr.shr2_eq _ _ _ h, Intr.shr2_eq _ _ _ h]; rfl
theorem Intr.shr3_bk (x : U256) {n : U32} (h : n.toNat < 256) : Intr.shr3 (c.on b) x n = Intr.shr3 c x n := by
  rw [Intr.shr3_eq _ _ _ h, Intr.shr3_eq _ _ _ h]; rfl
theorem Intr.ctlz_llvm (x : U256) : Intr.ctlz c x = .ok (Llvm.ctlz c x) := by
  unfold Intr.ctlz; split
  · rfl
  · exact (C46_count_zeros c x).1
@[bk] theorem Intr.ctlz_bk : @Intr.ctlz (c.on b) = @Intr.ctlz c := by funext x; rw [Intr.ctlz_llvm, Intr.ctlz_llvm]; rfl
theorem Intr.cttz_llvm (x : U256) : Intr.cttz c x = .ok (Llvm.cttz c x) := by
  unfold Intr.cttz; split
  · rfl
  · exact (C46_count_zeros c x).2
@[bk] theorem Intr.cttz_bk : @Intr.cttz (c.on b) = @Intr.cttz c := by funext x; rw [Intr.cttz_llvm, Intr.cttz_llvm]; rfl
@[bk] theorem Intr.iadd2_bk : @Intr.iadd2 (c.on b) = @Intr.iadd2 c := by funext x1 x2; bk_auto Intr.iadd2
@[bk] theorem Intr.iadd3_bk : @Intr.iadd3 (c.on b) = @Intr.iadd3 c := by funext x1 x2; bk_auto Intr.iadd3
@[bk] theorem Intr.isub2_bk : @Intr.isub2 (c.on b) = @Intr.isub2 c := by funext x1 x2; bk_auto Intr.isub2
@[bk] theorem Intr.isub3_bk : @Intr.isub3 (c.on b) = @Intr.isub3 c := by funext x1 x2; bk_auto Intr.isub3
@[bk] theorem Intr.imul2_bk : @Intr.imul2 (c.on b) = @Intr.imul2 c := by funext x1 x2; bk_auto Intr.imul2
@[bk] theorem Intr.imul3_bk : @Intr.imul3 (c.on b) = @Intr.imul3 c := by funext x1 x2; bk_auto Intr.imul3
theorem Intr.ishl2_bk (x : I256) {n : U32} (h : n.toNat < 256) : Intr.ishl2 (c.on b) x n = Intr.ishl2 c x n := by
  rw [Intr.ishl2_eq _ _ _ h, Intr.ishl2_eq _ _ _ h]; rfl
theorem Intr.ishl3_bk (x : I256) {n : U32} (h : n.toNat < 256) : Intr.ishl3 (c.on b) x n = Intr.ishl3 c x n := by
  rw [Intr.ishl3_eq _ _ _ h, Intr.ishl3_eq _ _ _ h]; rfl
@[bk] theorem Intr.ictlz_bk : @Intr.ictlz (c.on b) = @Intr.ictlz c := by funext x1; bk_auto Intr.ictlz
@[bk] theorem Intr.icttz_bk : @Intr.icttz (c.on b) = @Intr.icttz c := by funext x1; bk_auto Intr.icttz
theorem U256.shl_bk (x : U256) {n : U32} (h : n.toNat < 256) : U256.shl (c.on b) x n = U256.shl c x n := by
  rw [U256.shl_eq _ _ _ h, U256.shl_eq _ _ _ h]; rfl
theorem U256.shr_bk (x : U256) {n : U32} (h : n.toNat < 256) : U256.shr (c.on b) x n = U256.shr c x n := by
  rw [U256.shr_eq _ _ _ h, U256.shr_eq _ _ _ h]; rfl
theorem I256.shl_bk (x : I256) {n : U32} (h : n.toNat < 256) : I256.shl (c.on b) x n = I256.shl c x n := by
  rw [I256.shl_eq _ _ _ h, I256.shl_eq _ _ _ h]; rfl
theorem I256.shr_bk (x : I256) {n : U32} (h : n.toNat < 256) : I256.shr (c.on b) x n = I256.shr c x n := by
  rw [I256.shr_eq _ _ _ h, I256.shr_eq _ _ _ h]; rfl
@[bk] theorem I256.wrapping_sub_bk : @I256.wrapping_sub (c.on b) = @I256.wrapping_sub c := by funext x1 x2; bk_auto I256.wrapping_sub

/-! Model.DivMod -/

@[bk] theorem Intr.shl_nz_bk : @Intr.shl_nz (c.on b) = @Intr.shl_nz c := by funext x1 x2; bk_auto Intr.shl_nz
@[bk] theorem Intr.shr_nz_bk : @Intr.shr_nz (c.on b) = @Intr.shr_nz c := by funext x1 x2; bk_auto Intr.shr_nz
@[bk] theorem Intr.corrTest_bk : @Intr.corrTest (c.on b) = @Intr.corrTest c := by funext x1 x2 x3 x4; bk_auto Intr.corrTest
@[bk] theorem Intr.corrLoop_bk : @Intr.corrLoop (c.on b) = @Intr.corrLoop c := by
  funext x1 x2 x3 x4 x5 x6
  induction x4 generalizing x5 x6 with
  | zero => rfl
  | succ n ih => unfold Intr.corrLoop; simp only [bk, ih]
@[bk] theorem Intr.normalize_bk : @Intr.normalize (c.on b) = @Intr.normalize c := by funext x1 x2 x3 x4; bk_auto Intr.normalize
@[bk] theorem Intr.quotDigit_bk : @Intr.quotDigit (c.on b) = @Intr.quotDigit c := by funext x1 x2 x3 x4; bk_auto Intr.quotDigit
@[bk] theorem Intr.udiv256_by_128_to_128_bk : @Intr.udiv256_by_128_to_128 (c.on b) = @Intr.udiv256_by_128_to_128 c := by funext x1 x2 x3; bk_auto Intr.udiv256_by_128_to_128
@[bk] theorem Intr.full_shr_bk : @Intr.full_shr (c.on b) = @Intr.full_shr c := by funext x1 x2; bk_auto Intr.full_shr
@[bk] theorem Intr.fullmul_u128_bk : @Intr.fullmul_u128 (c.on b) = @Intr.fullmul_u128 c := by funext x1 x2; bk_auto Intr.fullmul_u128
@[bk] theorem Intr.fullmul_u256_u128_bk : @Intr.fullmul_u256_u128 (c.on b) = @Intr.fullmul_u256_u128 c := by funext x1 x2; bk_auto Intr.fullmul_u256_u128
@[bk] theorem Intr.knuthLoop_bk : @Intr.knuthLoop (c.on b) = @Intr.knuthLoop c := by
  funext x1 x2 x3 x4 x5 x6
  induction x4 generalizing x5 x6 with
  | zero => rfl
  | succ n ih => unfold Intr.knuthLoop; simp only [bk, ih]
@[bk] theorem Intr.knuthQhat_bk : @Intr.knuthQhat (c.on b) = @Intr.knuthQhat c := by funext x1 x2 x3 x4 x5; bk_auto Intr.knuthQhat
@[bk] theorem Intr.knuthSub_bk : @Intr.knuthSub (c.on b) = @Intr.knuthSub c := by funext x1 x2 x3 x4 x5; bk_auto Intr.knuthSub
@[bk] theorem Intr.knuthCheck_bk : @Intr.knuthCheck (c.on b) = @Intr.knuthCheck c := by funext x1; bk_auto Intr.knuthCheck
@[bk] theorem Intr.udivmodNarrow_bk : @Intr.udivmodNarrow (c.on b) = @Intr.udivmodNarrow c := by funext x1 x2; bk_auto Intr.udivmodNarrow
@[bk] theorem Intr.udivmod4_bk : @Intr.udivmod4 (c.on b) = @Intr.udivmod4 c := by
  funext x y w
  by_cases h : y.high c = 0
  · have h' : y.high (c.on b) = 0 := h
    unfold Intr.udivmod4
    simp only [h, h', if_true]
    simp only [bk]
  · have h0 : y.toNat c ≠ 0 := fun e => h (BitVec.eq_of_toNat_eq (by
      have := U256.toNat_eq c y; simp; omega))
    have h0' : y.toNat (c.on b) ≠ 0 := h0
    rw [Intr.udivmod4_eq c w h0, Intr.udivmod4_eq (c.on b) w h0']
    rfl
@[bk] theorem Intr.udiv2_bk : @Intr.udiv2 (c.on b) = @Intr.udiv2 c := by funext x1 x2; bk_auto Intr.udiv2
@[bk] theorem Intr.udiv3_bk : @Intr.udiv3 (c.on b) = @Intr.udiv3 c := by funext x1 x2; bk_auto Intr.udiv3
@[bk] theorem Intr.urem2_bk : @Intr.urem2 (c.on b) = @Intr.urem2 c := by funext x1 x2; bk_auto Intr.urem2
@[bk] theorem Intr.urem3_bk : @Intr.urem3 (c.on b) = @Intr.urem3 c := by funext x1 x2; bk_auto Intr.urem3
theorem I256.shr_255_bk (x : I256) : I256.shr (c.on b) x 255 = I256.shr c x 255 := I256.shr_bk c b x (by decide)
@[bk] theorem Intr.idivmod4_bk : @Intr.idivmod4 (c.on b) = @Intr.idivmod4 c := by
  funext x y w; unfold Intr.idivmod4; simp only [bk, I256.shr_255_bk]
@[bk] theorem Intr.idiv2_bk : @Intr.idiv2 (c.on b) = @Intr.idiv2 c := by funext x1 x2; bk_auto Intr.idiv2
@[bk] theorem Intr.idiv3_bk : @Intr.idiv3 (c.on b) = @Intr.idiv3 c := by funext x1 x2; bk_auto Intr.idiv3
@[bk] theorem Intr.irem2_bk : @Intr.irem2 (c.on b) = @Intr.irem2 c := by funext x1 x2; bk_auto Intr.irem2
@[bk] theorem Intr.irem3_bk : @Intr.irem3 (c.on b) = @Intr.irem3 c := by funext x1 x2; bk_auto Intr.irem3

/-! Model.Prim -/

@[bk] theorem PrimTy.bits_bk : @PrimTy.bits (c.on b) = @PrimTy.bits c := by funext x1; bk_auto PrimTy.bits
@[bk] theorem PrimTy.Val_bk : @PrimTy.Val (c.on b) = @PrimTy.Val c := by funext x1; bk_auto PrimTy.Val
@[bk] theorem PrimTy.toInt_bk : @PrimTy.toInt (c.on b) = @PrimTy.toInt c := by funext x1 x2; bk_auto PrimTy.toInt
@[bk] theorem PrimTy.castTo_bk : @PrimTy.castTo (c.on b) = @PrimTy.castTo c := by funext x1 x2 x3; bk_auto PrimTy.castTo
@[bk] theorem PrimTy.minVal_bk : @PrimTy.minVal (c.on b) = @PrimTy.minVal c := by funext x1; bk_auto PrimTy.minVal
@[bk] theorem PrimTy.maxVal_bk : @PrimTy.maxVal (c.on b) = @PrimTy.maxVal c := by funext x1; bk_auto PrimTy.maxVal

/-! Model.Convert -/

@[bk] theorem PrimTy.MAX_bk : @PrimTy.MAX (c.on b) = @PrimTy.MAX c := by funext x1; bk_auto PrimTy.MAX
@[bk] theorem PrimTy.MIN_bk : @PrimTy.MIN (c.on b) = @PrimTy.MIN c := by funext x1; bk_auto PrimTy.MIN
@[bk] theorem PrimTy.nonneg_bk : @PrimTy.nonneg (c.on b) = @PrimTy.nonneg c := by funext x1 x2; bk_auto PrimTy.nonneg
@[bk] theorem U256.as_prim_bk : @U256.as_prim (c.on b) = @U256.as_prim c := by funext x1 x2; bk_auto U256.as_prim
@[bk] theorem U256.as_u32_bk : @U256.as_u32 (c.on b) = @U256.as_u32 c := by funext x1; bk_auto U256.as_u32
@[bk] theorem U256.as_u8_bk : @U256.as_u8 (c.on b) = @U256.as_u8 c := by funext x1; bk_auto U256.as_u8
@[bk] theorem U256.of_prim_as_bk : @U256.of_prim_as (c.on b) = @U256.of_prim_as c := by funext x1 x2; bk_auto U256.of_prim_as
@[bk] theorem U256.of_bool_bk : @U256.of_bool (c.on b) = @U256.of_bool c := by funext x1; bk_auto U256.of_bool
@[bk] theorem U256.from_prim_bk : @U256.from_prim (c.on b) = @U256.from_prim c := by funext x1 x2; bk_auto U256.from_prim
@[bk] theorem U256.u128_try_from_bk : @U256.u128_try_from (c.on b) = @U256.u128_try_from c := by funext x1 x2; bk_auto U256.u128_try_from
@[bk] theorem U256.try_from_prim_bk : @U256.try_from_prim (c.on b) = @U256.try_from_prim c := by funext x1 x2; bk_auto U256.try_from_prim
@[bk] theorem U256.try_from_i256_bk : @U256.try_from_i256 (c.on b) = @U256.try_from_i256 c := by funext x1; bk_auto U256.try_from_i256
@[bk] theorem U256.prim_try_from_bk : @U256.prim_try_from (c.on b) = @U256.prim_try_from c := by funext x1 x2; bk_auto U256.prim_try_from
@[bk] theorem I256.as_prim_bk : @I256.as_prim (c.on b) = @I256.as_prim c := by funext x1 x2; bk_auto I256.as_prim
@[bk] theorem I256.as_u32_bk : @I256.as_u32 (c.on b) = @I256.as_u32 c := by funext x1; bk_auto I256.as_u32
@[bk] theorem I256.of_prim_as_bk : @I256.of_prim_as (c.on b) = @I256.of_prim_as c := by funext x1 x2; bk_auto I256.of_prim_as
@[bk] theorem I256.of_bool_bk : @I256.of_bool (c.on b) = @I256.of_bool c := by funext x1; bk_auto I256.of_bool
@[bk] theorem I256.from_prim_bk : @I256.from_prim (c.on b) = @I256.from_prim c := by funext x1 x2; bk_auto I256.from_prim
@[bk] theorem I256.try_from_u256_bk : @I256.try_from_u256 (c.on b) = @I256.try_from_u256 c := by funext x1; bk_auto I256.try_from_u256
@[bk] theorem I256.prim_try_from_bk : @I256.prim_try_from (c.on b) = @I256.prim_try_from c := by funext x1 x2; bk_auto I256.prim_try_from

/-! Model.Ops -/

@[bk] theorem U256.add_bk : @U256.add (c.on b) = @U256.add c := by funext x1 x2; bk_auto U256.add
@[bk] theorem U256.sub_bk : @U256.sub (c.on b) = @U256.sub c := by funext x1 x2; bk_auto U256.sub
@[bk] theorem U256.mul_bk : @U256.mul (c.on b) = @U256.mul c := by funext x1 x2; bk_auto U256.mul
@[bk] theorem U256.div_bk : @U256.div (c.on b) = @U256.div c := by funext x1 x2; bk_auto U256.div
@[bk] theorem U256.rem_bk : @U256.rem (c.on b) = @U256.rem c := by funext x1 x2; bk_auto U256.rem
@[bk] theorem U256.add_assign_bk : @U256.add_assign (c.on b) = @U256.add_assign c := by funext x1 x2; bk_auto U256.add_assign
@[bk] theorem U256.sub_assign_bk : @U256.sub_assign (c.on b) = @U256.sub_assign c := by funext x1 x2; bk_auto U256.sub_assign
@[bk] theorem U256.mul_assign_bk : @U256.mul_assign (c.on b) = @U256.mul_assign c := by funext x1 x2; bk_auto U256.mul_assign
@[bk] theorem U256.div_assign_bk : @U256.div_assign (c.on b) = @U256.div_assign c := by funext x1 x2; bk_auto U256.div_assign
@[bk] theorem U256.rem_assign_bk : @U256.rem_assign (c.on b) = @U256.rem_assign c := by funext x1 x2; bk_auto U256.rem_assign
attribute [bk] U256.withPrim U256.primWith

@[bk] theorem I256.div_bk : @I256.div (c.on b) = @I256.div c := by funext x1 x2; bk_auto I256.div
@[bk] theorem I256.rem_bk : @I256.rem (c.on b) = @I256.rem c := by funext x1 x2; bk_auto I256.rem
@[bk] theorem I256.neg_bk : @I256.neg (c.on b) = @I256.neg c := by funext x1; bk_auto I256.neg
@[bk] theorem Intr.imulc_bk : @Intr.imulc (c.on b) = @Intr.imulc c := by funext x y; rw [Intr.imulc_eq, Intr.imulc_eq]; rfl
@[bk] theorem I256.add_bk : @I256.add (c.on b) = @I256.add c := by funext x1 x2; bk_auto I256.add
@[bk] theorem I256.sub_bk : @I256.sub (c.on b) = @I256.sub c := by funext x1 x2; bk_auto I256.sub
@[bk] theorem I256.mul_bk : @I256.mul (c.on b) = @I256.mul c := by funext x1 x2; bk_auto I256.mul
@[bk] theorem I256.add_assign_bk : @I256.add_assign (c.on b) = @I256.add_assign c := by funext x1 x2; bk_auto I256.add_assign
@[bk] theorem I256.sub_assign_bk : @I256.sub_assign (c.on b) = @I256.sub_assign c := by funext x1 x2; bk_auto I256.sub_assign
@[bk] theorem I256.mul_assign_bk : @I256.mul_assign (c.on b) = @I256.mul_assign c := by funext x1 x2; bk_auto I256.mul_assign
@[bk] theorem I256.div_assign_bk : @I256.div_assign (c.on b) = @I256.div_assign c := by funext x1 x2; bk_auto I256.div_assign
@[bk] theorem I256.rem_assign_bk : @I256.rem_assign (c.on b) = @I256.rem_assign c := by funext x1 x2; bk_auto I256.rem_assign
attribute [bk] I256.withPrim I256.primWith

@[bk] theorem shiftAmountPrim_bk : @shiftAmountPrim (c.on b) = @shiftAmountPrim c := by funext x1 x2; bk_auto shiftAmountPrim
@[bk] theorem shiftAmountU_bk : @shiftAmountU (c.on b) = @shiftAmountU c := by funext x1; bk_auto shiftAmountU
@[bk] theorem shiftAmountI_bk : @shiftAmountI (c.on b) = @shiftAmountI c := by funext x1; bk_auto shiftAmountI

/-! Model.UintApi -/

@[bk] theorem U256.count_ones_bk : @U256.count_ones (c.on b) = @U256.count_ones c := by funext x1; bk_auto U256.count_ones
@[bk] theorem U256.count_zeros_bk : @U256.count_zeros (c.on b) = @U256.count_zeros c := by funext x1; bk_auto U256.count_zeros
@[bk] theorem U256.leading_zeros_bk : @U256.leading_zeros (c.on b) = @U256.leading_zeros c := by funext x1; bk_auto U256.leading_zeros
@[bk] theorem U256.trailing_zeros_bk : @U256.trailing_zeros (c.on b) = @U256.trailing_zeros c := by funext x1; bk_auto U256.trailing_zeros
@[bk] theorem U256.leading_ones_bk : @U256.leading_ones (c.on b) = @U256.leading_ones c := by funext x1; bk_auto U256.leading_ones
@[bk] theorem U256.trailing_ones_bk : @U256.trailing_ones (c.on b) = @U256.trailing_ones c := by funext x1; bk_auto U256.trailing_ones
@[bk] theorem U256.from_be_bk : @U256.from_be (c.on b) = @U256.from_be c := by funext x1; bk_auto U256.from_be
@[bk] theorem U256.from_le_bk : @U256.from_le (c.on b) = @U256.from_le c := by funext x1; bk_auto U256.from_le
@[bk] theorem U256.to_be_bk : @U256.to_be (c.on b) = @U256.to_be c := by funext x1; bk_auto U256.to_be
@[bk] theorem U256.to_le_bk : @U256.to_le (c.on b) = @U256.to_le c := by funext x1; bk_auto U256.to_le
@[bk] theorem U256.overflowing_add_bk : @U256.overflowing_add (c.on b) = @U256.overflowing_add c := by funext x1 x2; bk_auto U256.overflowing_add
@[bk] theorem U256.wrapping_add_bk : @U256.wrapping_add (c.on b) = @U256.wrapping_add c := by funext x1 x2; bk_auto U256.wrapping_add
@[bk] theorem U256.checked_add_bk : @U256.checked_add (c.on b) = @U256.checked_add c := by funext x1 x2; bk_auto U256.checked_add
@[bk] theorem U256.saturating_add_bk : @U256.saturating_add (c.on b) = @U256.saturating_add c := by funext x1 x2; bk_auto U256.saturating_add
@[bk] theorem U256.overflowing_add_signed_bk : @U256.overflowing_add_signed (c.on b) = @U256.overflowing_add_signed c := by funext x1 x2; bk_auto U256.overflowing_add_signed
@[bk] theorem U256.checked_add_signed_bk : @U256.checked_add_signed (c.on b) = @U256.checked_add_signed c := by funext x1 x2; bk_auto U256.checked_add_signed
@[bk] theorem U256.saturating_add_signed_bk : @U256.saturating_add_signed (c.on b) = @U256.saturating_add_signed c := by funext x1 x2; bk_auto U256.saturating_add_signed
@[bk] theorem U256.wrapping_add_signed_bk : @U256.wrapping_add_signed (c.on b) = @U256.wrapping_add_signed c := by funext x1 x2; bk_auto U256.wrapping_add_signed
@[bk] theorem U256.overflowing_sub_bk : @U256.overflowing_sub (c.on b) = @U256.overflowing_sub c := by funext x1 x2; bk_auto U256.overflowing_sub
@[bk] theorem U256.wrapping_sub_bk : @U256.wrapping_sub (c.on b) = @U256.wrapping_sub c := by funext x1 x2; bk_auto U256.wrapping_sub
@[bk] theorem U256.checked_sub_bk : @U256.checked_sub (c.on b) = @U256.checked_sub c := by funext x1 x2; bk_auto U256.checked_sub
@[bk] theorem U256.saturating_sub_bk : @U256.saturating_sub (c.on b) = @U256.saturating_sub c := by funext x1 x2; bk_auto U256.saturating_sub
@[bk] theorem U256.abs_diff_bk : @U256.abs_diff (c.on b) = @U256.abs_diff c := by funext x1 x2; bk_auto U256.abs_diff
@[bk] theorem U256.overflowing_neg_bk : @U256.overflowing_neg (c.on b) = @U256.overflowing_neg c := by funext x1; bk_auto U256.overflowing_neg
@[bk] theorem U256.wrapping_neg_bk : @U256.wrapping_neg (c.on b) = @U256.wrapping_neg c := by funext x1; bk_auto U256.wrapping_neg
@[bk] theorem U256.checked_neg_bk : @U256.checked_neg (c.on b) = @U256.checked_neg c := by funext x1; bk_auto U256.checked_neg
@[bk] theorem U256.overflowing_mul_bk : @U256.overflowing_mul (c.on b) = @U256.overflowing_mul c := by funext x1 x2; bk_auto U256.overflowing_mul
@[bk] theorem U256.wrapping_mul_bk : @U256.wrapping_mul (c.on b) = @U256.wrapping_mul c := by funext x1 x2; bk_auto U256.wrapping_mul
@[bk] theorem U256.checked_mul_bk : @U256.checked_mul (c.on b) = @U256.checked_mul c := by funext x1 x2; bk_auto U256.checked_mul
@[bk] theorem U256.saturating_mul_bk : @U256.saturating_mul (c.on b) = @U256.saturating_mul c := by funext x1 x2; bk_auto U256.saturating_mul
@[bk] theorem U256.div_euclid_bk : @U256.div_euclid (c.on b) = @U256.div_euclid c := by funext x1 x2; bk_auto U256.div_euclid
@[bk] theorem U256.rem_euclid_bk : @U256.rem_euclid (c.on b) = @U256.rem_euclid c := by funext x1 x2; bk_auto U256.rem_euclid
@[bk] theorem U256.checked_div_bk : @U256.checked_div (c.on b) = @U256.checked_div c := by funext x1 x2; bk_auto U256.checked_div
@[bk] theorem U256.checked_div_euclid_bk : @U256.checked_div_euclid (c.on b) = @U256.checked_div_euclid c := by funext x1 x2; bk_auto U256.checked_div_euclid
@[bk] theorem U256.checked_rem_bk : @U256.checked_rem (c.on b) = @U256.checked_rem c := by funext x1 x2; bk_auto U256.checked_rem
@[bk] theorem U256.checked_rem_euclid_bk : @U256.checked_rem_euclid (c.on b) = @U256.checked_rem_euclid c := by funext x1 x2; bk_auto U256.checked_rem_euclid
@[bk] theorem U256.wrapping_div_bk : @U256.wrapping_div (c.on b) = @U256.wrapping_div c := by funext x1 x2; bk_auto U256.wrapping_div
@[bk] theorem U256.wrapping_div_euclid_bk : @U256.wrapping_div_euclid (c.on b) = @U256.wrapping_div_euclid c := by funext x1 x2; bk_auto U256.wrapping_div_euclid
@[bk] theorem U256.wrapping_rem_bk : @U256.wrapping_rem (c.on b) = @U256.wrapping_rem c := by funext x1 x2; bk_auto U256.wrapping_rem
@[bk] theorem U256.wrapping_rem_euclid_bk : @U256.wrapping_rem_euclid (c.on b) = @U256.wrapping_rem_euclid c := by funext x1 x2; bk_auto U256.wrapping_rem_euclid
@[bk] theorem U256.saturating_div_bk : @U256.saturating_div (c.on b) = @U256.saturating_div c := by funext x1 x2; bk_auto U256.saturating_div
@[bk] theorem U256.overflowing_div_bk : @U256.overflowing_div (c.on b) = @U256.overflowing_div c := by funext x1 x2; bk_auto U256.overflowing_div
@[bk] theorem U256.overflowing_div_euclid_bk : @U256.overflowing_div_euclid (c.on b) = @U256.overflowing_div_euclid c := by funext x1 x2; bk_auto U256.overflowing_div_euclid
@[bk] theorem U256.overflowing_rem_bk : @U256.overflowing_rem (c.on b) = @U256.overflowing_rem c := by funext x1 x2; bk_auto U256.overflowing_rem
@[bk] theorem U256.overflowing_rem_euclid_bk : @U256.overflowing_rem_euclid (c.on b) = @U256.overflowing_rem_euclid c := by funext x1 x2; bk_auto U256.overflowing_rem_euclid
@[bk] theorem U256.div_rem_bk : @U256.div_rem (c.on b) = @U256.div_rem c := by funext x1 x2; bk_auto U256.div_rem
@[bk] theorem U256.div_rem_euclid_bk : @U256.div_rem_euclid (c.on b) = @U256.div_rem_euclid c := by funext x1 x2; bk_auto U256.div_rem_euclid
@[bk] theorem U256.checked_div_rem_bk : @U256.checked_div_rem (c.on b) = @U256.checked_div_rem c := by funext x1 x2; bk_auto U256.checked_div_rem
@[bk] theorem U256.checked_div_rem_euclid_bk : @U256.checked_div_rem_euclid (c.on b) = @U256.checked_div_rem_euclid c := by funext x1 x2; bk_auto U256.checked_div_rem_euclid
@[bk] theorem U256.saturating_div_rem_bk : @U256.saturating_div_rem (c.on b) = @U256.saturating_div_rem c := by funext x1 x2; bk_auto U256.saturating_div_rem
@[bk] theorem U256.saturating_div_rem_euclid_bk : @U256.saturating_div_rem_euclid (c.on b) = @U256.saturating_div_rem_euclid c := by funext x1 x2; bk_auto U256.saturating_div_rem_euclid
@[bk] theorem U256.wrapping_div_rem_bk : @U256.wrapping_div_rem (c.on b) = @U256.wrapping_div_rem c := by funext x1 x2; bk_auto U256.wrapping_div_rem
@[bk] theorem U256.wrapping_div_rem_euclid_bk : @U256.wrapping_div_rem_euclid (c.on b) = @U256.wrapping_div_rem_euclid c := by funext x1 x2; bk_auto U256.wrapping_div_rem_euclid
@[bk] theorem U256.overflowing_div_rem_bk : @U256.overflowing_div_rem (c.on b) = @U256.overflowing_div_rem c := by funext x1 x2; bk_auto U256.overflowing_div_rem
@[bk] theorem U256.overflowing_div_rem_euclid_bk : @U256.overflowing_div_rem_euclid (c.on b) = @U256.overflowing_div_rem_euclid c := by funext x1 x2; bk_auto U256.overflowing_div_rem_euclid
@[bk] theorem U256.wrapping_shl_bk : @U256.wrapping_shl (c.on b) = @U256.wrapping_shl c := by
  funext x n; exact Intr.shl3_bk c b x (by rw [toNat_and_ff]; omega)
@[bk] theorem U256.wrapping_shr_bk : @U256.wrapping_shr (c.on b) = @U256.wrapping_shr c := by
  funext x n; exact Intr.shr3_bk c b x (by rw [toNat_and_ff]; omega)
@[bk] theorem U256.overflowing_shl_bk : @U256.overflowing_shl (c.on b) = @U256.overflowing_shl c := by funext x1 x2; bk_auto U256.overflowing_shl
@[bk] theorem U256.overflowing_shr_bk : @U256.overflowing_shr (c.on b) = @U256.overflowing_shr c := by funext x1 x2; bk_auto U256.overflowing_shr
@[bk] theorem U256.checked_shl_bk : @U256.checked_shl (c.on b) = @U256.checked_shl c := by funext x1 x2; bk_auto U256.checked_shl
@[bk] theorem U256.checked_shr_bk : @U256.checked_shr (c.on b) = @U256.checked_shr c := by funext x1 x2; bk_auto U256.checked_shr
@[bk] theorem U256.checked_pow_loop_bk : @U256.checked_pow_loop (c.on b) = @U256.checked_pow_loop c := by
  funext  x1 x2 x3 x4
  induction x1 generalizing x2 x3 x4 with
  | zero => rfl
  | succ n ih => unfold U256.checked_pow_loop; simp only [bk, ih]
@[bk] theorem U256.checked_pow_bk : @U256.checked_pow (c.on b) = @U256.checked_pow c := by funext x1 x2; bk_auto U256.checked_pow
@[bk] theorem U256.saturating_pow_bk : @U256.saturating_pow (c.on b) = @U256.saturating_pow c := by funext x1 x2; bk_auto U256.saturating_pow
@[bk] theorem U256.wrapping_pow_loop_bk : @U256.wrapping_pow_loop (c.on b) = @U256.wrapping_pow_loop c := by
  funext  x1 x2 x3 x4
  induction x1 generalizing x2 x3 x4 with
  | zero => rfl
  | succ n ih => unfold U256.wrapping_pow_loop; simp only [bk, ih]
@[bk] theorem U256.wrapping_pow_bk : @U256.wrapping_pow (c.on b) = @U256.wrapping_pow c := by funext x1 x2; bk_auto U256.wrapping_pow
@[bk] theorem U256.overflowing_pow_loop_bk : @U256.overflowing_pow_loop (c.on b) = @U256.overflowing_pow_loop c := by
  funext  x1 x2 x3 x4 x5
  induction x1 generalizing x2 x3 x4 x5 with
  | zero => rfl
  | succ n ih => unfold U256.overflowing_pow_loop; simp only [bk, ih]
@[bk] theorem U256.overflowing_pow_bk : @U256.overflowing_pow (c.on b) = @U256.overflowing_pow c := by funext x1 x2; bk_auto U256.overflowing_pow
@[bk] theorem U256.pow_loop_bk : @U256.pow_loop (c.on b) = @U256.pow_loop c := by
  funext  x1 x2 x3 x4
  induction x1 generalizing x2 x3 x4 with
  | zero => rfl
  | succ n ih => unfold U256.pow_loop; simp only [bk, ih]
@[bk] theorem U256.pow_bk : @U256.pow (c.on b) = @U256.pow c := by funext x1 x2; bk_auto U256.pow
@[bk] theorem U256.is_power_of_two_bk : @U256.is_power_of_two (c.on b) = @U256.is_power_of_two c := by funext x1; bk_auto U256.is_power_of_two
@[bk] theorem U256.one_less_than_next_power_of_two_bk :
    @U256.one_less_than_next_power_of_two (c.on b) = @U256.one_less_than_next_power_of_two c := by
  funext x
  obtain ⟨k, _, h1, _, h2, h3⟩ := one_less_eq c x
  obtain ⟨k', _, h1', _, h2', h3'⟩ := one_less_eq (c.on b) x
  have e : 2 ^ k = 2 ^ k' := Nat.le_antisymm (h3 k' h2') (h3' k h2)
  rw [h1, h1', e]; rfl
@[bk] theorem U256.next_power_of_two_bk : @U256.next_power_of_two (c.on b) = @U256.next_power_of_two c := by funext x1; bk_auto U256.next_power_of_two
@[bk] theorem U256.checked_next_power_of_two_bk : @U256.checked_next_power_of_two (c.on b) = @U256.checked_next_power_of_two c := by funext x1; bk_auto U256.checked_next_power_of_two
@[bk] theorem U256.sum_bk : @U256.sum (c.on b) = @U256.sum c := by funext x1; bk_auto U256.sum
@[bk] theorem U256.product_bk : @U256.product (c.on b) = @U256.product c := by funext x1; bk_auto U256.product

/-! Model.IntApi -/

@[bk] theorem I256.count_ones_bk : @I256.count_ones (c.on b) = @I256.count_ones c := by funext x1; bk_auto I256.count_ones
@[bk] theorem I256.count_zeros_bk : @I256.count_zeros (c.on b) = @I256.count_zeros c := by funext x1; bk_auto I256.count_zeros
@[bk] theorem I256.leading_zeros_bk : @I256.leading_zeros (c.on b) = @I256.leading_zeros c := by funext x1; bk_auto I256.leading_zeros
@[bk] theorem I256.trailing_zeros_bk : @I256.trailing_zeros (c.on b) = @I256.trailing_zeros c := by funext x1; bk_auto I256.trailing_zeros
@[bk] theorem I256.leading_ones_bk : @I256.leading_ones (c.on b) = @I256.leading_ones c := by funext x1; bk_auto I256.leading_ones
@[bk] theorem I256.trailing_ones_bk : @I256.trailing_ones (c.on b) = @I256.trailing_ones c := by funext x1; bk_auto I256.trailing_ones
@[bk] theorem I256.from_be_bk : @I256.from_be (c.on b) = @I256.from_be c := by funext x1; bk_auto I256.from_be
@[bk] theorem I256.from_le_bk : @I256.from_le (c.on b) = @I256.from_le c := by funext x1; bk_auto I256.from_le
@[bk] theorem I256.to_be_bk : @I256.to_be (c.on b) = @I256.to_be c := by funext x1; bk_auto I256.to_be
@[bk] theorem I256.to_le_bk : @I256.to_le (c.on b) = @I256.to_le c := by funext x1; bk_auto I256.to_le
@[bk] theorem I256.signum128_bk : @I256.signum128 (c.on b) = @I256.signum128 c := by funext x1; bk_auto I256.signum128
@[bk] theorem I256.signum_bk : @I256.signum (c.on b) = @I256.signum c := by funext x1; bk_auto I256.signum
@[bk] theorem I256.is_positive_bk : @I256.is_positive (c.on b) = @I256.is_positive c := by funext x1; bk_auto I256.is_positive
@[bk] theorem I256.is_negative_bk : @I256.is_negative (c.on b) = @I256.is_negative c := by funext x1; bk_auto I256.is_negative
@[bk] theorem I256.overflowing_add_bk : @I256.overflowing_add (c.on b) = @I256.overflowing_add c := by funext x1 x2; bk_auto I256.overflowing_add
@[bk] theorem I256.wrapping_add_bk : @I256.wrapping_add (c.on b) = @I256.wrapping_add c := by funext x1 x2; bk_auto I256.wrapping_add
@[bk] theorem I256.checked_add_bk : @I256.checked_add (c.on b) = @I256.checked_add c := by funext x1 x2; bk_auto I256.checked_add
@[bk] theorem I256.saturating_add_bk : @I256.saturating_add (c.on b) = @I256.saturating_add c := by funext x1 x2; bk_auto I256.saturating_add
@[bk] theorem I256.overflowing_sub_bk : @I256.overflowing_sub (c.on b) = @I256.overflowing_sub c := by funext x1 x2; bk_auto I256.overflowing_sub
@[bk] theorem I256.checked_sub_bk : @I256.checked_sub (c.on b) = @I256.checked_sub c := by funext x1 x2; bk_auto I256.checked_sub
@[bk] theorem I256.saturating_sub_bk : @I256.saturating_sub (c.on b) = @I256.saturating_sub c := by funext x1 x2; bk_auto I256.saturating_sub
@[bk] theorem I256.overflowing_add_unsigned_bk : @I256.overflowing_add_unsigned (c.on b) = @I256.overflowing_add_unsigned c := by funext x1 x2; bk_auto I256.overflowing_add_unsigned
@[bk] theorem I256.checked_add_unsigned_bk : @I256.checked_add_unsigned (c.on b) = @I256.checked_add_unsigned c := by funext x1 x2; bk_auto I256.checked_add_unsigned
@[bk] theorem I256.saturating_add_unsigned_bk : @I256.saturating_add_unsigned (c.on b) = @I256.saturating_add_unsigned c := by funext x1 x2; bk_auto I256.saturating_add_unsigned
@[bk] theorem I256.wrapping_add_unsigned_bk : @I256.wrapping_add_unsigned (c.on b) = @I256.wrapping_add_unsigned c := by funext x1 x2; bk_auto I256.wrapping_add_unsigned
@[bk] theorem I256.overflowing_sub_unsigned_bk : @I256.overflowing_sub_unsigned (c.on b) = @I256.overflowing_sub_unsigned c := by funext x1 x2; bk_auto I256.overflowing_sub_unsigned
@[bk] theorem I256.checked_sub_unsigned_bk : @I256.checked_sub_unsigned (c.on b) = @I256.checked_sub_unsigned c := by funext x1 x2; bk_auto I256.checked_sub_unsigned
@[bk] theorem I256.saturating_sub_unsigned_bk : @I256.saturating_sub_unsigned (c.on b) = @I256.saturating_sub_unsigned c := by funext x1 x2; bk_auto I256.saturating_sub_unsigned
@[bk] theorem I256.wrapping_sub_unsigned_bk : @I256.wrapping_sub_unsigned (c.on b) = @I256.wrapping_sub_unsigned c := by funext x1 x2; bk_auto I256.wrapping_sub_unsigned
@[bk] theorem I256.overflowing_neg_bk : @I256.overflowing_neg (c.on b) = @I256.overflowing_neg c := by funext x1; bk_auto I256.overflowing_neg
@[bk] theorem I256.checked_neg_bk : @I256.checked_neg (c.on b) = @I256.checked_neg c := by funext x1; bk_auto I256.checked_neg
@[bk] theorem I256.saturating_neg_bk : @I256.saturating_neg (c.on b) = @I256.saturating_neg c := by funext x1; bk_auto I256.saturating_neg
@[bk] theorem I256.wrapping_neg_bk : @I256.wrapping_neg (c.on b) = @I256.wrapping_neg c := by funext x1; bk_auto I256.wrapping_neg
@[bk] theorem I256.checked_abs_bk : @I256.checked_abs (c.on b) = @I256.checked_abs c := by funext x1; bk_auto I256.checked_abs
@[bk] theorem I256.saturating_abs_bk : @I256.saturating_abs (c.on b) = @I256.saturating_abs c := by funext x1; bk_auto I256.saturating_abs
@[bk] theorem I256.wrapping_abs_bk : @I256.wrapping_abs (c.on b) = @I256.wrapping_abs c := by funext x1; bk_auto I256.wrapping_abs
@[bk] theorem I256.unsigned_abs_bk : @I256.unsigned_abs (c.on b) = @I256.unsigned_abs c := by funext x1; bk_auto I256.unsigned_abs
@[bk] theorem I256.overflowing_abs_bk : @I256.overflowing_abs (c.on b) = @I256.overflowing_abs c := by funext x1; bk_auto I256.overflowing_abs
@[bk] theorem I256.abs_bk : @I256.abs (c.on b) = @I256.abs c := by funext x1; bk_auto I256.abs
@[bk] theorem I256.abs_diff_bk : @I256.abs_diff (c.on b) = @I256.abs_diff c := by funext x1 x2; bk_auto I256.abs_diff
@[bk] theorem I256.overflowing_mul_bk : @I256.overflowing_mul (c.on b) = @I256.overflowing_mul c := by funext x1 x2; bk_auto I256.overflowing_mul
@[bk] theorem I256.wrapping_mul_bk : @I256.wrapping_mul (c.on b) = @I256.wrapping_mul c := by funext x1 x2; bk_auto I256.wrapping_mul
@[bk] theorem I256.checked_mul_bk : @I256.checked_mul (c.on b) = @I256.checked_mul c := by funext x1 x2; bk_auto I256.checked_mul
@[bk] theorem I256.saturating_mul_bk : @I256.saturating_mul (c.on b) = @I256.saturating_mul c := by funext x1 x2; bk_auto I256.saturating_mul
@[bk] theorem I256.minByMinusOne_bk : @I256.minByMinusOne (c.on b) = @I256.minByMinusOne c := by funext x1 x2; bk_auto I256.minByMinusOne
@[bk] theorem I256.div_euclid_bk : @I256.div_euclid (c.on b) = @I256.div_euclid c := by funext x1 x2; bk_auto I256.div_euclid
@[bk] theorem I256.rem_euclid_bk : @I256.rem_euclid (c.on b) = @I256.rem_euclid c := by funext x1 x2; bk_auto I256.rem_euclid
@[bk] theorem I256.checked_div_bk : @I256.checked_div (c.on b) = @I256.checked_div c := by funext x1 x2; bk_auto I256.checked_div
@[bk] theorem I256.checked_div_euclid_bk : @I256.checked_div_euclid (c.on b) = @I256.checked_div_euclid c := by funext x1 x2; bk_auto I256.checked_div_euclid
@[bk] theorem I256.checked_rem_bk : @I256.checked_rem (c.on b) = @I256.checked_rem c := by funext x1 x2; bk_auto I256.checked_rem
@[bk] theorem I256.checked_rem_euclid_bk : @I256.checked_rem_euclid (c.on b) = @I256.checked_rem_euclid c := by funext x1 x2; bk_auto I256.checked_rem_euclid
@[bk] theorem I256.overflowing_div_bk : @I256.overflowing_div (c.on b) = @I256.overflowing_div c := by funext x1 x2; bk_auto I256.overflowing_div
@[bk] theorem I256.overflowing_div_euclid_bk : @I256.overflowing_div_euclid (c.on b) = @I256.overflowing_div_euclid c := by funext x1 x2; bk_auto I256.overflowing_div_euclid
@[bk] theorem I256.overflowing_rem_bk : @I256.overflowing_rem (c.on b) = @I256.overflowing_rem c := by funext x1 x2; bk_auto I256.overflowing_rem
@[bk] theorem I256.overflowing_rem_euclid_bk : @I256.overflowing_rem_euclid (c.on b) = @I256.overflowing_rem_euclid c := by funext x1 x2; bk_auto I256.overflowing_rem_euclid
@[bk] theorem I256.wrapping_div_bk : @I256.wrapping_div (c.on b) = @I256.wrapping_div c := by funext x1 x2; bk_auto I256.wrapping_div
@[bk] theorem I256.wrapping_div_euclid_bk : @I256.wrapping_div_euclid (c.on b) = @I256.wrapping_div_euclid c := by funext x1 x2; bk_auto I256.wrapping_div_euclid
@[bk] theorem I256.wrapping_rem_bk : @I256.wrapping_rem (c.on b) = @I256.wrapping_rem c := by funext x1 x2; bk_auto I256.wrapping_rem
@[bk] theorem I256.wrapping_rem_euclid_bk : @I256.wrapping_rem_euclid (c.on b) = @I256.wrapping_rem_euclid c := by funext x1 x2; bk_auto I256.wrapping_rem_euclid
@[bk] theorem I256.saturating_div_bk : @I256.saturating_div (c.on b) = @I256.saturating_div c := by funext x1 x2; bk_auto I256.saturating_div
@[bk] theorem I256.wrapping_div_rem_bk : @I256.wrapping_div_rem (c.on b) = @I256.wrapping_div_rem c := by funext x1 x2; bk_auto I256.wrapping_div_rem
@[bk] theorem I256.div_rem_bk : @I256.div_rem (c.on b) = @I256.div_rem c := by funext x1 x2; bk_auto I256.div_rem
@[bk] theorem I256.checked_div_rem_bk : @I256.checked_div_rem (c.on b) = @I256.checked_div_rem c := by funext x1 x2; bk_auto I256.checked_div_rem
@[bk] theorem I256.overflowing_div_rem_bk : @I256.overflowing_div_rem (c.on b) = @I256.overflowing_div_rem c := by funext x1 x2; bk_auto I256.overflowing_div_rem
@[bk] theorem I256.saturating_div_rem_bk : @I256.saturating_div_rem (c.on b) = @I256.saturating_div_rem c := by funext x1 x2; bk_auto I256.saturating_div_rem
@[bk] theorem I256.euclidCheck_bk : @I256.euclidCheck (c.on b) = @I256.euclidCheck c := by funext x1 x2; bk_auto I256.euclidCheck
@[bk] theorem I256.euclidQuot_bk : @I256.euclidQuot (c.on b) = @I256.euclidQuot c := by funext x1 x2 x3; bk_auto I256.euclidQuot
@[bk] theorem I256.wrapping_div_rem_euclid_bk : @I256.wrapping_div_rem_euclid (c.on b) = @I256.wrapping_div_rem_euclid c := by funext x1 x2; bk_auto I256.wrapping_div_rem_euclid
@[bk] theorem I256.div_rem_euclid_bk : @I256.div_rem_euclid (c.on b) = @I256.div_rem_euclid c := by funext x1 x2; bk_auto I256.div_rem_euclid
@[bk] theorem I256.checked_div_rem_euclid_bk : @I256.checked_div_rem_euclid (c.on b) = @I256.checked_div_rem_euclid c := by funext x1 x2; bk_auto I256.checked_div_rem_euclid
@[bk] theorem I256.overflowing_div_rem_euclid_bk : @I256.overflowing_div_rem_euclid (c.on b) = @I256.overflowing_div_rem_euclid c := by funext x1 x2; bk_auto I256.overflowing_div_rem_euclid
@[bk] theorem I256.saturating_div_rem_euclid_bk : @I256.saturating_div_rem_euclid (c.on b) = @I256.saturating_div_rem_euclid c := by funext x1 x2; bk_auto I256.saturating_div_rem_euclid
@[bk] theorem I256.wrapping_shl_bk : @I256.wrapping_shl (c.on b) = @I256.wrapping_shl c := by
  funext x n; exact Intr.ishl3_bk c b x (by rw [toNat_and_ff]; omega)
@[bk] theorem I256.wrapping_shr_bk : @I256.wrapping_shr (c.on b) = @I256.wrapping_shr c := by
  funext x n; exact Intr.sar3_bk c b x (by rw [toNat_and_ff]; omega)
@[bk] theorem I256.overflowing_shl_bk : @I256.overflowing_shl (c.on b) = @I256.overflowing_shl c := by funext x1 x2; bk_auto I256.overflowing_shl
@[bk] theorem I256.overflowing_shr_bk : @I256.overflowing_shr (c.on b) = @I256.overflowing_shr c := by funext x1 x2; bk_auto I256.overflowing_shr
@[bk] theorem I256.checked_shl_bk : @I256.checked_shl (c.on b) = @I256.checked_shl c := by funext x1 x2; bk_auto I256.checked_shl
@[bk] theorem I256.checked_shr_bk : @I256.checked_shr (c.on b) = @I256.checked_shr c := by funext x1 x2; bk_auto I256.checked_shr
@[bk] theorem I256.checked_pow_loop_bk : @I256.checked_pow_loop (c.on b) = @I256.checked_pow_loop c := by
  funext  x1 x2 x3 x4
  induction x1 generalizing x2 x3 x4 with
  | zero => rfl
  | succ n ih => unfold I256.checked_pow_loop; simp only [bk, ih]
@[bk] theorem I256.checked_pow_bk : @I256.checked_pow (c.on b) = @I256.checked_pow c := by funext x1 x2; bk_auto I256.checked_pow
@[bk] theorem I256.saturating_pow_bk : @I256.saturating_pow (c.on b) = @I256.saturating_pow c := by funext x1 x2; bk_auto I256.saturating_pow
@[bk] theorem I256.wrapping_pow_loop_bk : @I256.wrapping_pow_loop (c.on b) = @I256.wrapping_pow_loop c := by
  funext  x1 x2 x3 x4
  induction x1 generalizing x2 x3 x4 with
  | zero => rfl
  | succ n ih => unfold I256.wrapping_pow_loop; simp only [bk, ih]
@[bk] theorem I256.wrapping_pow_bk : @I256.wrapping_pow (c.on b) = @I256.wrapping_pow c := by funext x1 x2; bk_auto I256.wrapping_pow
@[bk] theorem I256.overflowing_pow_loop_bk : @I256.overflowing_pow_loop (c.on b) = @I256.overflowing_pow_loop c := by
  funext  x1 x2 x3 x4 x5
  induction x1 generalizing x2 x3 x4 x5 with
  | zero => rfl
  | succ n ih => unfold I256.overflowing_pow_loop; simp only [bk, ih]
@[bk] theorem I256.overflowing_pow_bk : @I256.overflowing_pow (c.on b) = @I256.overflowing_pow c := by funext x1 x2; bk_auto I256.overflowing_pow
@[bk] theorem I256.pow_loop_bk : @I256.pow_loop (c.on b) = @I256.pow_loop c := by
  funext  x1 x2 x3 x4
  induction x1 generalizing x2 x3 x4 with
  | zero => rfl
  | succ n ih => unfold I256.pow_loop; simp only [bk, ih]
@[bk] theorem I256.pow_bk : @I256.pow (c.on b) = @I256.pow c := by funext x1 x2; bk_auto I256.pow
@[bk] theorem I256.sum_bk : @I256.sum (c.on b) = @I256.sum c := by funext x1; bk_auto I256.sum
@[bk] theorem I256.product_bk : @I256.product (c.on b) = @I256.product c := by funext x1; bk_auto I256.product

/-! Model.Bytes -/

@[bk] theorem U256.to_ne_bytes_bk : @U256.to_ne_bytes (c.on b) = @U256.to_ne_bytes c := by funext x1; bk_auto U256.to_ne_bytes
@[bk] theorem U256.to_be_bytes_bk : @U256.to_be_bytes (c.on b) = @U256.to_be_bytes c := by funext x1; bk_auto U256.to_be_bytes
@[bk] theorem U256.to_le_bytes_bk : @U256.to_le_bytes (c.on b) = @U256.to_le_bytes c := by funext x1; bk_auto U256.to_le_bytes
@[bk] theorem U256.from_ne_bytes_bk : @U256.from_ne_bytes (c.on b) = @U256.from_ne_bytes c := by funext x1; bk_auto U256.from_ne_bytes
@[bk] theorem U256.from_be_bytes_bk : @U256.from_be_bytes (c.on b) = @U256.from_be_bytes c := by funext x1; bk_auto U256.from_be_bytes
@[bk] theorem U256.from_le_bytes_bk : @U256.from_le_bytes (c.on b) = @U256.from_le_bytes c := by funext x1; bk_auto U256.from_le_bytes
@[bk] theorem I256.to_ne_bytes_bk : @I256.to_ne_bytes (c.on b) = @I256.to_ne_bytes c := by funext x1; bk_auto I256.to_ne_bytes
@[bk] theorem I256.to_be_bytes_bk : @I256.to_be_bytes (c.on b) = @I256.to_be_bytes c := by funext x1; bk_auto I256.to_be_bytes
@[bk] theorem I256.to_le_bytes_bk : @I256.to_le_bytes (c.on b) = @I256.to_le_bytes c := by funext x1; bk_auto I256.to_le_bytes
@[bk] theorem I256.from_ne_bytes_bk : @I256.from_ne_bytes (c.on b) = @I256.from_ne_bytes c := by funext x1; bk_auto I256.from_ne_bytes
@[bk] theorem I256.from_be_bytes_bk : @I256.from_be_bytes (c.on b) = @I256.from_be_bytes c := by funext x1; bk_auto I256.from_be_bytes
@[bk] theorem I256.from_le_bytes_bk : @I256.from_le_bytes (c.on b) = @I256.from_le_bytes c := by funext x1; bk_auto I256.from_le_bytes

/-! Model.Fmt -/

@[bk] theorem Radix.digit_bk : @Radix.digit (c.on b) = @Radix.digit c := by funext x1 x2; bk_auto Radix.digit
@[bk] theorem Radix.loop_bk : @Radix.loop (c.on b) = @Radix.loop c := by
  funext x1 x2 x3 x4 x5
  induction x3 generalizing x4 x5 with
  | zero => rfl
  | succ n ih => unfold Radix.loop; simp only [bk, ih]
@[bk] theorem Radix.fmt_u256_bk : @Radix.fmt_u256 (c.on b) = @Radix.fmt_u256 c := by funext x1 x2 x3 x4; bk_auto Radix.fmt_u256
@[bk] theorem isizeC_bk : @isizeC (c.on b) = @isizeC c := by funext x1 x2; bk_auto isizeC
@[bk] theorem isizeShl1_bk : @isizeShl1 (c.on b) = @isizeShl1 c := by funext x1; bk_auto isizeShl1
@[bk] theorem U256.as_isize_bk : @U256.as_isize (c.on b) = @U256.as_isize c := by funext x1; bk_auto U256.as_isize
@[bk] theorem decLoop_bk : @decLoop (c.on b) = @decLoop c := by
  funext  x1 x2 x3 x4
  induction x1 generalizing x2 x3 x4 with
  | zero => rfl
  | succ n ih => unfold decLoop; simp only [bk, ih]
@[bk] theorem decTail_bk : @decTail (c.on b) = @decTail c := by funext x1 x2 x3; bk_auto decTail
@[bk] theorem fmt_u256_bk : @fmt_u256 (c.on b) = @fmt_u256 c := by funext x1 x2 x3; bk_auto fmt_u256
@[bk] theorem U256.display_bk : @U256.display (c.on b) = @U256.display c := by funext x1 x2; bk_auto U256.display
@[bk] theorem U256.fmtRadix_bk : @U256.fmtRadix (c.on b) = @U256.fmtRadix c := by funext x1 x2 x3; bk_auto U256.fmtRadix
@[bk] theorem U256.debug_bk : @U256.debug (c.on b) = @U256.debug c := by funext x1 x2; bk_auto U256.debug
@[bk] theorem I256.display_bk : @I256.display (c.on b) = @I256.display c := by funext x1 x2; bk_auto I256.display
@[bk] theorem I256.fmtRadix_bk : @I256.fmtRadix (c.on b) = @I256.fmtRadix c := by funext x1 x2 x3; bk_auto I256.fmtRadix
@[bk] theorem I256.debug_bk : @I256.debug (c.on b) = @I256.debug c := by funext x1 x2; bk_auto I256.debug

/-! Model.Parse -/

@[bk] theorem U256.radixHelper_bk : @U256.radixHelper (c.on b) = @U256.radixHelper c := by bk_auto U256.radixHelper
@[bk] theorem U256.from_str_radix_bk : @U256.from_str_radix (c.on b) = @U256.from_str_radix c := by funext x1 x2; bk_auto U256.from_str_radix
@[bk] theorem U256.from_str_bk : @U256.from_str (c.on b) = @U256.from_str c := by funext x1; bk_auto U256.from_str
@[bk] theorem U256.from_str_hex_bk : @U256.from_str_hex (c.on b) = @U256.from_str_hex c := by funext x1; bk_auto U256.from_str_hex
@[bk] theorem U256.from_str_prefixed_bk : @U256.from_str_prefixed (c.on b) = @U256.from_str_prefixed c := by funext x1; bk_auto U256.from_str_prefixed
@[bk] theorem I256.radixHelper_bk : @I256.radixHelper (c.on b) = @I256.radixHelper c := by bk_auto I256.radixHelper
@[bk] theorem I256.from_str_radix_bk : @I256.from_str_radix (c.on b) = @I256.from_str_radix c := by funext x1 x2; bk_auto I256.from_str_radix
@[bk] theorem I256.from_str_bk : @I256.from_str (c.on b) = @I256.from_str c := by funext x1; bk_auto I256.from_str
@[bk] theorem I256.from_str_hex_bk : @I256.from_str_hex (c.on b) = @I256.from_str_hex c := by funext x1; bk_auto I256.from_str_hex
@[bk] theorem I256.from_str_prefixed_bk : @I256.from_str_prefixed (c.on b) = @I256.from_str_prefixed c := by funext x1; bk_auto I256.from_str_prefixed
@[bk] theorem Const.add_bk : @Const.add (c.on b) = @Const.add c := by funext x1 x2; bk_auto Const.add
@[bk] theorem Const.mul_bk : @Const.mul (c.on b) = @Const.mul c := by funext x1 x2; bk_auto Const.mul
@[bk] theorem Const.nextDigit_bk : @Const.nextDigit (c.on b) = @Const.nextDigit c := by funext x1 x2; bk_auto Const.nextDigit
@[bk] theorem Const.loop_bk : @Const.loop (c.on b) = @Const.loop c := by
  funext x1 x2 x3
  induction x2 generalizing x3 with
  | nil => rfl
  | cons a l ih => unfold Const.loop; simp only [bk, ih]
@[bk] theorem Const.from_str_prefixed_bk : @Const.from_str_prefixed (c.on b) = @Const.from_str_prefixed c := by funext x1; bk_auto Const.from_str_prefixed
@[bk] theorem U256.const_from_str_prefixed_bk : @U256.const_from_str_prefixed (c.on b) = @U256.const_from_str_prefixed c := by funext x1; bk_auto U256.const_from_str_prefixed
@[bk] theorem I256.const_from_str_prefixed_bk : @I256.const_from_str_prefixed (c.on b) = @I256.const_from_str_prefixed c := by funext x1; bk_auto I256.const_from_str_prefixed

/-! Model.Float -/

@[bk] theorem FloatTy.toPrim_bk : @FloatTy.toPrim (c.on b) = @FloatTy.toPrim c := by funext x1 x2; bk_auto FloatTy.toPrim
@[bk] theorem FloatTy.shr_bk : @FloatTy.shr (c.on b) = @FloatTy.shr c := by funext x1 x2 x3; bk_auto FloatTy.shr
@[bk] theorem U256.of_float_bk : @U256.of_float (c.on b) = @U256.of_float c := by
  funext t x; rw [U256.of_float_eq, U256.of_float_eq]; rfl
@[bk] theorem U256.as_f32_bk : @U256.as_f32 (c.on b) = @U256.as_f32 c := by funext x1; bk_auto U256.as_f32
@[bk] theorem U256.as_f64_bk : @U256.as_f64 (c.on b) = @U256.as_f64 c := by funext x1; bk_auto U256.as_f64
@[bk] theorem U256.into_f32_bk : @U256.into_f32 (c.on b) = @U256.into_f32 c := by funext x1; bk_auto U256.into_f32
@[bk] theorem U256.into_f64_bk : @U256.into_f64 (c.on b) = @U256.into_f64 c := by funext x1; bk_auto U256.into_f64
@[bk] theorem U256.lower_exp_bk : @U256.lower_exp (c.on b) = @U256.lower_exp c := by funext x1 x2 x3; bk_auto U256.lower_exp
@[bk] theorem U256.upper_exp_bk : @U256.upper_exp (c.on b) = @U256.upper_exp c := by funext x1 x2 x3; bk_auto U256.upper_exp
@[bk] theorem I256.of_float_bk : @I256.of_float (c.on b) = @I256.of_float c := by
  funext t x; rw [I256.of_float_eq, I256.of_float_eq]; rfl
@[bk] theorem I256.as_f64_bk : @I256.as_f64 (c.on b) = @I256.as_f64 c := by funext x1; bk_auto I256.as_f64
@[bk] theorem I256.as_f32_bk : @I256.as_f32 (c.on b) = @I256.as_f32 c := by funext x1; bk_auto I256.as_f32
@[bk] theorem I256.into_f32_bk : @I256.into_f32 (c.on b) = @I256.into_f32 c := by funext x1; bk_auto I256.into_f32
@[bk] theorem I256.into_f64_bk : @I256.into_f64 (c.on b) = @I256.into_f64 c := by funext x1; bk_auto I256.into_f64
@[bk] theorem I256.lower_exp_bk : @I256.lower_exp (c.on b) = @I256.lower_exp c := by funext x1 x2 x3; bk_auto I256.lower_exp
@[bk] theorem I256.upper_exp_bk : @I256.upper_exp (c.on b) = @I256.upper_exp c := by funext x1 x2 x3; bk_auto I256.upper_exp

/-! Model.Serde -/

@[bk] theorem Serde.FormatBuffer.write_str_bk : @Serde.FormatBuffer.write_str (c.on b) = @Serde.FormatBuffer.write_str c := by funext x1 x2; bk_auto Serde.FormatBuffer.write_str
@[bk] theorem Serde.FormatBuffer.write_all_bk :
    @Serde.FormatBuffer.write_all (c.on b) = @Serde.FormatBuffer.write_all c := by
  funext x l
  induction l generalizing x with
  | nil => rfl
  | cons a l ih => unfold Serde.FormatBuffer.write_all; simp only [bk, ih]
@[bk] theorem Serde.serialize_text_bk : @Serde.serialize_text (c.on b) = @Serde.serialize_text c := by funext x1 x2 x3; bk_auto Serde.serialize_text
@[bk] theorem Serde.permissive_f64_bk : @Serde.permissive_f64 (c.on b) = @Serde.permissive_f64 c := by funext x1 x2 x3; bk_auto Serde.permissive_f64
@[bk] theorem Serde.PermissiveVisitor_bk : @Serde.PermissiveVisitor (c.on b) = @Serde.PermissiveVisitor c := by funext x1 x2 x3; bk_auto Serde.PermissiveVisitor
@[bk] theorem Serde.usizeSub_bk : @Serde.usizeSub (c.on b) = @Serde.usizeSub c := by funext x1 x2; bk_auto Serde.usizeSub
@[bk] theorem Serde.keep_bk : @Serde.keep (c.on b) = @Serde.keep c := by funext x1 x2 x3; bk_auto Serde.keep
@[bk] theorem Serde.place_bk : @Serde.place (c.on b) = @Serde.place c := by funext x1 x2 x3; bk_auto Serde.place
@[bk] theorem Serde.serialize_compressed_bk : @Serde.serialize_compressed (c.on b) = @Serde.serialize_compressed c := by funext x1 x2 x3 x4 x5; bk_auto Serde.serialize_compressed
@[bk] theorem Serde.compressed_visit_bytes_bk : @Serde.compressed_visit_bytes (c.on b) = @Serde.compressed_visit_bytes c := by funext x1 x2 x3 x4 x5; bk_auto Serde.compressed_visit_bytes
@[bk] theorem Serde.compressed_visit_seq_bk : @Serde.compressed_visit_seq (c.on b) = @Serde.compressed_visit_seq c := by funext x1 x2 x3 x4 x5 x6; bk_auto Serde.compressed_visit_seq
@[bk] theorem Serde.CompressedBytesVisitor_bk : @Serde.CompressedBytesVisitor (c.on b) = @Serde.CompressedBytesVisitor c := by funext x1 x2 x3 x4; bk_auto Serde.CompressedBytesVisitor
@[bk] theorem Serde.Order.native_bk : @Serde.Order.native (c.on b) = @Serde.Order.native c := by bk_auto Serde.Order.native
@[bk] theorem U256.serialize_bk : @U256.serialize (c.on b) = @U256.serialize c := by funext x1 x2; bk_auto U256.serialize
@[bk] theorem U256.deserialize_bk : @U256.deserialize (c.on b) = @U256.deserialize c := by funext x1; bk_auto U256.deserialize
@[bk] theorem U256.serialize_decimal_bk : @U256.serialize_decimal (c.on b) = @U256.serialize_decimal c := by funext x1 x2; bk_auto U256.serialize_decimal
@[bk] theorem U256.deserialize_decimal_bk : @U256.deserialize_decimal (c.on b) = @U256.deserialize_decimal c := by funext x1; bk_auto U256.deserialize_decimal
@[bk] theorem U256.deserialize_prefixed_bk : @U256.deserialize_prefixed (c.on b) = @U256.deserialize_prefixed c := by funext x1; bk_auto U256.deserialize_prefixed
@[bk] theorem U256.deserialize_permissive_bk : @U256.deserialize_permissive (c.on b) = @U256.deserialize_permissive c := by funext x1; bk_auto U256.deserialize_permissive
@[bk] theorem U256.bytesOf_bk : @U256.bytesOf (c.on b) = @U256.bytesOf c := by funext x1; bk_auto U256.bytesOf
@[bk] theorem U256.compressedOf_bk : @U256.compressedOf (c.on b) = @U256.compressedOf c := by bk_auto U256.compressedOf
@[bk] theorem U256.serialize_bytes_bk : @U256.serialize_bytes (c.on b) = @U256.serialize_bytes c := by funext x1 x2; bk_auto U256.serialize_bytes
@[bk] theorem U256.deserialize_bytes_bk : @U256.deserialize_bytes (c.on b) = @U256.deserialize_bytes c := by funext x1 x2; bk_auto U256.deserialize_bytes
@[bk] theorem U256.serialize_compressed_bk : @U256.serialize_compressed (c.on b) = @U256.serialize_compressed c := by funext x1 x2; bk_auto U256.serialize_compressed
@[bk] theorem U256.deserialize_compressed_bk : @U256.deserialize_compressed (c.on b) = @U256.deserialize_compressed c := by funext x1 x2; bk_auto U256.deserialize_compressed
@[bk] theorem I256.serialize_bk : @I256.serialize (c.on b) = @I256.serialize c := by funext x1 x2; bk_auto I256.serialize
@[bk] theorem I256.deserialize_bk : @I256.deserialize (c.on b) = @I256.deserialize c := by funext x1; bk_auto I256.deserialize
@[bk] theorem I256.serialize_decimal_bk : @I256.serialize_decimal (c.on b) = @I256.serialize_decimal c := by funext x1 x2; bk_auto I256.serialize_decimal
@[bk] theorem I256.deserialize_decimal_bk : @I256.deserialize_decimal (c.on b) = @I256.deserialize_decimal c := by funext x1; bk_auto I256.deserialize_decimal
@[bk] theorem I256.deserialize_prefixed_bk : @I256.deserialize_prefixed (c.on b) = @I256.deserialize_prefixed c := by funext x1; bk_auto I256.deserialize_prefixed
@[bk] theorem I256.deserialize_permissive_bk : @I256.deserialize_permissive (c.on b) = @I256.deserialize_permissive c := by funext x1; bk_auto I256.deserialize_permissive
@[bk] theorem I256.bytesOf_bk : @I256.bytesOf (c.on b) = @I256.bytesOf c := by funext x1; bk_auto I256.bytesOf
@[bk] theorem I256.leading_bits_bk : @I256.leading_bits (c.on b) = @I256.leading_bits c := by funext x1; bk_auto I256.leading_bits
@[bk] theorem I256.compressedOf_bk : @I256.compressedOf (c.on b) = @I256.compressedOf c := by bk_auto I256.compressedOf
@[bk] theorem I256.serialize_bytes_bk : @I256.serialize_bytes (c.on b) = @I256.serialize_bytes c := by funext x1 x2; bk_auto I256.serialize_bytes
@[bk] theorem I256.deserialize_bytes_bk : @I256.deserialize_bytes (c.on b) = @I256.deserialize_bytes c := by funext x1 x2; bk_auto I256.deserialize_bytes
@[bk] theorem I256.serialize_compressed_bk : @I256.serialize_compressed (c.on b) = @I256.serialize_compressed c := by funext x1 x2; bk_auto I256.serialize_compressed
@[bk] theorem I256.deserialize_compressed_bk : @I256.deserialize_compressed (c.on b) = @I256.deserialize_compressed c := by funext x1 x2; bk_auto I256.deserialize_compressed

/-! Model.Forms -/


end Ethnum
