import Verif.Proofs.AliasRun

/-
Lemmas for C69: each form of `*`, on every path that it can take, has a log that passes the check.
-/

namespace Ethnum.Alias
set_option maxHeartbeats 4000000

theorem U256.mul_assign_passes (c : Cfg) (x0 x1 y0 y1 : U128) :
    Passes (assigning (U256.mul_assign c)) ⟨some x0, some x1⟩ ⟨some y0, some y1⟩ := by
  unfold Passes
  cases hb : c.bigEndian
  · rcases outcome (Ethnum.Native.umulddi3 c x0 y0) with ⟨e, h1⟩ | ⟨q, h1⟩ <;>
      cases hd : c.debugAssertions <;> cases hl : c.llvm <;> runT [hb, hd, hl, U256.mul_assign, U256.mul, U256.wrapping_mul, U256.overflowing_mul, Intr.mul3, Intr.umulc, Intr.mul2, Native.mul3, Native.umulc, Native.mul2, h1]
  · rcases outcome (Ethnum.Native.umulddi3 c x1 y1) with ⟨e, h1⟩ | ⟨q, h1⟩ <;>
      cases hd : c.debugAssertions <;> cases hl : c.llvm <;> runT [hb, hd, hl, U256.mul_assign, U256.mul, U256.wrapping_mul, U256.overflowing_mul, Intr.mul3, Intr.umulc, Intr.mul2, Native.mul3, Native.umulc, Native.mul2, h1]
theorem U256.mul_passes (c : Cfg) (x0 x1 y0 y1 : U128) :
    Passes (calling (U256.mul c)) ⟨some x0, some x1⟩ ⟨some y0, some y1⟩ := by
  unfold Passes
  cases hb : c.bigEndian
  · rcases outcome (Ethnum.Native.umulddi3 c x0 y0) with ⟨e, h1⟩ | ⟨q, h1⟩ <;>
      cases hd : c.debugAssertions <;> cases hl : c.llvm <;> runT [hb, hd, hl, U256.mul_assign, U256.mul, U256.wrapping_mul, U256.overflowing_mul, Intr.mul3, Intr.umulc, Intr.mul2, Native.mul3, Native.umulc, Native.mul2, h1]
  · rcases outcome (Ethnum.Native.umulddi3 c x1 y1) with ⟨e, h1⟩ | ⟨q, h1⟩ <;>
      cases hd : c.debugAssertions <;> cases hl : c.llvm <;> runT [hb, hd, hl, U256.mul_assign, U256.mul, U256.wrapping_mul, U256.overflowing_mul, Intr.mul3, Intr.umulc, Intr.mul2, Native.mul3, Native.umulc, Native.mul2, h1]
theorem U256.wrapping_mul_passes (c : Cfg) (x0 x1 y0 y1 : U128) :
    Passes (calling (U256.wrapping_mul c)) ⟨some x0, some x1⟩ ⟨some y0, some y1⟩ := by
  unfold Passes
  cases hb : c.bigEndian
  · rcases outcome (Ethnum.Native.umulddi3 c x0 y0) with ⟨e, h1⟩ | ⟨q, h1⟩ <;>
      cases hd : c.debugAssertions <;> cases hl : c.llvm <;> runT [hb, hd, hl, U256.mul_assign, U256.mul, U256.wrapping_mul, U256.overflowing_mul, Intr.mul3, Intr.umulc, Intr.mul2, Native.mul3, Native.umulc, Native.mul2, h1]
  · rcases outcome (Ethnum.Native.umulddi3 c x1 y1) with ⟨e, h1⟩ | ⟨q, h1⟩ <;>
      cases hd : c.debugAssertions <;> cases hl : c.llvm <;> runT [hb, hd, hl, U256.mul_assign, U256.mul, U256.wrapping_mul, U256.overflowing_mul, Intr.mul3, Intr.umulc, Intr.mul2, Native.mul3, Native.umulc, Native.mul2, h1]
theorem U256.overflowing_mul_passes (c : Cfg) (x0 x1 y0 y1 : U128) :
    Passes (calling (U256.overflowing_mul c)) ⟨some x0, some x1⟩ ⟨some y0, some y1⟩ := by
  unfold Passes
  cases hb : c.bigEndian
  · rcases outcome (Ethnum.Native.umulddi3 c x0 y0) with ⟨e, h1⟩ | ⟨q, h1⟩ <;>
      cases hd : c.debugAssertions <;> cases hl : c.llvm <;> runT [hb, hd, hl, U256.mul_assign, U256.mul, U256.wrapping_mul, U256.overflowing_mul, Intr.mul3, Intr.umulc, Intr.mul2, Native.mul3, Native.umulc, Native.mul2, h1]
  · rcases outcome (Ethnum.Native.umulddi3 c x1 y1) with ⟨e, h1⟩ | ⟨q, h1⟩ <;>
      cases hd : c.debugAssertions <;> cases hl : c.llvm <;> runT [hb, hd, hl, U256.mul_assign, U256.mul, U256.wrapping_mul, U256.overflowing_mul, Intr.mul3, Intr.umulc, Intr.mul2, Native.mul3, Native.umulc, Native.mul2, h1]
theorem I256.mul_assign_passes (c : Cfg) (x0 x1 y0 y1 : U128) :
    Passes (assigning (I256.mul_assign c)) ⟨some x0, some x1⟩ ⟨some y0, some y1⟩ := by
  unfold Passes
  cases hb : c.bigEndian
  · rcases outcome (Ethnum.Native.umulddi3 c x0 y0) with ⟨e, h1⟩ | ⟨q, h1⟩ <;> cases hl : c.llvm <;>
      cases hd : c.debugAssertions
    all_goals first
      | runT [hb, hd, hl, I256.mul_assign, I256.mul, I256.wrapping_mul, I256.overflowing_mul, Intr.mul3, Native.imulc, Intr.mul2, Native.mul3, Native.mul2, h1]
      | (rcases outcome (MemNative.imulcFlag c ⟨x0, x1⟩ ⟨y0, y1⟩) with ⟨e, h2⟩ | ⟨q, h2⟩ <;> runT [hb, hd, hl, I256.mul_assign, I256.mul, I256.wrapping_mul, I256.overflowing_mul, Intr.mul3, Native.imulc, Intr.mul2, Native.mul3, Native.mul2, h1, h2])
  · rcases outcome (Ethnum.Native.umulddi3 c x1 y1) with ⟨e, h1⟩ | ⟨q, h1⟩ <;> cases hl : c.llvm <;>
      cases hd : c.debugAssertions
    all_goals first
      | runT [hb, hd, hl, I256.mul_assign, I256.mul, I256.wrapping_mul, I256.overflowing_mul, Intr.mul3, Native.imulc, Intr.mul2, Native.mul3, Native.mul2, h1]
      | (rcases outcome (MemNative.imulcFlag c ⟨x0, x1⟩ ⟨y0, y1⟩) with ⟨e, h2⟩ | ⟨q, h2⟩ <;> runT [hb, hd, hl, I256.mul_assign, I256.mul, I256.wrapping_mul, I256.overflowing_mul, Intr.mul3, Native.imulc, Intr.mul2, Native.mul3, Native.mul2, h1, h2])
theorem I256.mul_passes (c : Cfg) (x0 x1 y0 y1 : U128) :
    Passes (calling (I256.mul c)) ⟨some x0, some x1⟩ ⟨some y0, some y1⟩ := by
  unfold Passes
  cases hb : c.bigEndian
  · rcases outcome (Ethnum.Native.umulddi3 c x0 y0) with ⟨e, h1⟩ | ⟨q, h1⟩ <;> cases hl : c.llvm <;>
      cases hd : c.debugAssertions
    all_goals first
      | runT [hb, hd, hl, I256.mul_assign, I256.mul, I256.wrapping_mul, I256.overflowing_mul, Intr.mul3, Native.imulc, Intr.mul2, Native.mul3, Native.mul2, h1]
      | (rcases outcome (MemNative.imulcFlag c ⟨x0, x1⟩ ⟨y0, y1⟩) with ⟨e, h2⟩ | ⟨q, h2⟩ <;> runT [hb, hd, hl, I256.mul_assign, I256.mul, I256.wrapping_mul, I256.overflowing_mul, Intr.mul3, Native.imulc, Intr.mul2, Native.mul3, Native.mul2, h1, h2])
  · rcases outcome (Ethnum.Native.umulddi3 c x1 y1) with ⟨e, h1⟩ | ⟨q, h1⟩ <;> cases hl : c.llvm <;>
      cases hd : c.debugAssertions
    all_goals first
      | runT [hb, hd, hl, I256.mul_assign, I256.mul, I256.wrapping_mul, I256.overflowing_mul, Intr.mul3, Native.imulc, Intr.mul2, Native.mul3, Native.mul2, h1]
      | (rcases outcome (MemNative.imulcFlag c ⟨x0, x1⟩ ⟨y0, y1⟩) with ⟨e, h2⟩ | ⟨q, h2⟩ <;> runT [hb, hd, hl, I256.mul_assign, I256.mul, I256.wrapping_mul, I256.overflowing_mul, Intr.mul3, Native.imulc, Intr.mul2, Native.mul3, Native.mul2, h1, h2])
theorem I256.wrapping_mul_passes (c : Cfg) (x0 x1 y0 y1 : U128) :
    Passes (calling (I256.wrapping_mul c)) ⟨some x0, some x1⟩ ⟨some y0, some y1⟩ := by
  unfold Passes
  cases hb : c.bigEndian
  · rcases outcome (Ethnum.Native.umulddi3 c x0 y0) with ⟨e, h1⟩ | ⟨q, h1⟩ <;> cases hl : c.llvm <;>
      cases hd : c.debugAssertions
    all_goals first
      | runT [hb, hd, hl, I256.mul_assign, I256.mul, I256.wrapping_mul, I256.overflowing_mul, Intr.mul3, Native.imulc, Intr.mul2, Native.mul3, Native.mul2, h1]
      | (rcases outcome (MemNative.imulcFlag c ⟨x0, x1⟩ ⟨y0, y1⟩) with ⟨e, h2⟩ | ⟨q, h2⟩ <;> runT [hb, hd, hl, I256.mul_assign, I256.mul, I256.wrapping_mul, I256.overflowing_mul, Intr.mul3, Native.imulc, Intr.mul2, Native.mul3, Native.mul2, h1, h2])
  · rcases outcome (Ethnum.Native.umulddi3 c x1 y1) with ⟨e, h1⟩ | ⟨q, h1⟩ <;> cases hl : c.llvm <;>
      cases hd : c.debugAssertions
    all_goals first
      | runT [hb, hd, hl, I256.mul_assign, I256.mul, I256.wrapping_mul, I256.overflowing_mul, Intr.mul3, Native.imulc, Intr.mul2, Native.mul3, Native.mul2, h1]
      | (rcases outcome (MemNative.imulcFlag c ⟨x0, x1⟩ ⟨y0, y1⟩) with ⟨e, h2⟩ | ⟨q, h2⟩ <;> runT [hb, hd, hl, I256.mul_assign, I256.mul, I256.wrapping_mul, I256.overflowing_mul, Intr.mul3, Native.imulc, Intr.mul2, Native.mul3, Native.mul2, h1, h2])
theorem I256.overflowing_mul_passes (c : Cfg) (x0 x1 y0 y1 : U128) :
    Passes (calling (I256.overflowing_mul c)) ⟨some x0, some x1⟩ ⟨some y0, some y1⟩ := by
  unfold Passes
  cases hb : c.bigEndian
  · rcases outcome (Ethnum.Native.umulddi3 c x0 y0) with ⟨e, h1⟩ | ⟨q, h1⟩ <;> cases hl : c.llvm <;>
      cases hd : c.debugAssertions
    all_goals first
      | runT [hb, hd, hl, I256.mul_assign, I256.mul, I256.wrapping_mul, I256.overflowing_mul, Intr.mul3, Native.imulc, Intr.mul2, Native.mul3, Native.mul2, h1]
      | (rcases outcome (MemNative.imulcFlag c ⟨x0, x1⟩ ⟨y0, y1⟩) with ⟨e, h2⟩ | ⟨q, h2⟩ <;> runT [hb, hd, hl, I256.mul_assign, I256.mul, I256.wrapping_mul, I256.overflowing_mul, Intr.mul3, Native.imulc, Intr.mul2, Native.mul3, Native.mul2, h1, h2])
  · rcases outcome (Ethnum.Native.umulddi3 c x1 y1) with ⟨e, h1⟩ | ⟨q, h1⟩ <;> cases hl : c.llvm <;>
      cases hd : c.debugAssertions
    all_goals first
      | runT [hb, hd, hl, I256.mul_assign, I256.mul, I256.wrapping_mul, I256.overflowing_mul, Intr.mul3, Native.imulc, Intr.mul2, Native.mul3, Native.mul2, h1]
      | (rcases outcome (MemNative.imulcFlag c ⟨x0, x1⟩ ⟨y0, y1⟩) with ⟨e, h2⟩ | ⟨q, h2⟩ <;> runT [hb, hd, hl, I256.mul_assign, I256.mul, I256.wrapping_mul, I256.overflowing_mul, Intr.mul3, Native.imulc, Intr.mul2, Native.mul3, Native.mul2, h1, h2])

end Ethnum.Alias
