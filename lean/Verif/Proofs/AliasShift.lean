import Verif.Proofs.AliasRun

/-
Lemmas for C69: each form of `<<` and `>>`, on every path that it can take, has a log that passes the check.
-/

namespace Ethnum.Alias
set_option maxHeartbeats 4000000

theorem U256.shl_assign_passes (c : Cfg) (n : U32) (x0 x1 y0 y1 : U128) :
    Passes (assigningShift (U256.shl_assign c) n) ⟨some x0, some x1⟩ ⟨some y0, some y1⟩ := by
  unfold Passes
  cases hd : c.debugAssertions <;> cases hg : decide (n > 0xff) <;> cases hl : c.llvm
  all_goals first
    | runT [hd, hg, hl, U256.shl_assign, U256.shl, Intr.shl2, Intr.shl3, Native.shl2, Native.shl3, Bool.true_and, Bool.false_and]
    | skip
  all_goals rcases outcome (debugAssert c (decide (n < 256))) with ⟨e, h0⟩ | ⟨u, h0⟩
  all_goals first
    | runT [hd, hg, hl, h0, U256.shl_assign, U256.shl, Intr.shl2, Intr.shl3, Native.shl2, Native.shl3, Bool.true_and, Bool.false_and]
    | skip
  all_goals cases hb : c.bigEndian <;> by_cases h1 : n = 0
  all_goals first
    | (subst h1; runT [hd, hg, hl, h0, hb, U256.shl_assign, U256.shl, Intr.shl2, Intr.shl3, Native.shl2, Native.shl3, Bool.true_and, Bool.false_and])
    | skip
  all_goals by_cases h2 : n < 128
  all_goals first
    | (rcases outcome (do let hi := (← shlC c x1 n) ||| (← shrC c x0 (← subC c 128 n)); let lo ← shlC c x0 n; return Ethnum.U256.from_words c hi lo : Res Ethnum.U256) with ⟨e, h3⟩ | ⟨v, h3⟩ <;>
        runT [hd, hg, hl, h0, hb, h1, h2, h3, U256.shl_assign, U256.shl, Intr.shl2, Intr.shl3, Native.shl2, Native.shl3, Bool.true_and, Bool.false_and])
    | (rcases outcome (do let hi ← shlC c x0 (n &&& 0x7f); return Ethnum.U256.from_words c hi 0 : Res Ethnum.U256) with ⟨e, h3⟩ | ⟨v, h3⟩ <;>
        runT [hd, hg, hl, h0, hb, h1, h2, h3, U256.shl_assign, U256.shl, Intr.shl2, Intr.shl3, Native.shl2, Native.shl3, Bool.true_and, Bool.false_and])
    | (rcases outcome (do let hi := (← shlC c x0 n) ||| (← shrC c x1 (← subC c 128 n)); let lo ← shlC c x1 n; return Ethnum.U256.from_words c hi lo : Res Ethnum.U256) with ⟨e, h3⟩ | ⟨v, h3⟩ <;>
        runT [hd, hg, hl, h0, hb, h1, h2, h3, U256.shl_assign, U256.shl, Intr.shl2, Intr.shl3, Native.shl2, Native.shl3, Bool.true_and, Bool.false_and])
    | (rcases outcome (do let hi ← shlC c x1 (n &&& 0x7f); return Ethnum.U256.from_words c hi 0 : Res Ethnum.U256) with ⟨e, h3⟩ | ⟨v, h3⟩ <;>
        runT [hd, hg, hl, h0, hb, h1, h2, h3, U256.shl_assign, U256.shl, Intr.shl2, Intr.shl3, Native.shl2, Native.shl3, Bool.true_and, Bool.false_and])
theorem U256.shl_passes (c : Cfg) (n : U32) (x0 x1 y0 y1 : U128) :
    Passes (callingShift (U256.shl c) n) ⟨some x0, some x1⟩ ⟨some y0, some y1⟩ := by
  unfold Passes
  cases hd : c.debugAssertions <;> cases hg : decide (n > 0xff) <;> cases hl : c.llvm
  all_goals first
    | runT [hd, hg, hl, U256.shl_assign, U256.shl, Intr.shl2, Intr.shl3, Native.shl2, Native.shl3, Bool.true_and, Bool.false_and]
    | skip
  all_goals rcases outcome (debugAssert c (decide (n < 256))) with ⟨e, h0⟩ | ⟨u, h0⟩
  all_goals first
    | runT [hd, hg, hl, h0, U256.shl_assign, U256.shl, Intr.shl2, Intr.shl3, Native.shl2, Native.shl3, Bool.true_and, Bool.false_and]
    | skip
  all_goals cases hb : c.bigEndian <;> by_cases h1 : n = 0
  all_goals first
    | (subst h1; runT [hd, hg, hl, h0, hb, U256.shl_assign, U256.shl, Intr.shl2, Intr.shl3, Native.shl2, Native.shl3, Bool.true_and, Bool.false_and])
    | skip
  all_goals by_cases h2 : n < 128
  all_goals first
    | (rcases outcome (do let hi := (← shlC c x1 n) ||| (← shrC c x0 (← subC c 128 n)); let lo ← shlC c x0 n; return Ethnum.U256.from_words c hi lo : Res Ethnum.U256) with ⟨e, h3⟩ | ⟨v, h3⟩ <;>
        runT [hd, hg, hl, h0, hb, h1, h2, h3, U256.shl_assign, U256.shl, Intr.shl2, Intr.shl3, Native.shl2, Native.shl3, Bool.true_and, Bool.false_and])
    | (rcases outcome (do let hi ← shlC c x0 (n &&& 0x7f); return Ethnum.U256.from_words c hi 0 : Res Ethnum.U256) with ⟨e, h3⟩ | ⟨v, h3⟩ <;>
        runT [hd, hg, hl, h0, hb, h1, h2, h3, U256.shl_assign, U256.shl, Intr.shl2, Intr.shl3, Native.shl2, Native.shl3, Bool.true_and, Bool.false_and])
    | (rcases outcome (do let hi := (← shlC c x0 n) ||| (← shrC c x1 (← subC c 128 n)); let lo ← shlC c x1 n; return Ethnum.U256.from_words c hi lo : Res Ethnum.U256) with ⟨e, h3⟩ | ⟨v, h3⟩ <;>
        runT [hd, hg, hl, h0, hb, h1, h2, h3, U256.shl_assign, U256.shl, Intr.shl2, Intr.shl3, Native.shl2, Native.shl3, Bool.true_and, Bool.false_and])
    | (rcases outcome (do let hi ← shlC c x1 (n &&& 0x7f); return Ethnum.U256.from_words c hi 0 : Res Ethnum.U256) with ⟨e, h3⟩ | ⟨v, h3⟩ <;>
        runT [hd, hg, hl, h0, hb, h1, h2, h3, U256.shl_assign, U256.shl, Intr.shl2, Intr.shl3, Native.shl2, Native.shl3, Bool.true_and, Bool.false_and])
theorem U256.shlOut_passes (c : Cfg) (n : U32) (x0 x1 y0 y1 : U128) :
    Passes (callingShift (outShift rd (Intr.shl3 c)) n) ⟨some x0, some x1⟩ ⟨some y0, some y1⟩ := by
  unfold Passes
  cases hd : c.debugAssertions <;> cases hg : decide (n > 0xff) <;> cases hl : c.llvm
  all_goals first
    | runT [hd, hg, hl, U256.shl_assign, U256.shl, Intr.shl2, Intr.shl3, Native.shl2, Native.shl3, Bool.true_and, Bool.false_and]
    | skip
  all_goals rcases outcome (debugAssert c (decide (n < 256))) with ⟨e, h0⟩ | ⟨u, h0⟩
  all_goals first
    | runT [hd, hg, hl, h0, U256.shl_assign, U256.shl, Intr.shl2, Intr.shl3, Native.shl2, Native.shl3, Bool.true_and, Bool.false_and]
    | skip
  all_goals cases hb : c.bigEndian <;> by_cases h1 : n = 0
  all_goals first
    | (subst h1; runT [hd, hg, hl, h0, hb, U256.shl_assign, U256.shl, Intr.shl2, Intr.shl3, Native.shl2, Native.shl3, Bool.true_and, Bool.false_and])
    | skip
  all_goals by_cases h2 : n < 128
  all_goals first
    | (rcases outcome (do let hi := (← shlC c x1 n) ||| (← shrC c x0 (← subC c 128 n)); let lo ← shlC c x0 n; return Ethnum.U256.from_words c hi lo : Res Ethnum.U256) with ⟨e, h3⟩ | ⟨v, h3⟩ <;>
        runT [hd, hg, hl, h0, hb, h1, h2, h3, U256.shl_assign, U256.shl, Intr.shl2, Intr.shl3, Native.shl2, Native.shl3, Bool.true_and, Bool.false_and])
    | (rcases outcome (do let hi ← shlC c x0 (n &&& 0x7f); return Ethnum.U256.from_words c hi 0 : Res Ethnum.U256) with ⟨e, h3⟩ | ⟨v, h3⟩ <;>
        runT [hd, hg, hl, h0, hb, h1, h2, h3, U256.shl_assign, U256.shl, Intr.shl2, Intr.shl3, Native.shl2, Native.shl3, Bool.true_and, Bool.false_and])
    | (rcases outcome (do let hi := (← shlC c x0 n) ||| (← shrC c x1 (← subC c 128 n)); let lo ← shlC c x1 n; return Ethnum.U256.from_words c hi lo : Res Ethnum.U256) with ⟨e, h3⟩ | ⟨v, h3⟩ <;>
        runT [hd, hg, hl, h0, hb, h1, h2, h3, U256.shl_assign, U256.shl, Intr.shl2, Intr.shl3, Native.shl2, Native.shl3, Bool.true_and, Bool.false_and])
    | (rcases outcome (do let hi ← shlC c x1 (n &&& 0x7f); return Ethnum.U256.from_words c hi 0 : Res Ethnum.U256) with ⟨e, h3⟩ | ⟨v, h3⟩ <;>
        runT [hd, hg, hl, h0, hb, h1, h2, h3, U256.shl_assign, U256.shl, Intr.shl2, Intr.shl3, Native.shl2, Native.shl3, Bool.true_and, Bool.false_and])
theorem U256.shr_assign_passes (c : Cfg) (n : U32) (x0 x1 y0 y1 : U128) :
    Passes (assigningShift (U256.shr_assign c) n) ⟨some x0, some x1⟩ ⟨some y0, some y1⟩ := by
  unfold Passes
  cases hd : c.debugAssertions <;> cases hg : decide (n > 0xff) <;> cases hl : c.llvm
  all_goals first
    | runT [hd, hg, hl, U256.shr_assign, U256.shr, Intr.shr2, Intr.shr3, Native.shr2, Native.shr3, Bool.true_and, Bool.false_and]
    | skip
  all_goals rcases outcome (debugAssert c (decide (n < 256))) with ⟨e, h0⟩ | ⟨u, h0⟩
  all_goals first
    | runT [hd, hg, hl, h0, U256.shr_assign, U256.shr, Intr.shr2, Intr.shr3, Native.shr2, Native.shr3, Bool.true_and, Bool.false_and]
    | skip
  all_goals cases hb : c.bigEndian <;> by_cases h1 : n = 0
  all_goals first
    | (subst h1; runT [hd, hg, hl, h0, hb, U256.shr_assign, U256.shr, Intr.shr2, Intr.shr3, Native.shr2, Native.shr3, Bool.true_and, Bool.false_and])
    | skip
  all_goals by_cases h2 : n < 128
  all_goals first
    | (rcases outcome (do let hi ← shrC c x1 n; let lo := (← shrC c x0 n) ||| (← shlC c x1 (← subC c 128 n)); return Ethnum.U256.from_words c hi lo : Res Ethnum.U256) with ⟨e, h3⟩ | ⟨v, h3⟩ <;>
        runT [hd, hg, hl, h0, hb, h1, h2, h3, U256.shr_assign, U256.shr, Intr.shr2, Intr.shr3, Native.shr2, Native.shr3, Bool.true_and, Bool.false_and])
    | (rcases outcome (do let lo ← shrC c x1 (n &&& 0x7f); return Ethnum.U256.from_words c 0 lo : Res Ethnum.U256) with ⟨e, h3⟩ | ⟨v, h3⟩ <;>
        runT [hd, hg, hl, h0, hb, h1, h2, h3, U256.shr_assign, U256.shr, Intr.shr2, Intr.shr3, Native.shr2, Native.shr3, Bool.true_and, Bool.false_and])
    | (rcases outcome (do let hi ← shrC c x0 n; let lo := (← shrC c x1 n) ||| (← shlC c x0 (← subC c 128 n)); return Ethnum.U256.from_words c hi lo : Res Ethnum.U256) with ⟨e, h3⟩ | ⟨v, h3⟩ <;>
        runT [hd, hg, hl, h0, hb, h1, h2, h3, U256.shr_assign, U256.shr, Intr.shr2, Intr.shr3, Native.shr2, Native.shr3, Bool.true_and, Bool.false_and])
    | (rcases outcome (do let lo ← shrC c x0 (n &&& 0x7f); return Ethnum.U256.from_words c 0 lo : Res Ethnum.U256) with ⟨e, h3⟩ | ⟨v, h3⟩ <;>
        runT [hd, hg, hl, h0, hb, h1, h2, h3, U256.shr_assign, U256.shr, Intr.shr2, Intr.shr3, Native.shr2, Native.shr3, Bool.true_and, Bool.false_and])
theorem U256.shr_passes (c : Cfg) (n : U32) (x0 x1 y0 y1 : U128) :
    Passes (callingShift (U256.shr c) n) ⟨some x0, some x1⟩ ⟨some y0, some y1⟩ := by
  unfold Passes
  cases hd : c.debugAssertions <;> cases hg : decide (n > 0xff) <;> cases hl : c.llvm
  all_goals first
    | runT [hd, hg, hl, U256.shr_assign, U256.shr, Intr.shr2, Intr.shr3, Native.shr2, Native.shr3, Bool.true_and, Bool.false_and]
    | skip
  all_goals rcases outcome (debugAssert c (decide (n < 256))) with ⟨e, h0⟩ | ⟨u, h0⟩
  all_goals first
    | runT [hd, hg, hl, h0, U256.shr_assign, U256.shr, Intr.shr2, Intr.shr3, Native.shr2, Native.shr3, Bool.true_and, Bool.false_and]
    | skip
  all_goals cases hb : c.bigEndian <;> by_cases h1 : n = 0
  all_goals first
    | (subst h1; runT [hd, hg, hl, h0, hb, U256.shr_assign, U256.shr, Intr.shr2, Intr.shr3, Native.shr2, Native.shr3, Bool.true_and, Bool.false_and])
    | skip
  all_goals by_cases h2 : n < 128
  all_goals first
    | (rcases outcome (do let hi ← shrC c x1 n; let lo := (← shrC c x0 n) ||| (← shlC c x1 (← subC c 128 n)); return Ethnum.U256.from_words c hi lo : Res Ethnum.U256) with ⟨e, h3⟩ | ⟨v, h3⟩ <;>
        runT [hd, hg, hl, h0, hb, h1, h2, h3, U256.shr_assign, U256.shr, Intr.shr2, Intr.shr3, Native.shr2, Native.shr3, Bool.true_and, Bool.false_and])
    | (rcases outcome (do let lo ← shrC c x1 (n &&& 0x7f); return Ethnum.U256.from_words c 0 lo : Res Ethnum.U256) with ⟨e, h3⟩ | ⟨v, h3⟩ <;>
        runT [hd, hg, hl, h0, hb, h1, h2, h3, U256.shr_assign, U256.shr, Intr.shr2, Intr.shr3, Native.shr2, Native.shr3, Bool.true_and, Bool.false_and])
    | (rcases outcome (do let hi ← shrC c x0 n; let lo := (← shrC c x1 n) ||| (← shlC c x0 (← subC c 128 n)); return Ethnum.U256.from_words c hi lo : Res Ethnum.U256) with ⟨e, h3⟩ | ⟨v, h3⟩ <;>
        runT [hd, hg, hl, h0, hb, h1, h2, h3, U256.shr_assign, U256.shr, Intr.shr2, Intr.shr3, Native.shr2, Native.shr3, Bool.true_and, Bool.false_and])
    | (rcases outcome (do let lo ← shrC c x0 (n &&& 0x7f); return Ethnum.U256.from_words c 0 lo : Res Ethnum.U256) with ⟨e, h3⟩ | ⟨v, h3⟩ <;>
        runT [hd, hg, hl, h0, hb, h1, h2, h3, U256.shr_assign, U256.shr, Intr.shr2, Intr.shr3, Native.shr2, Native.shr3, Bool.true_and, Bool.false_and])
theorem U256.shrOut_passes (c : Cfg) (n : U32) (x0 x1 y0 y1 : U128) :
    Passes (callingShift (outShift rd (Intr.shr3 c)) n) ⟨some x0, some x1⟩ ⟨some y0, some y1⟩ := by
  unfold Passes
  cases hd : c.debugAssertions <;> cases hg : decide (n > 0xff) <;> cases hl : c.llvm
  all_goals first
    | runT [hd, hg, hl, U256.shr_assign, U256.shr, Intr.shr2, Intr.shr3, Native.shr2, Native.shr3, Bool.true_and, Bool.false_and]
    | skip
  all_goals rcases outcome (debugAssert c (decide (n < 256))) with ⟨e, h0⟩ | ⟨u, h0⟩
  all_goals first
    | runT [hd, hg, hl, h0, U256.shr_assign, U256.shr, Intr.shr2, Intr.shr3, Native.shr2, Native.shr3, Bool.true_and, Bool.false_and]
    | skip
  all_goals cases hb : c.bigEndian <;> by_cases h1 : n = 0
  all_goals first
    | (subst h1; runT [hd, hg, hl, h0, hb, U256.shr_assign, U256.shr, Intr.shr2, Intr.shr3, Native.shr2, Native.shr3, Bool.true_and, Bool.false_and])
    | skip
  all_goals by_cases h2 : n < 128
  all_goals first
    | (rcases outcome (do let hi ← shrC c x1 n; let lo := (← shrC c x0 n) ||| (← shlC c x1 (← subC c 128 n)); return Ethnum.U256.from_words c hi lo : Res Ethnum.U256) with ⟨e, h3⟩ | ⟨v, h3⟩ <;>
        runT [hd, hg, hl, h0, hb, h1, h2, h3, U256.shr_assign, U256.shr, Intr.shr2, Intr.shr3, Native.shr2, Native.shr3, Bool.true_and, Bool.false_and])
    | (rcases outcome (do let lo ← shrC c x1 (n &&& 0x7f); return Ethnum.U256.from_words c 0 lo : Res Ethnum.U256) with ⟨e, h3⟩ | ⟨v, h3⟩ <;>
        runT [hd, hg, hl, h0, hb, h1, h2, h3, U256.shr_assign, U256.shr, Intr.shr2, Intr.shr3, Native.shr2, Native.shr3, Bool.true_and, Bool.false_and])
    | (rcases outcome (do let hi ← shrC c x0 n; let lo := (← shrC c x1 n) ||| (← shlC c x0 (← subC c 128 n)); return Ethnum.U256.from_words c hi lo : Res Ethnum.U256) with ⟨e, h3⟩ | ⟨v, h3⟩ <;>
        runT [hd, hg, hl, h0, hb, h1, h2, h3, U256.shr_assign, U256.shr, Intr.shr2, Intr.shr3, Native.shr2, Native.shr3, Bool.true_and, Bool.false_and])
    | (rcases outcome (do let lo ← shrC c x0 (n &&& 0x7f); return Ethnum.U256.from_words c 0 lo : Res Ethnum.U256) with ⟨e, h3⟩ | ⟨v, h3⟩ <;>
        runT [hd, hg, hl, h0, hb, h1, h2, h3, U256.shr_assign, U256.shr, Intr.shr2, Intr.shr3, Native.shr2, Native.shr3, Bool.true_and, Bool.false_and])
theorem I256.shl_assign_passes (c : Cfg) (n : U32) (x0 x1 y0 y1 : U128) :
    Passes (assigningShift (I256.shl_assign c) n) ⟨some x0, some x1⟩ ⟨some y0, some y1⟩ := by
  unfold Passes
  cases hd : c.debugAssertions <;> cases hg : decide (n > 0xff) <;> cases hl : c.llvm
  all_goals first
    | runT [hd, hg, hl, I256.shl_assign, I256.shl, Intr.shl2, Intr.shl3, Native.shl2, Native.shl3, Bool.true_and, Bool.false_and]
    | skip
  all_goals rcases outcome (debugAssert c (decide (n < 256))) with ⟨e, h0⟩ | ⟨u, h0⟩
  all_goals first
    | runT [hd, hg, hl, h0, I256.shl_assign, I256.shl, Intr.shl2, Intr.shl3, Native.shl2, Native.shl3, Bool.true_and, Bool.false_and]
    | skip
  all_goals cases hb : c.bigEndian <;> by_cases h1 : n = 0
  all_goals first
    | (subst h1; runT [hd, hg, hl, h0, hb, I256.shl_assign, I256.shl, Intr.shl2, Intr.shl3, Native.shl2, Native.shl3, Bool.true_and, Bool.false_and])
    | skip
  all_goals by_cases h2 : n < 128
  all_goals first
    | (rcases outcome (do let hi := (← shlC c x1 n) ||| (← shrC c x0 (← subC c 128 n)); let lo ← shlC c x0 n; return Ethnum.U256.from_words c hi lo : Res Ethnum.U256) with ⟨e, h3⟩ | ⟨v, h3⟩ <;>
        runT [hd, hg, hl, h0, hb, h1, h2, h3, I256.shl_assign, I256.shl, Intr.shl2, Intr.shl3, Native.shl2, Native.shl3, Bool.true_and, Bool.false_and])
    | (rcases outcome (do let hi ← shlC c x0 (n &&& 0x7f); return Ethnum.U256.from_words c hi 0 : Res Ethnum.U256) with ⟨e, h3⟩ | ⟨v, h3⟩ <;>
        runT [hd, hg, hl, h0, hb, h1, h2, h3, I256.shl_assign, I256.shl, Intr.shl2, Intr.shl3, Native.shl2, Native.shl3, Bool.true_and, Bool.false_and])
    | (rcases outcome (do let hi := (← shlC c x0 n) ||| (← shrC c x1 (← subC c 128 n)); let lo ← shlC c x1 n; return Ethnum.U256.from_words c hi lo : Res Ethnum.U256) with ⟨e, h3⟩ | ⟨v, h3⟩ <;>
        runT [hd, hg, hl, h0, hb, h1, h2, h3, I256.shl_assign, I256.shl, Intr.shl2, Intr.shl3, Native.shl2, Native.shl3, Bool.true_and, Bool.false_and])
    | (rcases outcome (do let hi ← shlC c x1 (n &&& 0x7f); return Ethnum.U256.from_words c hi 0 : Res Ethnum.U256) with ⟨e, h3⟩ | ⟨v, h3⟩ <;>
        runT [hd, hg, hl, h0, hb, h1, h2, h3, I256.shl_assign, I256.shl, Intr.shl2, Intr.shl3, Native.shl2, Native.shl3, Bool.true_and, Bool.false_and])
theorem I256.shl_passes (c : Cfg) (n : U32) (x0 x1 y0 y1 : U128) :
    Passes (callingShift (I256.shl c) n) ⟨some x0, some x1⟩ ⟨some y0, some y1⟩ := by
  unfold Passes
  cases hd : c.debugAssertions <;> cases hg : decide (n > 0xff) <;> cases hl : c.llvm
  all_goals first
    | runT [hd, hg, hl, I256.shl_assign, I256.shl, Intr.shl2, Intr.shl3, Native.shl2, Native.shl3, Bool.true_and, Bool.false_and]
    | skip
  all_goals rcases outcome (debugAssert c (decide (n < 256))) with ⟨e, h0⟩ | ⟨u, h0⟩
  all_goals first
    | runT [hd, hg, hl, h0, I256.shl_assign, I256.shl, Intr.shl2, Intr.shl3, Native.shl2, Native.shl3, Bool.true_and, Bool.false_and]
    | skip
  all_goals cases hb : c.bigEndian <;> by_cases h1 : n = 0
  all_goals first
    | (subst h1; runT [hd, hg, hl, h0, hb, I256.shl_assign, I256.shl, Intr.shl2, Intr.shl3, Native.shl2, Native.shl3, Bool.true_and, Bool.false_and])
    | skip
  all_goals by_cases h2 : n < 128
  all_goals first
    | (rcases outcome (do let hi := (← shlC c x1 n) ||| (← shrC c x0 (← subC c 128 n)); let lo ← shlC c x0 n; return Ethnum.U256.from_words c hi lo : Res Ethnum.U256) with ⟨e, h3⟩ | ⟨v, h3⟩ <;>
        runT [hd, hg, hl, h0, hb, h1, h2, h3, I256.shl_assign, I256.shl, Intr.shl2, Intr.shl3, Native.shl2, Native.shl3, Bool.true_and, Bool.false_and])
    | (rcases outcome (do let hi ← shlC c x0 (n &&& 0x7f); return Ethnum.U256.from_words c hi 0 : Res Ethnum.U256) with ⟨e, h3⟩ | ⟨v, h3⟩ <;>
        runT [hd, hg, hl, h0, hb, h1, h2, h3, I256.shl_assign, I256.shl, Intr.shl2, Intr.shl3, Native.shl2, Native.shl3, Bool.true_and, Bool.false_and])
    | (rcases outcome (do let hi := (← shlC c x0 n) ||| (← shrC c x1 (← subC c 128 n)); let lo ← shlC c x1 n; return Ethnum.U256.from_words c hi lo : Res Ethnum.U256) with ⟨e, h3⟩ | ⟨v, h3⟩ <;>
        runT [hd, hg, hl, h0, hb, h1, h2, h3, I256.shl_assign, I256.shl, Intr.shl2, Intr.shl3, Native.shl2, Native.shl3, Bool.true_and, Bool.false_and])
    | (rcases outcome (do let hi ← shlC c x1 (n &&& 0x7f); return Ethnum.U256.from_words c hi 0 : Res Ethnum.U256) with ⟨e, h3⟩ | ⟨v, h3⟩ <;>
        runT [hd, hg, hl, h0, hb, h1, h2, h3, I256.shl_assign, I256.shl, Intr.shl2, Intr.shl3, Native.shl2, Native.shl3, Bool.true_and, Bool.false_and])
theorem I256.shlOut_passes (c : Cfg) (n : U32) (x0 x1 y0 y1 : U128) :
    Passes (callingShift (outShift ird (Intr.signedShift3 (Intr.shl3 c))) n) ⟨some x0, some x1⟩ ⟨some y0, some y1⟩ := by
  unfold Passes
  cases hd : c.debugAssertions <;> cases hg : decide (n > 0xff) <;> cases hl : c.llvm
  all_goals first
    | runT [hd, hg, hl, I256.shl_assign, I256.shl, Intr.shl2, Intr.shl3, Native.shl2, Native.shl3, Bool.true_and, Bool.false_and]
    | skip
  all_goals rcases outcome (debugAssert c (decide (n < 256))) with ⟨e, h0⟩ | ⟨u, h0⟩
  all_goals first
    | runT [hd, hg, hl, h0, I256.shl_assign, I256.shl, Intr.shl2, Intr.shl3, Native.shl2, Native.shl3, Bool.true_and, Bool.false_and]
    | skip
  all_goals cases hb : c.bigEndian <;> by_cases h1 : n = 0
  all_goals first
    | (subst h1; runT [hd, hg, hl, h0, hb, I256.shl_assign, I256.shl, Intr.shl2, Intr.shl3, Native.shl2, Native.shl3, Bool.true_and, Bool.false_and])
    | skip
  all_goals by_cases h2 : n < 128
  all_goals first
    | (rcases outcome (do let hi := (← shlC c x1 n) ||| (← shrC c x0 (← subC c 128 n)); let lo ← shlC c x0 n; return Ethnum.U256.from_words c hi lo : Res Ethnum.U256) with ⟨e, h3⟩ | ⟨v, h3⟩ <;>
        runT [hd, hg, hl, h0, hb, h1, h2, h3, I256.shl_assign, I256.shl, Intr.shl2, Intr.shl3, Native.shl2, Native.shl3, Bool.true_and, Bool.false_and])
    | (rcases outcome (do let hi ← shlC c x0 (n &&& 0x7f); return Ethnum.U256.from_words c hi 0 : Res Ethnum.U256) with ⟨e, h3⟩ | ⟨v, h3⟩ <;>
        runT [hd, hg, hl, h0, hb, h1, h2, h3, I256.shl_assign, I256.shl, Intr.shl2, Intr.shl3, Native.shl2, Native.shl3, Bool.true_and, Bool.false_and])
    | (rcases outcome (do let hi := (← shlC c x0 n) ||| (← shrC c x1 (← subC c 128 n)); let lo ← shlC c x1 n; return Ethnum.U256.from_words c hi lo : Res Ethnum.U256) with ⟨e, h3⟩ | ⟨v, h3⟩ <;>
        runT [hd, hg, hl, h0, hb, h1, h2, h3, I256.shl_assign, I256.shl, Intr.shl2, Intr.shl3, Native.shl2, Native.shl3, Bool.true_and, Bool.false_and])
    | (rcases outcome (do let hi ← shlC c x1 (n &&& 0x7f); return Ethnum.U256.from_words c hi 0 : Res Ethnum.U256) with ⟨e, h3⟩ | ⟨v, h3⟩ <;>
        runT [hd, hg, hl, h0, hb, h1, h2, h3, I256.shl_assign, I256.shl, Intr.shl2, Intr.shl3, Native.shl2, Native.shl3, Bool.true_and, Bool.false_and])
theorem I256.shr_assign_passes (c : Cfg) (n : U32) (x0 x1 y0 y1 : U128) :
    Passes (assigningShift (I256.shr_assign c) n) ⟨some x0, some x1⟩ ⟨some y0, some y1⟩ := by
  unfold Passes
  cases hd : c.debugAssertions <;> cases hg : decide (n > 0xff) <;> cases hl : c.llvm
  all_goals first
    | runT [hd, hg, hl, I256.shr_assign, I256.shr, Intr.sar2, Intr.sar3, Native.sar2, Native.sar3, Bool.true_and, Bool.false_and]
    | skip
  all_goals rcases outcome (debugAssert c (decide (n < 256))) with ⟨e, h0⟩ | ⟨u, h0⟩
  all_goals first
    | runT [hd, hg, hl, h0, I256.shr_assign, I256.shr, Intr.sar2, Intr.sar3, Native.sar2, Native.sar3, Bool.true_and, Bool.false_and]
    | skip
  all_goals cases hb : c.bigEndian <;> by_cases h1 : n = 0
  all_goals first
    | (subst h1; runT [hd, hg, hl, h0, hb, I256.shr_assign, I256.shr, Intr.sar2, Intr.sar3, Native.sar2, Native.sar3, Bool.true_and, Bool.false_and])
    | skip
  all_goals by_cases h2 : n < 128
  all_goals first
    | (rcases outcome (do let hi ← sarC c x1 n; let lo := (← shrC c x0 n) ||| (← shlC c x1 (← subC c 128 n)); return Ethnum.I256.from_words c hi lo : Res Ethnum.I256) with ⟨e, h3⟩ | ⟨v, h3⟩ <;>
        runT [hd, hg, hl, h0, hb, h1, h2, h3, I256.shr_assign, I256.shr, Intr.sar2, Intr.sar3, Native.sar2, Native.sar3, Bool.true_and, Bool.false_and])
    | (rcases outcome (do let hi ← sarC c x1 127; let lo ← sarC c x1 (n &&& 0x7f); return Ethnum.I256.from_words c hi lo : Res Ethnum.I256) with ⟨e, h3⟩ | ⟨v, h3⟩ <;>
        runT [hd, hg, hl, h0, hb, h1, h2, h3, I256.shr_assign, I256.shr, Intr.sar2, Intr.sar3, Native.sar2, Native.sar3, Bool.true_and, Bool.false_and])
    | (rcases outcome (do let hi ← sarC c x0 n; let lo := (← shrC c x1 n) ||| (← shlC c x0 (← subC c 128 n)); return Ethnum.I256.from_words c hi lo : Res Ethnum.I256) with ⟨e, h3⟩ | ⟨v, h3⟩ <;>
        runT [hd, hg, hl, h0, hb, h1, h2, h3, I256.shr_assign, I256.shr, Intr.sar2, Intr.sar3, Native.sar2, Native.sar3, Bool.true_and, Bool.false_and])
    | (rcases outcome (do let hi ← sarC c x0 127; let lo ← sarC c x0 (n &&& 0x7f); return Ethnum.I256.from_words c hi lo : Res Ethnum.I256) with ⟨e, h3⟩ | ⟨v, h3⟩ <;>
        runT [hd, hg, hl, h0, hb, h1, h2, h3, I256.shr_assign, I256.shr, Intr.sar2, Intr.sar3, Native.sar2, Native.sar3, Bool.true_and, Bool.false_and])
theorem I256.shr_passes (c : Cfg) (n : U32) (x0 x1 y0 y1 : U128) :
    Passes (callingShift (I256.shr c) n) ⟨some x0, some x1⟩ ⟨some y0, some y1⟩ := by
  unfold Passes
  cases hd : c.debugAssertions <;> cases hg : decide (n > 0xff) <;> cases hl : c.llvm
  all_goals first
    | runT [hd, hg, hl, I256.shr_assign, I256.shr, Intr.sar2, Intr.sar3, Native.sar2, Native.sar3, Bool.true_and, Bool.false_and]
    | skip
  all_goals rcases outcome (debugAssert c (decide (n < 256))) with ⟨e, h0⟩ | ⟨u, h0⟩
  all_goals first
    | runT [hd, hg, hl, h0, I256.shr_assign, I256.shr, Intr.sar2, Intr.sar3, Native.sar2, Native.sar3, Bool.true_and, Bool.false_and]
    | skip
  all_goals cases hb : c.bigEndian <;> by_cases h1 : n = 0
  all_goals first
    | (subst h1; runT [hd, hg, hl, h0, hb, I256.shr_assign, I256.shr, Intr.sar2, Intr.sar3, Native.sar2, Native.sar3, Bool.true_and, Bool.false_and])
    | skip
  all_goals by_cases h2 : n < 128
  all_goals first
    | (rcases outcome (do let hi ← sarC c x1 n; let lo := (← shrC c x0 n) ||| (← shlC c x1 (← subC c 128 n)); return Ethnum.I256.from_words c hi lo : Res Ethnum.I256) with ⟨e, h3⟩ | ⟨v, h3⟩ <;>
        runT [hd, hg, hl, h0, hb, h1, h2, h3, I256.shr_assign, I256.shr, Intr.sar2, Intr.sar3, Native.sar2, Native.sar3, Bool.true_and, Bool.false_and])
    | (rcases outcome (do let hi ← sarC c x1 127; let lo ← sarC c x1 (n &&& 0x7f); return Ethnum.I256.from_words c hi lo : Res Ethnum.I256) with ⟨e, h3⟩ | ⟨v, h3⟩ <;>
        runT [hd, hg, hl, h0, hb, h1, h2, h3, I256.shr_assign, I256.shr, Intr.sar2, Intr.sar3, Native.sar2, Native.sar3, Bool.true_and, Bool.false_and])
    | (rcases outcome (do let hi ← sarC c x0 n; let lo := (← shrC c x1 n) ||| (← shlC c x0 (← subC c 128 n)); return Ethnum.I256.from_words c hi lo : Res Ethnum.I256) with ⟨e, h3⟩ | ⟨v, h3⟩ <;>
        runT [hd, hg, hl, h0, hb, h1, h2, h3, I256.shr_assign, I256.shr, Intr.sar2, Intr.sar3, Native.sar2, Native.sar3, Bool.true_and, Bool.false_and])
    | (rcases outcome (do let hi ← sarC c x0 127; let lo ← sarC c x0 (n &&& 0x7f); return Ethnum.I256.from_words c hi lo : Res Ethnum.I256) with ⟨e, h3⟩ | ⟨v, h3⟩ <;>
        runT [hd, hg, hl, h0, hb, h1, h2, h3, I256.shr_assign, I256.shr, Intr.sar2, Intr.sar3, Native.sar2, Native.sar3, Bool.true_and, Bool.false_and])
theorem I256.shrOut_passes (c : Cfg) (n : U32) (x0 x1 y0 y1 : U128) :
    Passes (callingShift (outShift ird (Intr.sar3 c)) n) ⟨some x0, some x1⟩ ⟨some y0, some y1⟩ := by
  unfold Passes
  cases hd : c.debugAssertions <;> cases hg : decide (n > 0xff) <;> cases hl : c.llvm
  all_goals first
    | runT [hd, hg, hl, I256.shr_assign, I256.shr, Intr.sar2, Intr.sar3, Native.sar2, Native.sar3, Bool.true_and, Bool.false_and]
    | skip
  all_goals rcases outcome (debugAssert c (decide (n < 256))) with ⟨e, h0⟩ | ⟨u, h0⟩
  all_goals first
    | runT [hd, hg, hl, h0, I256.shr_assign, I256.shr, Intr.sar2, Intr.sar3, Native.sar2, Native.sar3, Bool.true_and, Bool.false_and]
    | skip
  all_goals cases hb : c.bigEndian <;> by_cases h1 : n = 0
  all_goals first
    | (subst h1; runT [hd, hg, hl, h0, hb, I256.shr_assign, I256.shr, Intr.sar2, Intr.sar3, Native.sar2, Native.sar3, Bool.true_and, Bool.false_and])
    | skip
  all_goals by_cases h2 : n < 128
  all_goals first
    | (rcases outcome (do let hi ← sarC c x1 n; let lo := (← shrC c x0 n) ||| (← shlC c x1 (← subC c 128 n)); return Ethnum.I256.from_words c hi lo : Res Ethnum.I256) with ⟨e, h3⟩ | ⟨v, h3⟩ <;>
        runT [hd, hg, hl, h0, hb, h1, h2, h3, I256.shr_assign, I256.shr, Intr.sar2, Intr.sar3, Native.sar2, Native.sar3, Bool.true_and, Bool.false_and])
    | (rcases outcome (do let hi ← sarC c x1 127; let lo ← sarC c x1 (n &&& 0x7f); return Ethnum.I256.from_words c hi lo : Res Ethnum.I256) with ⟨e, h3⟩ | ⟨v, h3⟩ <;>
        runT [hd, hg, hl, h0, hb, h1, h2, h3, I256.shr_assign, I256.shr, Intr.sar2, Intr.sar3, Native.sar2, Native.sar3, Bool.true_and, Bool.false_and])
    | (rcases outcome (do let hi ← sarC c x0 n; let lo := (← shrC c x1 n) ||| (← shlC c x0 (← subC c 128 n)); return Ethnum.I256.from_words c hi lo : Res Ethnum.I256) with ⟨e, h3⟩ | ⟨v, h3⟩ <;>
        runT [hd, hg, hl, h0, hb, h1, h2, h3, I256.shr_assign, I256.shr, Intr.sar2, Intr.sar3, Native.sar2, Native.sar3, Bool.true_and, Bool.false_and])
    | (rcases outcome (do let hi ← sarC c x0 127; let lo ← sarC c x0 (n &&& 0x7f); return Ethnum.I256.from_words c hi lo : Res Ethnum.I256) with ⟨e, h3⟩ | ⟨v, h3⟩ <;>
        runT [hd, hg, hl, h0, hb, h1, h2, h3, I256.shr_assign, I256.shr, Intr.sar2, Intr.sar3, Native.sar2, Native.sar3, Bool.true_and, Bool.false_and])
theorem U256.wrapping_shl_passes (c : Cfg) (n : U32) (x0 x1 y0 y1 : U128) :
    Passes (callingShift (U256.wrapping_shl c) n) ⟨some x0, some x1⟩ ⟨some y0, some y1⟩ :=
  U256.shlOut_passes c (n &&& 0xff) x0 x1 y0 y1
theorem U256.wrapping_shr_passes (c : Cfg) (n : U32) (x0 x1 y0 y1 : U128) :
    Passes (callingShift (U256.wrapping_shr c) n) ⟨some x0, some x1⟩ ⟨some y0, some y1⟩ :=
  U256.shrOut_passes c (n &&& 0xff) x0 x1 y0 y1
theorem I256.wrapping_shl_passes (c : Cfg) (n : U32) (x0 x1 y0 y1 : U128) :
    Passes (callingShift (I256.wrapping_shl c) n) ⟨some x0, some x1⟩ ⟨some y0, some y1⟩ :=
  I256.shlOut_passes c (n &&& 0xff) x0 x1 y0 y1
theorem I256.wrapping_shr_passes (c : Cfg) (n : U32) (x0 x1 y0 y1 : U128) :
    Passes (callingShift (I256.wrapping_shr c) n) ⟨some x0, some x1⟩ ⟨some y0, some y1⟩ :=
  I256.shrOut_passes c (n &&& 0xff) x0 x1 y0 y1

end Ethnum.Alias
