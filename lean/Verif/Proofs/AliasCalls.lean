import Verif.Proofs.AliasRun

/-
Lemmas for C69: each of the methods that rotate or divide, on every path that it can take, has a log that passes the check.
-/

namespace Ethnum.Alias
set_option maxHeartbeats 4000000

theorem U256.rotate_left_passes (c : Cfg) (n : U32) (x0 x1 y0 y1 : U128) :
    Passes (callingShift (U256.rotate_left c) n) ⟨some x0, some x1⟩ ⟨some y0, some y1⟩ := by
  unfold Passes
  rcases outcome (Ethnum.Native.rol3 c ⟨x0, x1⟩ n) with ⟨e, h⟩ | ⟨v, h⟩ <;> cases hl : c.llvm <;>
    runT [hl, h, U256.rotate_left, Intr.rol3, Native.rol3]
theorem U256.rotate_right_passes (c : Cfg) (n : U32) (x0 x1 y0 y1 : U128) :
    Passes (callingShift (U256.rotate_right c) n) ⟨some x0, some x1⟩ ⟨some y0, some y1⟩ := by
  unfold Passes
  rcases outcome (Ethnum.Native.ror3 c ⟨x0, x1⟩ n) with ⟨e, h⟩ | ⟨v, h⟩ <;> cases hl : c.llvm <;>
    runT [hl, h, U256.rotate_right, Intr.ror3, Native.ror3]
theorem I256.rotate_left_passes (c : Cfg) (n : U32) (x0 x1 y0 y1 : U128) :
    Passes (callingShift (I256.rotate_left c) n) ⟨some x0, some x1⟩ ⟨some y0, some y1⟩ := by
  unfold Passes
  rcases outcome (Ethnum.Native.rol3 c ⟨x0, x1⟩ n) with ⟨e, h⟩ | ⟨v, h⟩ <;> cases hl : c.llvm <;>
    runT [hl, h, I256.rotate_left, Intr.rol3, Native.rol3]
theorem I256.rotate_right_passes (c : Cfg) (n : U32) (x0 x1 y0 y1 : U128) :
    Passes (callingShift (I256.rotate_right c) n) ⟨some x0, some x1⟩ ⟨some y0, some y1⟩ := by
  unfold Passes
  rcases outcome (Ethnum.Native.ror3 c ⟨x0, x1⟩ n) with ⟨e, h⟩ | ⟨v, h⟩ <;> cases hl : c.llvm <;>
    runT [hl, h, I256.rotate_right, Intr.ror3, Native.ror3]
theorem U256.div_rem_passes (c : Cfg) (x0 x1 y0 y1 : U128) :
    Passes (calling (U256.div_rem c)) ⟨some x0, some x1⟩ ⟨some y0, some y1⟩ := by
  unfold Passes
  cases hb : c.bigEndian
  · cases hz : Ethnum.U256.eq_prim c ⟨y0, y1⟩ 0
    rotate_left
    · splitT [hb, hz, U256.div_rem, Intr.udivmod4]
    rcases outcome (unreachableIf (Ethnum.U256.le_prim c ⟨y0, y1⟩ 0)) with ⟨e, hu⟩ | ⟨u, hu⟩
    · splitT [hb, hz, hu, U256.div_rem, Intr.udivmod4]
    rcases paths c x1 x0 y1 y0 ⟨x0, x1⟩ ⟨y0, y1⟩ with
      ⟨e, h, h1⟩ | ⟨q, e, h, h1, h2⟩ | ⟨q, r, h, h1, h2⟩ | ⟨h, h1⟩ | ⟨e, h, h1, h2⟩ | ⟨q, r, h, h1, h2⟩
    · splitT [hb, hz, hu, U256.div_rem, Intr.udivmod4, h, h1]
    · splitT [hb, hz, hu, U256.div_rem, Intr.udivmod4, h, h1, h2]
    · splitT [hb, hz, hu, U256.div_rem, Intr.udivmod4, h, h1, h2]
    · splitT [hb, hz, hu, U256.div_rem, Intr.udivmod4, h, h1]
    · splitT [hb, hz, hu, U256.div_rem, Intr.udivmod4, h, h1, h2]
    · splitT [hb, hz, hu, U256.div_rem, Intr.udivmod4, h, h1, h2]
  · cases hz : Ethnum.U256.eq_prim c ⟨y0, y1⟩ 0
    rotate_left
    · splitT [hb, hz, U256.div_rem, Intr.udivmod4]
    rcases outcome (unreachableIf (Ethnum.U256.le_prim c ⟨y0, y1⟩ 0)) with ⟨e, hu⟩ | ⟨u, hu⟩
    · splitT [hb, hz, hu, U256.div_rem, Intr.udivmod4]
    rcases paths c x0 x1 y0 y1 ⟨x0, x1⟩ ⟨y0, y1⟩ with
      ⟨e, h, h1⟩ | ⟨q, e, h, h1, h2⟩ | ⟨q, r, h, h1, h2⟩ | ⟨h, h1⟩ | ⟨e, h, h1, h2⟩ | ⟨q, r, h, h1, h2⟩
    · splitT [hb, hz, hu, U256.div_rem, Intr.udivmod4, h, h1]
    · splitT [hb, hz, hu, U256.div_rem, Intr.udivmod4, h, h1, h2]
    · splitT [hb, hz, hu, U256.div_rem, Intr.udivmod4, h, h1, h2]
    · splitT [hb, hz, hu, U256.div_rem, Intr.udivmod4, h, h1]
    · splitT [hb, hz, hu, U256.div_rem, Intr.udivmod4, h, h1, h2]
    · splitT [hb, hz, hu, U256.div_rem, Intr.udivmod4, h, h1, h2]
theorem I256.wrapping_div_rem_passes (c : Cfg) (x0 x1 y0 y1 : U128) :
    Passes (calling (I256.wrapping_div_rem c)) ⟨some x0, some x1⟩ ⟨some y0, some y1⟩ := by
  unfold Passes
  cases hb : c.bigEndian
  · cases hz : Ethnum.I256.eq_prim c ⟨y0, y1⟩ 0
    rotate_left
    · splitT [hb, hz, I256.wrapping_div_rem, Intr.idivmod4, Intr.idivmodSigns, Intr.udivmod4]
    rcases outcome (unreachableIf (Ethnum.I256.cmp c ⟨y0, y1⟩ Ethnum.I256.ZERO == .eq)) with ⟨e, hu⟩ | ⟨u, hu⟩
    · splitT [hb, hz, hu, I256.wrapping_div_rem, Intr.idivmod4, Intr.idivmodSigns, Intr.udivmod4]
    rcases outcome (Ethnum.I256.shr c ⟨x0, x1⟩ 255) with ⟨e, h3⟩ | ⟨s, h3⟩
    · splitT [hb, hz, hu, I256.wrapping_div_rem, Intr.idivmod4, Intr.idivmodSigns, Intr.udivmod4, h3]
    rcases outcome (Ethnum.I256.shr c ⟨y0, y1⟩ 255) with ⟨e, h4⟩ | ⟨t, h4⟩
    · splitT [hb, hz, hu, I256.wrapping_div_rem, Intr.idivmod4, Intr.idivmodSigns, Intr.udivmod4, h3, h4]
    obtain ⟨⟨p0, p1⟩, hp⟩ : ∃ z, ((⟨x0, x1⟩ : Ethnum.I256).bitxor s).wrapping_sub c s = z := ⟨_, rfl⟩
    obtain ⟨⟨q0, q1⟩, hq⟩ : ∃ z, ((⟨y0, y1⟩ : Ethnum.I256).bitxor t).wrapping_sub c t = z := ⟨_, rfl⟩
    rcases paths c p1 p0 q1 q0 ⟨p0, p1⟩ ⟨q0, q1⟩ with
      ⟨e, h, h1⟩ | ⟨q, e, h, h1, h2⟩ | ⟨q, r, h, h1, h2⟩ | ⟨h, h1⟩ | ⟨e, h, h1, h2⟩ | ⟨q, r, h, h1, h2⟩
    · splitT [hb, hz, hu, I256.wrapping_div_rem, Intr.idivmod4, Intr.idivmodSigns, Intr.udivmod4, h3, h4, hp, hq, h, h1]
    · splitT [hb, hz, hu, I256.wrapping_div_rem, Intr.idivmod4, Intr.idivmodSigns, Intr.udivmod4, h3, h4, hp, hq, h, h1, h2]
    · splitT [hb, hz, hu, I256.wrapping_div_rem, Intr.idivmod4, Intr.idivmodSigns, Intr.udivmod4, h3, h4, hp, hq, h, h1, h2]
    · splitT [hb, hz, hu, I256.wrapping_div_rem, Intr.idivmod4, Intr.idivmodSigns, Intr.udivmod4, h3, h4, hp, hq, h, h1]
    · splitT [hb, hz, hu, I256.wrapping_div_rem, Intr.idivmod4, Intr.idivmodSigns, Intr.udivmod4, h3, h4, hp, hq, h, h1, h2]
    · splitT [hb, hz, hu, I256.wrapping_div_rem, Intr.idivmod4, Intr.idivmodSigns, Intr.udivmod4, h3, h4, hp, hq, h, h1, h2]
  · cases hz : Ethnum.I256.eq_prim c ⟨y0, y1⟩ 0
    rotate_left
    · splitT [hb, hz, I256.wrapping_div_rem, Intr.idivmod4, Intr.idivmodSigns, Intr.udivmod4]
    rcases outcome (unreachableIf (Ethnum.I256.cmp c ⟨y0, y1⟩ Ethnum.I256.ZERO == .eq)) with ⟨e, hu⟩ | ⟨u, hu⟩
    · splitT [hb, hz, hu, I256.wrapping_div_rem, Intr.idivmod4, Intr.idivmodSigns, Intr.udivmod4]
    rcases outcome (Ethnum.I256.shr c ⟨x0, x1⟩ 255) with ⟨e, h3⟩ | ⟨s, h3⟩
    · splitT [hb, hz, hu, I256.wrapping_div_rem, Intr.idivmod4, Intr.idivmodSigns, Intr.udivmod4, h3]
    rcases outcome (Ethnum.I256.shr c ⟨y0, y1⟩ 255) with ⟨e, h4⟩ | ⟨t, h4⟩
    · splitT [hb, hz, hu, I256.wrapping_div_rem, Intr.idivmod4, Intr.idivmodSigns, Intr.udivmod4, h3, h4]
    obtain ⟨⟨p0, p1⟩, hp⟩ : ∃ z, ((⟨x0, x1⟩ : Ethnum.I256).bitxor s).wrapping_sub c s = z := ⟨_, rfl⟩
    obtain ⟨⟨q0, q1⟩, hq⟩ : ∃ z, ((⟨y0, y1⟩ : Ethnum.I256).bitxor t).wrapping_sub c t = z := ⟨_, rfl⟩
    rcases paths c p0 p1 q0 q1 ⟨p0, p1⟩ ⟨q0, q1⟩ with
      ⟨e, h, h1⟩ | ⟨q, e, h, h1, h2⟩ | ⟨q, r, h, h1, h2⟩ | ⟨h, h1⟩ | ⟨e, h, h1, h2⟩ | ⟨q, r, h, h1, h2⟩
    · splitT [hb, hz, hu, I256.wrapping_div_rem, Intr.idivmod4, Intr.idivmodSigns, Intr.udivmod4, h3, h4, hp, hq, h, h1]
    · splitT [hb, hz, hu, I256.wrapping_div_rem, Intr.idivmod4, Intr.idivmodSigns, Intr.udivmod4, h3, h4, hp, hq, h, h1, h2]
    · splitT [hb, hz, hu, I256.wrapping_div_rem, Intr.idivmod4, Intr.idivmodSigns, Intr.udivmod4, h3, h4, hp, hq, h, h1, h2]
    · splitT [hb, hz, hu, I256.wrapping_div_rem, Intr.idivmod4, Intr.idivmodSigns, Intr.udivmod4, h3, h4, hp, hq, h, h1]
    · splitT [hb, hz, hu, I256.wrapping_div_rem, Intr.idivmod4, Intr.idivmodSigns, Intr.udivmod4, h3, h4, hp, hq, h, h1, h2]
    · splitT [hb, hz, hu, I256.wrapping_div_rem, Intr.idivmod4, Intr.idivmodSigns, Intr.udivmod4, h3, h4, hp, hq, h, h1, h2]

end Ethnum.Alias
