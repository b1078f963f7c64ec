import Verif.Proofs.AliasRun

/-
Lemmas for C69: each form of `/` of `I256`, on every path that it can take, has a log that passes the check.
-/

namespace Ethnum.Alias
set_option maxHeartbeats 4000000

theorem I256.div_assign_passes (c : Cfg) (x0 x1 y0 y1 : U128) :
    Passes (assigning (I256.div_assign c)) ⟨some x0, some x1⟩ ⟨some y0, some y1⟩ := by
  unfold Passes
  cases hb : c.bigEndian <;> cases hd : c.debugAssertions
  rotate_left
  · cases hz : Ethnum.I256.eq_prim c ⟨y0, y1⟩ 0
    rotate_left
    · runT [hb, hd, hz, I256.div_assign, I256.div, Intr.idiv2, Intr.idiv3, Intr.idivmod4, Intr.idivmodSigns, Intr.udivmod4]
    rcases outcome (Ethnum.I256.shr c ⟨x0, x1⟩ 255) with ⟨e, h3⟩ | ⟨s, h3⟩
    · runT [hb, hd, hz, I256.div_assign, I256.div, Intr.idiv2, Intr.idiv3, Intr.idivmod4, Intr.idivmodSigns, Intr.udivmod4, h3]
    rcases outcome (Ethnum.I256.shr c ⟨y0, y1⟩ 255) with ⟨e, h4⟩ | ⟨t, h4⟩
    · runT [hb, hd, hz, I256.div_assign, I256.div, Intr.idiv2, Intr.idiv3, Intr.idivmod4, Intr.idivmodSigns, Intr.udivmod4, h3, h4]
    obtain ⟨⟨p0, p1⟩, hp⟩ : ∃ z, ((⟨x0, x1⟩ : Ethnum.I256).bitxor s).wrapping_sub c s = z := ⟨_, rfl⟩
    obtain ⟨⟨q0, q1⟩, hq⟩ : ∃ z, ((⟨y0, y1⟩ : Ethnum.I256).bitxor t).wrapping_sub c t = z := ⟨_, rfl⟩
    rcases paths c p1 p0 q1 q0 ⟨p0, p1⟩ ⟨q0, q1⟩ with
      ⟨e, h, h1⟩ | ⟨q, e, h, h1, h2⟩ | ⟨q, r, h, h1, h2⟩ | ⟨h, h1⟩ | ⟨e, h, h1, h2⟩ | ⟨q, r, h, h1, h2⟩
    · runT [hb, hd, hz, I256.div_assign, I256.div, Intr.idiv2, Intr.idiv3, Intr.idivmod4, Intr.idivmodSigns, Intr.udivmod4, h3, h4, hp, hq, h, h1]
    · runT [hb, hd, hz, I256.div_assign, I256.div, Intr.idiv2, Intr.idiv3, Intr.idivmod4, Intr.idivmodSigns, Intr.udivmod4, h3, h4, hp, hq, h, h1, h2]
    · runT [hb, hd, hz, I256.div_assign, I256.div, Intr.idiv2, Intr.idiv3, Intr.idivmod4, Intr.idivmodSigns, Intr.udivmod4, h3, h4, hp, hq, h, h1, h2]
    · runT [hb, hd, hz, I256.div_assign, I256.div, Intr.idiv2, Intr.idiv3, Intr.idivmod4, Intr.idivmodSigns, Intr.udivmod4, h3, h4, hp, hq, h, h1]
    · runT [hb, hd, hz, I256.div_assign, I256.div, Intr.idiv2, Intr.idiv3, Intr.idivmod4, Intr.idivmodSigns, Intr.udivmod4, h3, h4, hp, hq, h, h1, h2]
    · runT [hb, hd, hz, I256.div_assign, I256.div, Intr.idiv2, Intr.idiv3, Intr.idivmod4, Intr.idivmodSigns, Intr.udivmod4, h3, h4, hp, hq, h, h1, h2]
  rotate_left
  · cases hz : Ethnum.I256.eq_prim c ⟨y0, y1⟩ 0
    rotate_left
    · runT [hb, hd, hz, I256.div_assign, I256.div, Intr.idiv2, Intr.idiv3, Intr.idivmod4, Intr.idivmodSigns, Intr.udivmod4]
    rcases outcome (Ethnum.I256.shr c ⟨x0, x1⟩ 255) with ⟨e, h3⟩ | ⟨s, h3⟩
    · runT [hb, hd, hz, I256.div_assign, I256.div, Intr.idiv2, Intr.idiv3, Intr.idivmod4, Intr.idivmodSigns, Intr.udivmod4, h3]
    rcases outcome (Ethnum.I256.shr c ⟨y0, y1⟩ 255) with ⟨e, h4⟩ | ⟨t, h4⟩
    · runT [hb, hd, hz, I256.div_assign, I256.div, Intr.idiv2, Intr.idiv3, Intr.idivmod4, Intr.idivmodSigns, Intr.udivmod4, h3, h4]
    obtain ⟨⟨p0, p1⟩, hp⟩ : ∃ z, ((⟨x0, x1⟩ : Ethnum.I256).bitxor s).wrapping_sub c s = z := ⟨_, rfl⟩
    obtain ⟨⟨q0, q1⟩, hq⟩ : ∃ z, ((⟨y0, y1⟩ : Ethnum.I256).bitxor t).wrapping_sub c t = z := ⟨_, rfl⟩
    rcases paths c p0 p1 q0 q1 ⟨p0, p1⟩ ⟨q0, q1⟩ with
      ⟨e, h, h1⟩ | ⟨q, e, h, h1, h2⟩ | ⟨q, r, h, h1, h2⟩ | ⟨h, h1⟩ | ⟨e, h, h1, h2⟩ | ⟨q, r, h, h1, h2⟩
    · runT [hb, hd, hz, I256.div_assign, I256.div, Intr.idiv2, Intr.idiv3, Intr.idivmod4, Intr.idivmodSigns, Intr.udivmod4, h3, h4, hp, hq, h, h1]
    · runT [hb, hd, hz, I256.div_assign, I256.div, Intr.idiv2, Intr.idiv3, Intr.idivmod4, Intr.idivmodSigns, Intr.udivmod4, h3, h4, hp, hq, h, h1, h2]
    · runT [hb, hd, hz, I256.div_assign, I256.div, Intr.idiv2, Intr.idiv3, Intr.idivmod4, Intr.idivmodSigns, Intr.udivmod4, h3, h4, hp, hq, h, h1, h2]
    · runT [hb, hd, hz, I256.div_assign, I256.div, Intr.idiv2, Intr.idiv3, Intr.idivmod4, Intr.idivmodSigns, Intr.udivmod4, h3, h4, hp, hq, h, h1]
    · runT [hb, hd, hz, I256.div_assign, I256.div, Intr.idiv2, Intr.idiv3, Intr.idivmod4, Intr.idivmodSigns, Intr.udivmod4, h3, h4, hp, hq, h, h1, h2]
    · runT [hb, hd, hz, I256.div_assign, I256.div, Intr.idiv2, Intr.idiv3, Intr.idivmod4, Intr.idivmodSigns, Intr.udivmod4, h3, h4, hp, hq, h, h1, h2]
  · rcases outcome (Ethnum.I256.shr c ⟨x0, x1⟩ 255) with ⟨e, h3⟩ | ⟨s, h3⟩
    · runT [hb, hd, I256.div_assign, I256.div, Intr.idiv2, Intr.idiv3, Intr.idivmod4, Intr.idivmodSigns, Intr.udivmod4, h3]
    rcases outcome (Ethnum.I256.shr c ⟨y0, y1⟩ 255) with ⟨e, h4⟩ | ⟨t, h4⟩
    · runT [hb, hd, I256.div_assign, I256.div, Intr.idiv2, Intr.idiv3, Intr.idivmod4, Intr.idivmodSigns, Intr.udivmod4, h3, h4]
    obtain ⟨⟨p0, p1⟩, hp⟩ : ∃ z, ((⟨x0, x1⟩ : Ethnum.I256).bitxor s).wrapping_sub c s = z := ⟨_, rfl⟩
    obtain ⟨⟨q0, q1⟩, hq⟩ : ∃ z, ((⟨y0, y1⟩ : Ethnum.I256).bitxor t).wrapping_sub c t = z := ⟨_, rfl⟩
    rcases paths c p1 p0 q1 q0 ⟨p0, p1⟩ ⟨q0, q1⟩ with
      ⟨e, h, h1⟩ | ⟨q, e, h, h1, h2⟩ | ⟨q, r, h, h1, h2⟩ | ⟨h, h1⟩ | ⟨e, h, h1, h2⟩ | ⟨q, r, h, h1, h2⟩
    · runT [hb, hd, I256.div_assign, I256.div, Intr.idiv2, Intr.idiv3, Intr.idivmod4, Intr.idivmodSigns, Intr.udivmod4, h3, h4, hp, hq, h, h1]
    · runT [hb, hd, I256.div_assign, I256.div, Intr.idiv2, Intr.idiv3, Intr.idivmod4, Intr.idivmodSigns, Intr.udivmod4, h3, h4, hp, hq, h, h1, h2]
    · runT [hb, hd, I256.div_assign, I256.div, Intr.idiv2, Intr.idiv3, Intr.idivmod4, Intr.idivmodSigns, Intr.udivmod4, h3, h4, hp, hq, h, h1, h2]
    · runT [hb, hd, I256.div_assign, I256.div, Intr.idiv2, Intr.idiv3, Intr.idivmod4, Intr.idivmodSigns, Intr.udivmod4, h3, h4, hp, hq, h, h1]
    · runT [hb, hd, I256.div_assign, I256.div, Intr.idiv2, Intr.idiv3, Intr.idivmod4, Intr.idivmodSigns, Intr.udivmod4, h3, h4, hp, hq, h, h1, h2]
    · runT [hb, hd, I256.div_assign, I256.div, Intr.idiv2, Intr.idiv3, Intr.idivmod4, Intr.idivmodSigns, Intr.udivmod4, h3, h4, hp, hq, h, h1, h2]
  · rcases outcome (Ethnum.I256.shr c ⟨x0, x1⟩ 255) with ⟨e, h3⟩ | ⟨s, h3⟩
    · runT [hb, hd, I256.div_assign, I256.div, Intr.idiv2, Intr.idiv3, Intr.idivmod4, Intr.idivmodSigns, Intr.udivmod4, h3]
    rcases outcome (Ethnum.I256.shr c ⟨y0, y1⟩ 255) with ⟨e, h4⟩ | ⟨t, h4⟩
    · runT [hb, hd, I256.div_assign, I256.div, Intr.idiv2, Intr.idiv3, Intr.idivmod4, Intr.idivmodSigns, Intr.udivmod4, h3, h4]
    obtain ⟨⟨p0, p1⟩, hp⟩ : ∃ z, ((⟨x0, x1⟩ : Ethnum.I256).bitxor s).wrapping_sub c s = z := ⟨_, rfl⟩
    obtain ⟨⟨q0, q1⟩, hq⟩ : ∃ z, ((⟨y0, y1⟩ : Ethnum.I256).bitxor t).wrapping_sub c t = z := ⟨_, rfl⟩
    rcases paths c p0 p1 q0 q1 ⟨p0, p1⟩ ⟨q0, q1⟩ with
      ⟨e, h, h1⟩ | ⟨q, e, h, h1, h2⟩ | ⟨q, r, h, h1, h2⟩ | ⟨h, h1⟩ | ⟨e, h, h1, h2⟩ | ⟨q, r, h, h1, h2⟩
    · runT [hb, hd, I256.div_assign, I256.div, Intr.idiv2, Intr.idiv3, Intr.idivmod4, Intr.idivmodSigns, Intr.udivmod4, h3, h4, hp, hq, h, h1]
    · runT [hb, hd, I256.div_assign, I256.div, Intr.idiv2, Intr.idiv3, Intr.idivmod4, Intr.idivmodSigns, Intr.udivmod4, h3, h4, hp, hq, h, h1, h2]
    · runT [hb, hd, I256.div_assign, I256.div, Intr.idiv2, Intr.idiv3, Intr.idivmod4, Intr.idivmodSigns, Intr.udivmod4, h3, h4, hp, hq, h, h1, h2]
    · runT [hb, hd, I256.div_assign, I256.div, Intr.idiv2, Intr.idiv3, Intr.idivmod4, Intr.idivmodSigns, Intr.udivmod4, h3, h4, hp, hq, h, h1]
    · runT [hb, hd, I256.div_assign, I256.div, Intr.idiv2, Intr.idiv3, Intr.idivmod4, Intr.idivmodSigns, Intr.udivmod4, h3, h4, hp, hq, h, h1, h2]
    · runT [hb, hd, I256.div_assign, I256.div, Intr.idiv2, Intr.idiv3, Intr.idivmod4, Intr.idivmodSigns, Intr.udivmod4, h3, h4, hp, hq, h, h1, h2]
theorem I256.div_passes (c : Cfg) (x0 x1 y0 y1 : U128) :
    Passes (calling (I256.div c)) ⟨some x0, some x1⟩ ⟨some y0, some y1⟩ := by
  unfold Passes
  cases hb : c.bigEndian
  · cases hz : Ethnum.I256.eq_prim c ⟨y0, y1⟩ 0
    rotate_left
    · runT [hb, hz, I256.div_assign, I256.div, Intr.idiv2, Intr.idiv3, Intr.idivmod4, Intr.idivmodSigns, Intr.udivmod4]
    rcases outcome (Ethnum.I256.shr c ⟨x0, x1⟩ 255) with ⟨e, h3⟩ | ⟨s, h3⟩
    · runT [hb, hz, I256.div_assign, I256.div, Intr.idiv2, Intr.idiv3, Intr.idivmod4, Intr.idivmodSigns, Intr.udivmod4, h3]
    rcases outcome (Ethnum.I256.shr c ⟨y0, y1⟩ 255) with ⟨e, h4⟩ | ⟨t, h4⟩
    · runT [hb, hz, I256.div_assign, I256.div, Intr.idiv2, Intr.idiv3, Intr.idivmod4, Intr.idivmodSigns, Intr.udivmod4, h3, h4]
    obtain ⟨⟨p0, p1⟩, hp⟩ : ∃ z, ((⟨x0, x1⟩ : Ethnum.I256).bitxor s).wrapping_sub c s = z := ⟨_, rfl⟩
    obtain ⟨⟨q0, q1⟩, hq⟩ : ∃ z, ((⟨y0, y1⟩ : Ethnum.I256).bitxor t).wrapping_sub c t = z := ⟨_, rfl⟩
    rcases paths c p1 p0 q1 q0 ⟨p0, p1⟩ ⟨q0, q1⟩ with
      ⟨e, h, h1⟩ | ⟨q, e, h, h1, h2⟩ | ⟨q, r, h, h1, h2⟩ | ⟨h, h1⟩ | ⟨e, h, h1, h2⟩ | ⟨q, r, h, h1, h2⟩
    · runT [hb, hz, I256.div_assign, I256.div, Intr.idiv2, Intr.idiv3, Intr.idivmod4, Intr.idivmodSigns, Intr.udivmod4, h3, h4, hp, hq, h, h1]
    · runT [hb, hz, I256.div_assign, I256.div, Intr.idiv2, Intr.idiv3, Intr.idivmod4, Intr.idivmodSigns, Intr.udivmod4, h3, h4, hp, hq, h, h1, h2]
    · runT [hb, hz, I256.div_assign, I256.div, Intr.idiv2, Intr.idiv3, Intr.idivmod4, Intr.idivmodSigns, Intr.udivmod4, h3, h4, hp, hq, h, h1, h2]
    · runT [hb, hz, I256.div_assign, I256.div, Intr.idiv2, Intr.idiv3, Intr.idivmod4, Intr.idivmodSigns, Intr.udivmod4, h3, h4, hp, hq, h, h1]
    · runT [hb, hz, I256.div_assign, I256.div, Intr.idiv2, Intr.idiv3, Intr.idivmod4, Intr.idivmodSigns, Intr.udivmod4, h3, h4, hp, hq, h, h1, h2]
    · runT [hb, hz, I256.div_assign, I256.div, Intr.idiv2, Intr.idiv3, Intr.idivmod4, Intr.idivmodSigns, Intr.udivmod4, h3, h4, hp, hq, h, h1, h2]
  · cases hz : Ethnum.I256.eq_prim c ⟨y0, y1⟩ 0
    rotate_left
    · runT [hb, hz, I256.div_assign, I256.div, Intr.idiv2, Intr.idiv3, Intr.idivmod4, Intr.idivmodSigns, Intr.udivmod4]
    rcases outcome (Ethnum.I256.shr c ⟨x0, x1⟩ 255) with ⟨e, h3⟩ | ⟨s, h3⟩
    · runT [hb, hz, I256.div_assign, I256.div, Intr.idiv2, Intr.idiv3, Intr.idivmod4, Intr.idivmodSigns, Intr.udivmod4, h3]
    rcases outcome (Ethnum.I256.shr c ⟨y0, y1⟩ 255) with ⟨e, h4⟩ | ⟨t, h4⟩
    · runT [hb, hz, I256.div_assign, I256.div, Intr.idiv2, Intr.idiv3, Intr.idivmod4, Intr.idivmodSigns, Intr.udivmod4, h3, h4]
    obtain ⟨⟨p0, p1⟩, hp⟩ : ∃ z, ((⟨x0, x1⟩ : Ethnum.I256).bitxor s).wrapping_sub c s = z := ⟨_, rfl⟩
    obtain ⟨⟨q0, q1⟩, hq⟩ : ∃ z, ((⟨y0, y1⟩ : Ethnum.I256).bitxor t).wrapping_sub c t = z := ⟨_, rfl⟩
    rcases paths c p0 p1 q0 q1 ⟨p0, p1⟩ ⟨q0, q1⟩ with
      ⟨e, h, h1⟩ | ⟨q, e, h, h1, h2⟩ | ⟨q, r, h, h1, h2⟩ | ⟨h, h1⟩ | ⟨e, h, h1, h2⟩ | ⟨q, r, h, h1, h2⟩
    · runT [hb, hz, I256.div_assign, I256.div, Intr.idiv2, Intr.idiv3, Intr.idivmod4, Intr.idivmodSigns, Intr.udivmod4, h3, h4, hp, hq, h, h1]
    · runT [hb, hz, I256.div_assign, I256.div, Intr.idiv2, Intr.idiv3, Intr.idivmod4, Intr.idivmodSigns, Intr.udivmod4, h3, h4, hp, hq, h, h1, h2]
    · runT [hb, hz, I256.div_assign, I256.div, Intr.idiv2, Intr.idiv3, Intr.idivmod4, Intr.idivmodSigns, Intr.udivmod4, h3, h4, hp, hq, h, h1, h2]
    · runT [hb, hz, I256.div_assign, I256.div, Intr.idiv2, Intr.idiv3, Intr.idivmod4, Intr.idivmodSigns, Intr.udivmod4, h3, h4, hp, hq, h, h1]
    · runT [hb, hz, I256.div_assign, I256.div, Intr.idiv2, Intr.idiv3, Intr.idivmod4, Intr.idivmodSigns, Intr.udivmod4, h3, h4, hp, hq, h, h1, h2]
    · runT [hb, hz, I256.div_assign, I256.div, Intr.idiv2, Intr.idiv3, Intr.idivmod4, Intr.idivmodSigns, Intr.udivmod4, h3, h4, hp, hq, h, h1, h2]

end Ethnum.Alias
