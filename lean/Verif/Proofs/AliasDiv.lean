import Verif.Proofs.AliasRun

/-
Lemmas for C69: each form of `/` and `%` of `U256`, on every path that it can take, has a log that passes the check.
-/

namespace Ethnum.Alias
set_option maxHeartbeats 4000000

theorem U256.div_assign_passes (c : Cfg) (x0 x1 y0 y1 : U128) :
    Passes (assigning (U256.div_assign c)) ⟨some x0, some x1⟩ ⟨some y0, some y1⟩ := by
  unfold Passes
  cases hb : c.bigEndian <;> cases hd : c.debugAssertions
  rotate_left
  · cases hz : Ethnum.U256.eq_prim c ⟨y0, y1⟩ 0
    rotate_left
    · runT [hb, hd, hz, U256.div_assign, U256.div, Intr.udiv2, Intr.udiv3, Intr.udivmod4]
    rcases paths c x1 x0 y1 y0 ⟨x0, x1⟩ ⟨y0, y1⟩ with
      ⟨e, h, h1⟩ | ⟨q, e, h, h1, h2⟩ | ⟨q, r, h, h1, h2⟩ | ⟨h, h1⟩ | ⟨e, h, h1, h2⟩ | ⟨q, r, h, h1, h2⟩
    · runT [hb, hd, hz, U256.div_assign, U256.div, Intr.udiv2, Intr.udiv3, Intr.udivmod4, h, h1]
    · runT [hb, hd, hz, U256.div_assign, U256.div, Intr.udiv2, Intr.udiv3, Intr.udivmod4, h, h1, h2]
    · runT [hb, hd, hz, U256.div_assign, U256.div, Intr.udiv2, Intr.udiv3, Intr.udivmod4, h, h1, h2]
    · runT [hb, hd, hz, U256.div_assign, U256.div, Intr.udiv2, Intr.udiv3, Intr.udivmod4, h, h1]
    · runT [hb, hd, hz, U256.div_assign, U256.div, Intr.udiv2, Intr.udiv3, Intr.udivmod4, h, h1, h2]
    · runT [hb, hd, hz, U256.div_assign, U256.div, Intr.udiv2, Intr.udiv3, Intr.udivmod4, h, h1, h2]
  rotate_left
  · cases hz : Ethnum.U256.eq_prim c ⟨y0, y1⟩ 0
    rotate_left
    · runT [hb, hd, hz, U256.div_assign, U256.div, Intr.udiv2, Intr.udiv3, Intr.udivmod4]
    rcases paths c x0 x1 y0 y1 ⟨x0, x1⟩ ⟨y0, y1⟩ with
      ⟨e, h, h1⟩ | ⟨q, e, h, h1, h2⟩ | ⟨q, r, h, h1, h2⟩ | ⟨h, h1⟩ | ⟨e, h, h1, h2⟩ | ⟨q, r, h, h1, h2⟩
    · runT [hb, hd, hz, U256.div_assign, U256.div, Intr.udiv2, Intr.udiv3, Intr.udivmod4, h, h1]
    · runT [hb, hd, hz, U256.div_assign, U256.div, Intr.udiv2, Intr.udiv3, Intr.udivmod4, h, h1, h2]
    · runT [hb, hd, hz, U256.div_assign, U256.div, Intr.udiv2, Intr.udiv3, Intr.udivmod4, h, h1, h2]
    · runT [hb, hd, hz, U256.div_assign, U256.div, Intr.udiv2, Intr.udiv3, Intr.udivmod4, h, h1]
    · runT [hb, hd, hz, U256.div_assign, U256.div, Intr.udiv2, Intr.udiv3, Intr.udivmod4, h, h1, h2]
    · runT [hb, hd, hz, U256.div_assign, U256.div, Intr.udiv2, Intr.udiv3, Intr.udivmod4, h, h1, h2]
  · rcases paths c x1 x0 y1 y0 ⟨x0, x1⟩ ⟨y0, y1⟩ with
      ⟨e, h, h1⟩ | ⟨q, e, h, h1, h2⟩ | ⟨q, r, h, h1, h2⟩ | ⟨h, h1⟩ | ⟨e, h, h1, h2⟩ | ⟨q, r, h, h1, h2⟩
    · runT [hb, hd, U256.div_assign, U256.div, Intr.udiv2, Intr.udiv3, Intr.udivmod4, h, h1]
    · runT [hb, hd, U256.div_assign, U256.div, Intr.udiv2, Intr.udiv3, Intr.udivmod4, h, h1, h2]
    · runT [hb, hd, U256.div_assign, U256.div, Intr.udiv2, Intr.udiv3, Intr.udivmod4, h, h1, h2]
    · runT [hb, hd, U256.div_assign, U256.div, Intr.udiv2, Intr.udiv3, Intr.udivmod4, h, h1]
    · runT [hb, hd, U256.div_assign, U256.div, Intr.udiv2, Intr.udiv3, Intr.udivmod4, h, h1, h2]
    · runT [hb, hd, U256.div_assign, U256.div, Intr.udiv2, Intr.udiv3, Intr.udivmod4, h, h1, h2]
  · rcases paths c x0 x1 y0 y1 ⟨x0, x1⟩ ⟨y0, y1⟩ with
      ⟨e, h, h1⟩ | ⟨q, e, h, h1, h2⟩ | ⟨q, r, h, h1, h2⟩ | ⟨h, h1⟩ | ⟨e, h, h1, h2⟩ | ⟨q, r, h, h1, h2⟩
    · runT [hb, hd, U256.div_assign, U256.div, Intr.udiv2, Intr.udiv3, Intr.udivmod4, h, h1]
    · runT [hb, hd, U256.div_assign, U256.div, Intr.udiv2, Intr.udiv3, Intr.udivmod4, h, h1, h2]
    · runT [hb, hd, U256.div_assign, U256.div, Intr.udiv2, Intr.udiv3, Intr.udivmod4, h, h1, h2]
    · runT [hb, hd, U256.div_assign, U256.div, Intr.udiv2, Intr.udiv3, Intr.udivmod4, h, h1]
    · runT [hb, hd, U256.div_assign, U256.div, Intr.udiv2, Intr.udiv3, Intr.udivmod4, h, h1, h2]
    · runT [hb, hd, U256.div_assign, U256.div, Intr.udiv2, Intr.udiv3, Intr.udivmod4, h, h1, h2]
theorem U256.div_passes (c : Cfg) (x0 x1 y0 y1 : U128) :
    Passes (calling (U256.div c)) ⟨some x0, some x1⟩ ⟨some y0, some y1⟩ := by
  unfold Passes
  cases hb : c.bigEndian
  · cases hz : Ethnum.U256.eq_prim c ⟨y0, y1⟩ 0
    rotate_left
    · runT [hb, hz, U256.div_assign, U256.div, Intr.udiv2, Intr.udiv3, Intr.udivmod4]
    rcases paths c x1 x0 y1 y0 ⟨x0, x1⟩ ⟨y0, y1⟩ with
      ⟨e, h, h1⟩ | ⟨q, e, h, h1, h2⟩ | ⟨q, r, h, h1, h2⟩ | ⟨h, h1⟩ | ⟨e, h, h1, h2⟩ | ⟨q, r, h, h1, h2⟩
    · runT [hb, hz, U256.div_assign, U256.div, Intr.udiv2, Intr.udiv3, Intr.udivmod4, h, h1]
    · runT [hb, hz, U256.div_assign, U256.div, Intr.udiv2, Intr.udiv3, Intr.udivmod4, h, h1, h2]
    · runT [hb, hz, U256.div_assign, U256.div, Intr.udiv2, Intr.udiv3, Intr.udivmod4, h, h1, h2]
    · runT [hb, hz, U256.div_assign, U256.div, Intr.udiv2, Intr.udiv3, Intr.udivmod4, h, h1]
    · runT [hb, hz, U256.div_assign, U256.div, Intr.udiv2, Intr.udiv3, Intr.udivmod4, h, h1, h2]
    · runT [hb, hz, U256.div_assign, U256.div, Intr.udiv2, Intr.udiv3, Intr.udivmod4, h, h1, h2]
  · cases hz : Ethnum.U256.eq_prim c ⟨y0, y1⟩ 0
    rotate_left
    · runT [hb, hz, U256.div_assign, U256.div, Intr.udiv2, Intr.udiv3, Intr.udivmod4]
    rcases paths c x0 x1 y0 y1 ⟨x0, x1⟩ ⟨y0, y1⟩ with
      ⟨e, h, h1⟩ | ⟨q, e, h, h1, h2⟩ | ⟨q, r, h, h1, h2⟩ | ⟨h, h1⟩ | ⟨e, h, h1, h2⟩ | ⟨q, r, h, h1, h2⟩
    · runT [hb, hz, U256.div_assign, U256.div, Intr.udiv2, Intr.udiv3, Intr.udivmod4, h, h1]
    · runT [hb, hz, U256.div_assign, U256.div, Intr.udiv2, Intr.udiv3, Intr.udivmod4, h, h1, h2]
    · runT [hb, hz, U256.div_assign, U256.div, Intr.udiv2, Intr.udiv3, Intr.udivmod4, h, h1, h2]
    · runT [hb, hz, U256.div_assign, U256.div, Intr.udiv2, Intr.udiv3, Intr.udivmod4, h, h1]
    · runT [hb, hz, U256.div_assign, U256.div, Intr.udiv2, Intr.udiv3, Intr.udivmod4, h, h1, h2]
    · runT [hb, hz, U256.div_assign, U256.div, Intr.udiv2, Intr.udiv3, Intr.udivmod4, h, h1, h2]
theorem U256.rem_assign_passes (c : Cfg) (x0 x1 y0 y1 : U128) :
    Passes (assigning (U256.rem_assign c)) ⟨some x0, some x1⟩ ⟨some y0, some y1⟩ := by
  unfold Passes
  cases hb : c.bigEndian <;> cases hd : c.debugAssertions
  rotate_left
  · cases hz : Ethnum.U256.eq_prim c ⟨y0, y1⟩ 0
    rotate_left
    · runT [hb, hd, hz, U256.rem_assign, U256.rem, Intr.urem2, Intr.urem3, Intr.udivmod4]
    rcases paths c x1 x0 y1 y0 ⟨x0, x1⟩ ⟨y0, y1⟩ with
      ⟨e, h, h1⟩ | ⟨q, e, h, h1, h2⟩ | ⟨q, r, h, h1, h2⟩ | ⟨h, h1⟩ | ⟨e, h, h1, h2⟩ | ⟨q, r, h, h1, h2⟩
    · runT [hb, hd, hz, U256.rem_assign, U256.rem, Intr.urem2, Intr.urem3, Intr.udivmod4, h, h1]
    · runT [hb, hd, hz, U256.rem_assign, U256.rem, Intr.urem2, Intr.urem3, Intr.udivmod4, h, h1, h2]
    · runT [hb, hd, hz, U256.rem_assign, U256.rem, Intr.urem2, Intr.urem3, Intr.udivmod4, h, h1, h2]
    · runT [hb, hd, hz, U256.rem_assign, U256.rem, Intr.urem2, Intr.urem3, Intr.udivmod4, h, h1]
    · runT [hb, hd, hz, U256.rem_assign, U256.rem, Intr.urem2, Intr.urem3, Intr.udivmod4, h, h1, h2]
    · runT [hb, hd, hz, U256.rem_assign, U256.rem, Intr.urem2, Intr.urem3, Intr.udivmod4, h, h1, h2]
  rotate_left
  · cases hz : Ethnum.U256.eq_prim c ⟨y0, y1⟩ 0
    rotate_left
    · runT [hb, hd, hz, U256.rem_assign, U256.rem, Intr.urem2, Intr.urem3, Intr.udivmod4]
    rcases paths c x0 x1 y0 y1 ⟨x0, x1⟩ ⟨y0, y1⟩ with
      ⟨e, h, h1⟩ | ⟨q, e, h, h1, h2⟩ | ⟨q, r, h, h1, h2⟩ | ⟨h, h1⟩ | ⟨e, h, h1, h2⟩ | ⟨q, r, h, h1, h2⟩
    · runT [hb, hd, hz, U256.rem_assign, U256.rem, Intr.urem2, Intr.urem3, Intr.udivmod4, h, h1]
    · runT [hb, hd, hz, U256.rem_assign, U256.rem, Intr.urem2, Intr.urem3, Intr.udivmod4, h, h1, h2]
    · runT [hb, hd, hz, U256.rem_assign, U256.rem, Intr.urem2, Intr.urem3, Intr.udivmod4, h, h1, h2]
    · runT [hb, hd, hz, U256.rem_assign, U256.rem, Intr.urem2, Intr.urem3, Intr.udivmod4, h, h1]
    · runT [hb, hd, hz, U256.rem_assign, U256.rem, Intr.urem2, Intr.urem3, Intr.udivmod4, h, h1, h2]
    · runT [hb, hd, hz, U256.rem_assign, U256.rem, Intr.urem2, Intr.urem3, Intr.udivmod4, h, h1, h2]
  · rcases paths c x1 x0 y1 y0 ⟨x0, x1⟩ ⟨y0, y1⟩ with
      ⟨e, h, h1⟩ | ⟨q, e, h, h1, h2⟩ | ⟨q, r, h, h1, h2⟩ | ⟨h, h1⟩ | ⟨e, h, h1, h2⟩ | ⟨q, r, h, h1, h2⟩
    · runT [hb, hd, U256.rem_assign, U256.rem, Intr.urem2, Intr.urem3, Intr.udivmod4, h, h1]
    · runT [hb, hd, U256.rem_assign, U256.rem, Intr.urem2, Intr.urem3, Intr.udivmod4, h, h1, h2]
    · runT [hb, hd, U256.rem_assign, U256.rem, Intr.urem2, Intr.urem3, Intr.udivmod4, h, h1, h2]
    · runT [hb, hd, U256.rem_assign, U256.rem, Intr.urem2, Intr.urem3, Intr.udivmod4, h, h1]
    · runT [hb, hd, U256.rem_assign, U256.rem, Intr.urem2, Intr.urem3, Intr.udivmod4, h, h1, h2]
    · runT [hb, hd, U256.rem_assign, U256.rem, Intr.urem2, Intr.urem3, Intr.udivmod4, h, h1, h2]
  · rcases paths c x0 x1 y0 y1 ⟨x0, x1⟩ ⟨y0, y1⟩ with
      ⟨e, h, h1⟩ | ⟨q, e, h, h1, h2⟩ | ⟨q, r, h, h1, h2⟩ | ⟨h, h1⟩ | ⟨e, h, h1, h2⟩ | ⟨q, r, h, h1, h2⟩
    · runT [hb, hd, U256.rem_assign, U256.rem, Intr.urem2, Intr.urem3, Intr.udivmod4, h, h1]
    · runT [hb, hd, U256.rem_assign, U256.rem, Intr.urem2, Intr.urem3, Intr.udivmod4, h, h1, h2]
    · runT [hb, hd, U256.rem_assign, U256.rem, Intr.urem2, Intr.urem3, Intr.udivmod4, h, h1, h2]
    · runT [hb, hd, U256.rem_assign, U256.rem, Intr.urem2, Intr.urem3, Intr.udivmod4, h, h1]
    · runT [hb, hd, U256.rem_assign, U256.rem, Intr.urem2, Intr.urem3, Intr.udivmod4, h, h1, h2]
    · runT [hb, hd, U256.rem_assign, U256.rem, Intr.urem2, Intr.urem3, Intr.udivmod4, h, h1, h2]
theorem U256.rem_passes (c : Cfg) (x0 x1 y0 y1 : U128) :
    Passes (calling (U256.rem c)) ⟨some x0, some x1⟩ ⟨some y0, some y1⟩ := by
  unfold Passes
  cases hb : c.bigEndian
  · cases hz : Ethnum.U256.eq_prim c ⟨y0, y1⟩ 0
    rotate_left
    · runT [hb, hz, U256.rem_assign, U256.rem, Intr.urem2, Intr.urem3, Intr.udivmod4]
    rcases paths c x1 x0 y1 y0 ⟨x0, x1⟩ ⟨y0, y1⟩ with
      ⟨e, h, h1⟩ | ⟨q, e, h, h1, h2⟩ | ⟨q, r, h, h1, h2⟩ | ⟨h, h1⟩ | ⟨e, h, h1, h2⟩ | ⟨q, r, h, h1, h2⟩
    · runT [hb, hz, U256.rem_assign, U256.rem, Intr.urem2, Intr.urem3, Intr.udivmod4, h, h1]
    · runT [hb, hz, U256.rem_assign, U256.rem, Intr.urem2, Intr.urem3, Intr.udivmod4, h, h1, h2]
    · runT [hb, hz, U256.rem_assign, U256.rem, Intr.urem2, Intr.urem3, Intr.udivmod4, h, h1, h2]
    · runT [hb, hz, U256.rem_assign, U256.rem, Intr.urem2, Intr.urem3, Intr.udivmod4, h, h1]
    · runT [hb, hz, U256.rem_assign, U256.rem, Intr.urem2, Intr.urem3, Intr.udivmod4, h, h1, h2]
    · runT [hb, hz, U256.rem_assign, U256.rem, Intr.urem2, Intr.urem3, Intr.udivmod4, h, h1, h2]
  · cases hz : Ethnum.U256.eq_prim c ⟨y0, y1⟩ 0
    rotate_left
    · runT [hb, hz, U256.rem_assign, U256.rem, Intr.urem2, Intr.urem3, Intr.udivmod4]
    rcases paths c x0 x1 y0 y1 ⟨x0, x1⟩ ⟨y0, y1⟩ with
      ⟨e, h, h1⟩ | ⟨q, e, h, h1, h2⟩ | ⟨q, r, h, h1, h2⟩ | ⟨h, h1⟩ | ⟨e, h, h1, h2⟩ | ⟨q, r, h, h1, h2⟩
    · runT [hb, hz, U256.rem_assign, U256.rem, Intr.urem2, Intr.urem3, Intr.udivmod4, h, h1]
    · runT [hb, hz, U256.rem_assign, U256.rem, Intr.urem2, Intr.urem3, Intr.udivmod4, h, h1, h2]
    · runT [hb, hz, U256.rem_assign, U256.rem, Intr.urem2, Intr.urem3, Intr.udivmod4, h, h1, h2]
    · runT [hb, hz, U256.rem_assign, U256.rem, Intr.urem2, Intr.urem3, Intr.udivmod4, h, h1]
    · runT [hb, hz, U256.rem_assign, U256.rem, Intr.urem2, Intr.urem3, Intr.udivmod4, h, h1, h2]
    · runT [hb, hz, U256.rem_assign, U256.rem, Intr.urem2, Intr.urem3, Intr.udivmod4, h, h1, h2]

end Ethnum.Alias
