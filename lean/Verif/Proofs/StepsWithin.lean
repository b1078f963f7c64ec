import Verif.Model.Steps

/-
Lemmas for C72: no function accesses other objects than those it was passed.
-/

namespace Ethnum.Steps
open P

/-- An object of the thread's stack, or one that may be read -/
def Readable (n : Nat) (R W : Loc → Prop) (p : Loc) : Prop := p < n → R p ∨ W p
/-- An object of the thread's stack, or one that may be written -/
def Writable (n : Nat) (W : Loc → Prop) (p : Loc) : Prop := p < n → W p

/-- The second output of a division, if there is one -/
def RemOk (n : Nat) (W : Loc → Prop) : Option Loc → Prop
  | none => True
  | some q => Writable n W q

/-- Whatever the steps give, the code reads and writes only what it may; the first `n` objects are shared. -/
def Within {α : Type} (n : Nat) (R W : Loc → Prop) : P α → Prop
  | .done _ => True
  | .read _ p k => Readable n R W p ∧ ∀ r, Within n R W (k r)
  | .write _ p _ k => Writable n W p ∧ ∀ r, Within n R W (k r)
  | .enter _ k => ∀ l, n ≤ l → Within n R W (k l)
  | .leave l k => n ≤ l ∧ Within n R W k

variable {n : Nat} {R W : Loc → Prop} {α β : Type}

theorem readable_of_writable {p : Loc} (h : Writable n W p) : Readable n R W p := fun hp => .inr (h hp)
theorem writable_of_le {p : Loc} (h : n ≤ p) : Writable n W p := fun hp => absurd hp (Nat.not_lt.mpr h)
theorem readable_of_le {p : Loc} (h : n ≤ p) : Readable n R W p := fun hp => absurd hp (Nat.not_lt.mpr h)

theorem remOk_none : RemOk n W none := trivial
theorem remOk_some {q : Loc} (h : Writable n W q) : RemOk n W (some q) := h

theorem within_bind {p : P α} {f : α → P β} (hp : Within n R W p) (hf : ∀ x, Within n R W (f x)) : Within n R W (p >>= f) := by
  change Within n R W (andThen f p)
  induction p with
  | done r =>
    cases r with
    | ok x => exact hf x
    | error e => trivial
  | read i p k ih => exact ⟨hp.1, fun r => ih r (hp.2 r)⟩
  | write i p w k ih => exact ⟨hp.1, fun r => ih r (hp.2 r)⟩
  | enter x k ih => exact fun l hl => ih l (hp l hl)
  | leave l k ih => exact ⟨hp.1, ih hp.2⟩
theorem within_pure (x : α) : Within n R W (pure x : P α) := trivial
theorem within_lift (r : Res α) : Within n R W (P.lift r) := trivial
theorem within_leaving {l : Loc} (hl : n ≤ l) {p : P α} (hp : Within n R W p) : Within n R W (leaving l p) := by
  induction p with
  | done r => exact ⟨hl, trivial⟩
  | read i p k ih => exact ⟨hp.1, fun r => ih r (hp.2 r)⟩
  | write i p w k ih => exact ⟨hp.1, fun r => ih r (hp.2 r)⟩
  | enter x k ih => exact fun l hl => ih l (hp l hl)
  | leave l k ih => exact ⟨hp.1, ih hp.2⟩
theorem within_local {x : Cell} {k : Loc → P α} (hk : ∀ l, n ≤ l → Within n R W (k l)) : Within n R W (P.withLocal x k) :=
  fun l hl => within_leaving hl (hk l hl)
theorem within_rd0 {p : Loc} (h : Readable n R W p) : Within n R W (P.rd0 p) := ⟨h, fun _ => trivial⟩
theorem within_rd1 {p : Loc} (h : Readable n R W p) : Within n R W (P.rd1 p) := ⟨h, fun _ => trivial⟩
theorem within_wr0 {p : Loc} {w : U128} (h : Writable n W p) : Within n R W (P.wr0 p w) := ⟨h, fun _ => trivial⟩
theorem within_wr1 {p : Loc} {w : U128} (h : Writable n W p) : Within n R W (P.wr1 p w) := ⟨h, fun _ => trivial⟩
theorem within_low {c : Cfg} {p : Loc} (h : Readable n R W p) : Within n R W (P.low c p) := by
  unfold P.low; split
  · exact within_rd1 h
  · exact within_rd0 h
theorem within_high {c : Cfg} {p : Loc} (h : Readable n R W p) : Within n R W (P.high c p) := by
  unfold P.high; split
  · exact within_rd0 h
  · exact within_rd1 h
theorem within_setLow {c : Cfg} {p : Loc} {w : U128} (h : Writable n W p) : Within n R W (P.setLow c p w) := by
  unfold P.setLow; split
  · exact within_wr1 h
  · exact within_wr0 h
theorem within_setHigh {c : Cfg} {p : Loc} {w : U128} (h : Writable n W p) : Within n R W (P.setHigh c p w) := by
  unfold P.setHigh; split
  · exact within_wr0 h
  · exact within_wr1 h
theorem within_rd {p : Loc} (h : Readable n R W p) : Within n R W (P.rd p) :=
  within_bind (within_rd0 h) fun _ => within_bind (within_rd1 h) fun _ => within_pure _
theorem within_ird {p : Loc} (h : Readable n R W p) : Within n R W (P.ird p) :=
  within_bind (within_rd0 h) fun _ => within_bind (within_rd1 h) fun _ => within_pure _
theorem within_wr {p : Loc} {v : U256} (h : Writable n W p) : Within n R W (P.wr p v) :=
  within_bind (within_wr0 h) fun _ => within_wr1 h
theorem within_iwr {p : Loc} {v : I256} (h : Writable n W p) : Within n R W (P.iwr p v) :=
  within_bind (within_wr0 h) fun _ => within_wr1 h

macro "witstep" : tactic => `(tactic| first
  | with_reducible assumption
  | (with_reducible apply readable_of_writable; with_reducible assumption)
  | (with_reducible apply writable_of_le; with_reducible assumption)
  | (with_reducible apply readable_of_le; with_reducible assumption)
  | with_reducible exact remOk_none
  | with_reducible apply remOk_some
  | with_reducible exact within_pure _
  | with_reducible exact within_lift _
  | with_reducible apply within_low
  | with_reducible apply within_high
  | with_reducible apply within_setLow
  | with_reducible apply within_setHigh
  | with_reducible apply within_rd
  | with_reducible apply within_ird
  | with_reducible apply within_wr
  | with_reducible apply within_iwr
  | with_reducible apply within_rd0
  | with_reducible apply within_rd1
  | with_reducible apply within_wr0
  | with_reducible apply within_wr1
  | with_reducible apply within_bind
  | (with_reducible apply within_local; intro _ _)
  | intro _
  | split)

namespace MemNative

theorem within_add2 {n : Nat} {R W : Loc → Prop} (c : Cfg) (r a : Loc) (hr : Writable n W r) (ha : Readable n R W a) : Within n R W (add2 c r a) := by
  unfold add2
  repeat' first  | witstep

theorem within_add3 {n : Nat} {R W : Loc → Prop} (c : Cfg) (r a b : Loc) (hr : Writable n W r) (ha : Readable n R W a) (hb : Readable n R W b) : Within n R W (add3 c r a b) := by
  unfold add3
  repeat' first  | witstep

theorem within_uaddc {n : Nat} {R W : Loc → Prop} (c : Cfg) (r a b : Loc) (hr : Writable n W r) (ha : Readable n R W a) (hb : Readable n R W b) : Within n R W (uaddc c r a b) := by
  unfold uaddc
  repeat' first  | witstep

theorem within_iaddc {n : Nat} {R W : Loc → Prop} (c : Cfg) (r a b : Loc) (hr : Writable n W r) (ha : Readable n R W a) (hb : Readable n R W b) : Within n R W (iaddc c r a b) := by
  unfold iaddc
  repeat' first | with_reducible apply MemNative.within_add3 | witstep

theorem within_sub2 {n : Nat} {R W : Loc → Prop} (c : Cfg) (r a : Loc) (hr : Writable n W r) (ha : Readable n R W a) : Within n R W (sub2 c r a) := by
  unfold sub2
  repeat' first  | witstep

theorem within_sub3 {n : Nat} {R W : Loc → Prop} (c : Cfg) (r a b : Loc) (hr : Writable n W r) (ha : Readable n R W a) (hb : Readable n R W b) : Within n R W (sub3 c r a b) := by
  unfold sub3
  repeat' first  | witstep

theorem within_usubc {n : Nat} {R W : Loc → Prop} (c : Cfg) (r a b : Loc) (hr : Writable n W r) (ha : Readable n R W a) (hb : Readable n R W b) : Within n R W (usubc c r a b) := by
  unfold usubc
  repeat' first  | witstep

theorem within_isubc {n : Nat} {R W : Loc → Prop} (c : Cfg) (r a b : Loc) (hr : Writable n W r) (ha : Readable n R W a) (hb : Readable n R W b) : Within n R W (isubc c r a b) := by
  unfold isubc
  repeat' first | with_reducible apply MemNative.within_sub3 | witstep

theorem within_mul3 {n : Nat} {R W : Loc → Prop} (c : Cfg) (res a b : Loc) (hres : Writable n W res) (ha : Readable n R W a) (hb : Readable n R W b) : Within n R W (mul3 c res a b) := by
  unfold mul3
  repeat' first  | witstep

theorem within_mul2 {n : Nat} {R W : Loc → Prop} (c : Cfg) (r a : Loc) (hr : Writable n W r) (ha : Readable n R W a) : Within n R W (mul2 c r a) := by
  unfold mul2
  repeat' first | with_reducible apply MemNative.within_mul3 | witstep

theorem within_umulc {n : Nat} {R W : Loc → Prop} (c : Cfg) (r a b : Loc) (hr : Writable n W r) (ha : Readable n R W a) (hb : Readable n R W b) : Within n R W (umulc c r a b) := by
  unfold umulc
  repeat' first  | witstep

theorem within_imulc {n : Nat} {R W : Loc → Prop} (c : Cfg) (res a b : Loc) (hres : Writable n W res) (ha : Readable n R W a) (hb : Readable n R W b) : Within n R W (imulc c res a b) := by
  unfold imulc
  repeat' first | with_reducible apply MemNative.within_mul3 | witstep

theorem within_shl2 {n : Nat} {R W : Loc → Prop} (c : Cfg) (r : Loc) (a : U32) (hr : Writable n W r) : Within n R W (shl2 c r a) := by
  unfold shl2
  repeat' first  | witstep

theorem within_shl3 {n : Nat} {R W : Loc → Prop} (c : Cfg) (r a : Loc) (b : U32) (hr : Writable n W r) (ha : Readable n R W a) : Within n R W (shl3 c r a b) := by
  unfold shl3
  repeat' first  | witstep

theorem within_sar2 {n : Nat} {R W : Loc → Prop} (c : Cfg) (r : Loc) (a : U32) (hr : Writable n W r) : Within n R W (sar2 c r a) := by
  unfold sar2
  repeat' first  | witstep

theorem within_sar3 {n : Nat} {R W : Loc → Prop} (c : Cfg) (r a : Loc) (b : U32) (hr : Writable n W r) (ha : Readable n R W a) : Within n R W (sar3 c r a b) := by
  unfold sar3
  repeat' first  | witstep

theorem within_shr2 {n : Nat} {R W : Loc → Prop} (c : Cfg) (r : Loc) (a : U32) (hr : Writable n W r) : Within n R W (shr2 c r a) := by
  unfold shr2
  repeat' first  | witstep

theorem within_shr3 {n : Nat} {R W : Loc → Prop} (c : Cfg) (r a : Loc) (b : U32) (hr : Writable n W r) (ha : Readable n R W a) : Within n R W (shr3 c r a b) := by
  unfold shr3
  repeat' first  | witstep

theorem within_rol3 {n : Nat} {R W : Loc → Prop} (c : Cfg) (r a : Loc) (b : U32) (hr : Writable n W r) (ha : Readable n R W a) : Within n R W (rol3 c r a b) := by
  unfold rol3
  repeat' first  | witstep

theorem within_ror3 {n : Nat} {R W : Loc → Prop} (c : Cfg) (r a : Loc) (b : U32) (hr : Writable n W r) (ha : Readable n R W a) : Within n R W (ror3 c r a b) := by
  unfold ror3
  repeat' first  | witstep

end MemNative

namespace MemLlvm

theorem within_two {n : Nat} {R W : Loc → Prop} (f : U256 → U256 → U256) (r a : Loc) (hr : Writable n W r) (ha : Readable n R W a) : Within n R W (two f r a) := by
  unfold two
  repeat' first  | witstep

theorem within_three {n : Nat} {R W : Loc → Prop} (f : U256 → U256 → U256) (r a b : Loc) (hr : Writable n W r) (ha : Readable n R W a) (hb : Readable n R W b) : Within n R W (three f r a b) := by
  unfold three
  repeat' first  | witstep

theorem within_carry {n : Nat} {R W : Loc → Prop} (f : U256 → U256 → U256 × Bool) (r a b : Loc) (hr : Writable n W r) (ha : Readable n R W a) (hb : Readable n R W b) : Within n R W (carry f r a b) := by
  unfold carry
  repeat' first  | witstep

theorem within_icarry {n : Nat} {R W : Loc → Prop} (f : I256 → I256 → I256 × Bool) (r a b : Loc) (hr : Writable n W r) (ha : Readable n R W a) (hb : Readable n R W b) : Within n R W (icarry f r a b) := by
  unfold icarry
  repeat' first  | witstep

theorem within_shift2 {n : Nat} {R W : Loc → Prop} (f : U256 → U32 → U256) (r : Loc) (a : U32) (hr : Writable n W r) : Within n R W (shift2 f r a) := by
  unfold shift2
  repeat' first  | witstep

theorem within_shift3 {n : Nat} {R W : Loc → Prop} (f : U256 → U32 → U256) (r a : Loc) (b : U32) (hr : Writable n W r) (ha : Readable n R W a) : Within n R W (shift3 f r a b) := by
  unfold shift3
  repeat' first  | witstep

theorem within_ishift2 {n : Nat} {R W : Loc → Prop} (f : I256 → U32 → I256) (r : Loc) (a : U32) (hr : Writable n W r) : Within n R W (ishift2 f r a) := by
  unfold ishift2
  repeat' first  | witstep

theorem within_ishift3 {n : Nat} {R W : Loc → Prop} (f : I256 → U32 → I256) (r a : Loc) (b : U32) (hr : Writable n W r) (ha : Readable n R W a) : Within n R W (ishift3 f r a b) := by
  unfold ishift3
  repeat' first  | witstep

end MemLlvm

namespace MemIntr

theorem within_add2 {n : Nat} {R W : Loc → Prop} (c : Cfg) (r a : Loc) (hr : Writable n W r) (ha : Readable n R W a) : Within n R W (add2 c r a) := by
  unfold add2
  repeat' first | with_reducible apply MemNative.within_add2 | with_reducible apply MemLlvm.within_two | witstep

theorem within_add3 {n : Nat} {R W : Loc → Prop} (c : Cfg) (r a b : Loc) (hr : Writable n W r) (ha : Readable n R W a) (hb : Readable n R W b) : Within n R W (add3 c r a b) := by
  unfold add3
  repeat' first | with_reducible apply MemNative.within_add3 | with_reducible apply MemLlvm.within_three | witstep

theorem within_uaddc {n : Nat} {R W : Loc → Prop} (c : Cfg) (r a b : Loc) (hr : Writable n W r) (ha : Readable n R W a) (hb : Readable n R W b) : Within n R W (uaddc c r a b) := by
  unfold uaddc
  repeat' first | with_reducible apply MemNative.within_uaddc | with_reducible apply MemLlvm.within_carry | witstep

theorem within_iaddc {n : Nat} {R W : Loc → Prop} (c : Cfg) (r a b : Loc) (hr : Writable n W r) (ha : Readable n R W a) (hb : Readable n R W b) : Within n R W (iaddc c r a b) := by
  unfold iaddc
  repeat' first | with_reducible apply MemNative.within_iaddc | with_reducible apply MemLlvm.within_icarry | witstep

theorem within_sub2 {n : Nat} {R W : Loc → Prop} (c : Cfg) (r a : Loc) (hr : Writable n W r) (ha : Readable n R W a) : Within n R W (sub2 c r a) := by
  unfold sub2
  repeat' first | with_reducible apply MemNative.within_sub2 | with_reducible apply MemLlvm.within_two | witstep

theorem within_sub3 {n : Nat} {R W : Loc → Prop} (c : Cfg) (r a b : Loc) (hr : Writable n W r) (ha : Readable n R W a) (hb : Readable n R W b) : Within n R W (sub3 c r a b) := by
  unfold sub3
  repeat' first | with_reducible apply MemNative.within_sub3 | with_reducible apply MemLlvm.within_three | witstep

theorem within_usubc {n : Nat} {R W : Loc → Prop} (c : Cfg) (r a b : Loc) (hr : Writable n W r) (ha : Readable n R W a) (hb : Readable n R W b) : Within n R W (usubc c r a b) := by
  unfold usubc
  repeat' first | with_reducible apply MemNative.within_usubc | with_reducible apply MemLlvm.within_carry | witstep

theorem within_isubc {n : Nat} {R W : Loc → Prop} (c : Cfg) (r a b : Loc) (hr : Writable n W r) (ha : Readable n R W a) (hb : Readable n R W b) : Within n R W (isubc c r a b) := by
  unfold isubc
  repeat' first | with_reducible apply MemNative.within_isubc | with_reducible apply MemLlvm.within_icarry | witstep

theorem within_mul2 {n : Nat} {R W : Loc → Prop} (c : Cfg) (r a : Loc) (hr : Writable n W r) (ha : Readable n R W a) : Within n R W (mul2 c r a) := by
  unfold mul2
  repeat' first | with_reducible apply MemNative.within_mul2 | with_reducible apply MemLlvm.within_two | witstep

theorem within_mul3 {n : Nat} {R W : Loc → Prop} (c : Cfg) (r a b : Loc) (hr : Writable n W r) (ha : Readable n R W a) (hb : Readable n R W b) : Within n R W (mul3 c r a b) := by
  unfold mul3
  repeat' first | with_reducible apply MemNative.within_mul3 | with_reducible apply MemLlvm.within_three | witstep

theorem within_umulc {n : Nat} {R W : Loc → Prop} (c : Cfg) (r a b : Loc) (hr : Writable n W r) (ha : Readable n R W a) (hb : Readable n R W b) : Within n R W (umulc c r a b) := by
  unfold umulc
  repeat' first | with_reducible apply MemNative.within_umulc | with_reducible apply MemLlvm.within_carry | witstep

theorem within_shl2 {n : Nat} {R W : Loc → Prop} (c : Cfg) (r : Loc) (a : U32) (hr : Writable n W r) : Within n R W (shl2 c r a) := by
  unfold shl2
  repeat' first | with_reducible apply MemNative.within_shl2 | with_reducible apply MemLlvm.within_shift2 | witstep

theorem within_shl3 {n : Nat} {R W : Loc → Prop} (c : Cfg) (r a : Loc) (b : U32) (hr : Writable n W r) (ha : Readable n R W a) : Within n R W (shl3 c r a b) := by
  unfold shl3
  repeat' first | with_reducible apply MemNative.within_shl3 | with_reducible apply MemLlvm.within_shift3 | witstep

theorem within_sar2 {n : Nat} {R W : Loc → Prop} (c : Cfg) (r : Loc) (a : U32) (hr : Writable n W r) : Within n R W (sar2 c r a) := by
  unfold sar2
  repeat' first | with_reducible apply MemNative.within_sar2 | with_reducible apply MemLlvm.within_ishift2 | witstep

theorem within_sar3 {n : Nat} {R W : Loc → Prop} (c : Cfg) (r a : Loc) (b : U32) (hr : Writable n W r) (ha : Readable n R W a) : Within n R W (sar3 c r a b) := by
  unfold sar3
  repeat' first | with_reducible apply MemNative.within_sar3 | with_reducible apply MemLlvm.within_ishift3 | witstep

theorem within_shr2 {n : Nat} {R W : Loc → Prop} (c : Cfg) (r : Loc) (a : U32) (hr : Writable n W r) : Within n R W (shr2 c r a) := by
  unfold shr2
  repeat' first | with_reducible apply MemNative.within_shr2 | with_reducible apply MemLlvm.within_shift2 | witstep

theorem within_shr3 {n : Nat} {R W : Loc → Prop} (c : Cfg) (r a : Loc) (b : U32) (hr : Writable n W r) (ha : Readable n R W a) : Within n R W (shr3 c r a b) := by
  unfold shr3
  repeat' first | with_reducible apply MemNative.within_shr3 | with_reducible apply MemLlvm.within_shift3 | witstep

theorem within_rol3 {n : Nat} {R W : Loc → Prop} (c : Cfg) (r a : Loc) (b : U32) (hr : Writable n W r) (ha : Readable n R W a) : Within n R W (rol3 c r a b) := by
  unfold rol3
  repeat' first | with_reducible apply MemNative.within_rol3 | with_reducible apply MemLlvm.within_shift3 | witstep

theorem within_ror3 {n : Nat} {R W : Loc → Prop} (c : Cfg) (r a : Loc) (b : U32) (hr : Writable n W r) (ha : Readable n R W a) : Within n R W (ror3 c r a b) := by
  unfold ror3
  repeat' first | with_reducible apply MemNative.within_ror3 | with_reducible apply MemLlvm.within_shift3 | witstep

theorem within_udivmod4 {n : Nat} {R W : Loc → Prop} (c : Cfg) (res a b : Loc) (rem : Option Loc) (hres : Writable n W res) (ha : Readable n R W a) (hb : Readable n R W b) (hm : RemOk n W rem) : Within n R W (udivmod4 c res a b rem) := by
  rcases rem with _ | q <;> (try change Writable n W q at hm) <;> (unfold udivmod4; repeat' first  | witstep)

theorem within_udiv2 {n : Nat} {R W : Loc → Prop} (c : Cfg) (r a : Loc) (hr : Writable n W r) (ha : Readable n R W a) : Within n R W (udiv2 c r a) := by
  unfold udiv2
  repeat' first | with_reducible apply MemIntr.within_udivmod4 | witstep

theorem within_udiv3 {n : Nat} {R W : Loc → Prop} (c : Cfg) (r a b : Loc) (hr : Writable n W r) (ha : Readable n R W a) (hb : Readable n R W b) : Within n R W (udiv3 c r a b) := by
  unfold udiv3
  repeat' first | with_reducible apply MemIntr.within_udivmod4 | witstep

theorem within_urem2 {n : Nat} {R W : Loc → Prop} (c : Cfg) (r a : Loc) (hr : Writable n W r) (ha : Readable n R W a) : Within n R W (urem2 c r a) := by
  unfold urem2
  repeat' first | with_reducible apply MemIntr.within_udivmod4 | witstep

theorem within_urem3 {n : Nat} {R W : Loc → Prop} (c : Cfg) (r a b : Loc) (hr : Writable n W r) (ha : Readable n R W a) (hb : Readable n R W b) : Within n R W (urem3 c r a b) := by
  unfold urem3
  repeat' first | with_reducible apply MemIntr.within_udivmod4 | witstep

theorem within_idivmodSigns {n : Nat} {R W : Loc → Prop} (c : Cfg) (res : Loc) (rem : Option Loc) (s_a s_b : I256) (a b : Loc) (hres : Writable n W res) (hm : RemOk n W rem) (ha : Readable n R W a) (hb : Readable n R W b) : Within n R W (idivmodSigns c res rem s_a s_b a b) := by
  rcases rem with _ | q <;> (try change Writable n W q at hm) <;> (unfold idivmodSigns; repeat' first | with_reducible apply MemIntr.within_udivmod4 | witstep)

theorem within_idivmod4 {n : Nat} {R W : Loc → Prop} (c : Cfg) (res a b : Loc) (rem : Option Loc) (hres : Writable n W res) (ha : Readable n R W a) (hb : Readable n R W b) (hm : RemOk n W rem) : Within n R W (idivmod4 c res a b rem) := by
  unfold idivmod4
  repeat' first | with_reducible apply MemIntr.within_idivmodSigns | witstep

theorem within_idiv2 {n : Nat} {R W : Loc → Prop} (c : Cfg) (r a : Loc) (hr : Writable n W r) (ha : Readable n R W a) : Within n R W (idiv2 c r a) := by
  unfold idiv2
  repeat' first | with_reducible apply MemIntr.within_idivmod4 | witstep

theorem within_idiv3 {n : Nat} {R W : Loc → Prop} (c : Cfg) (r a b : Loc) (hr : Writable n W r) (ha : Readable n R W a) (hb : Readable n R W b) : Within n R W (idiv3 c r a b) := by
  unfold idiv3
  repeat' first | with_reducible apply MemIntr.within_idivmod4 | witstep

theorem within_irem2 {n : Nat} {R W : Loc → Prop} (c : Cfg) (r a : Loc) (hr : Writable n W r) (ha : Readable n R W a) : Within n R W (irem2 c r a) := by
  unfold irem2
  repeat' first | with_reducible apply MemIntr.within_idivmod4 | witstep

theorem within_irem3 {n : Nat} {R W : Loc → Prop} (c : Cfg) (r a b : Loc) (hr : Writable n W r) (ha : Readable n R W a) (hb : Readable n R W b) : Within n R W (irem3 c r a b) := by
  unfold irem3
  repeat' first | with_reducible apply MemIntr.within_idivmod4 | witstep

theorem within_imulc {n : Nat} {R W : Loc → Prop} (c : Cfg) (res a b : Loc) (hres : Writable n W res) (ha : Readable n R W a) (hb : Readable n R W b) : Within n R W (imulc c res a b) := by
  unfold imulc
  repeat' first | with_reducible apply MemNative.within_imulc | witstep

theorem within_iadd2 {n : Nat} {R W : Loc → Prop} (c : Cfg) (r a : Loc) (hr : Writable n W r) (ha : Readable n R W a) : Within n R W (iadd2 c r a) := by
  unfold iadd2
  repeat' first | with_reducible apply MemIntr.within_add2 | witstep

theorem within_iadd3 {n : Nat} {R W : Loc → Prop} (c : Cfg) (r a b : Loc) (hr : Writable n W r) (ha : Readable n R W a) (hb : Readable n R W b) : Within n R W (iadd3 c r a b) := by
  unfold iadd3
  repeat' first | with_reducible apply MemIntr.within_add3 | witstep

theorem within_isub2 {n : Nat} {R W : Loc → Prop} (c : Cfg) (r a : Loc) (hr : Writable n W r) (ha : Readable n R W a) : Within n R W (isub2 c r a) := by
  unfold isub2
  repeat' first | with_reducible apply MemIntr.within_sub2 | witstep

theorem within_isub3 {n : Nat} {R W : Loc → Prop} (c : Cfg) (r a b : Loc) (hr : Writable n W r) (ha : Readable n R W a) (hb : Readable n R W b) : Within n R W (isub3 c r a b) := by
  unfold isub3
  repeat' first | with_reducible apply MemIntr.within_sub3 | witstep

theorem within_imul2 {n : Nat} {R W : Loc → Prop} (c : Cfg) (r a : Loc) (hr : Writable n W r) (ha : Readable n R W a) : Within n R W (imul2 c r a) := by
  unfold imul2
  repeat' first | with_reducible apply MemIntr.within_mul2 | witstep

theorem within_imul3 {n : Nat} {R W : Loc → Prop} (c : Cfg) (r a b : Loc) (hr : Writable n W r) (ha : Readable n R W a) (hb : Readable n R W b) : Within n R W (imul3 c r a b) := by
  unfold imul3
  repeat' first | with_reducible apply MemIntr.within_mul3 | witstep

theorem within_ishl2 {n : Nat} {R W : Loc → Prop} (c : Cfg) (r : Loc) (a : U32) (hr : Writable n W r) : Within n R W (ishl2 c r a) := by
  unfold ishl2
  repeat' first | with_reducible apply MemIntr.within_shl2 | witstep

theorem within_ishl3 {n : Nat} {R W : Loc → Prop} (c : Cfg) (r a : Loc) (b : U32) (hr : Writable n W r) (ha : Readable n R W a) : Within n R W (ishl3 c r a b) := by
  unfold ishl3
  repeat' first | with_reducible apply MemIntr.within_shl3 | witstep

theorem within_irol3 {n : Nat} {R W : Loc → Prop} (c : Cfg) (r a : Loc) (b : U32) (hr : Writable n W r) (ha : Readable n R W a) : Within n R W (irol3 c r a b) := by
  unfold irol3
  repeat' first | with_reducible apply MemIntr.within_rol3 | witstep

theorem within_iror3 {n : Nat} {R W : Loc → Prop} (c : Cfg) (r a : Loc) (b : U32) (hr : Writable n W r) (ha : Readable n R W a) : Within n R W (iror3 c r a b) := by
  unfold iror3
  repeat' first | with_reducible apply MemIntr.within_ror3 | witstep

end MemIntr

namespace MemOps

end MemOps

namespace U256

theorem within_addM {n : Nat} {R W : Loc → Prop} (c : Cfg) (a b : Loc) (ha : Readable n R W a) (hb : Readable n R W b) : Within n R W (addM c a b) := by
  unfold addM MemOps.binop
  repeat' first | with_reducible apply MemIntr.within_add3 | with_reducible apply MemIntr.within_uaddc | witstep

theorem within_add_assignM {n : Nat} {R W : Loc → Prop} (c : Cfg) (a b : Loc) (ha : Writable n W a) (hb : Readable n R W b) : Within n R W (add_assignM c a b) := by
  unfold add_assignM MemOps.assign
  repeat' first | with_reducible apply MemIntr.within_add2 | with_reducible apply U256.within_addM | witstep

theorem within_subM {n : Nat} {R W : Loc → Prop} (c : Cfg) (a b : Loc) (ha : Readable n R W a) (hb : Readable n R W b) : Within n R W (subM c a b) := by
  unfold subM MemOps.binop
  repeat' first | with_reducible apply MemIntr.within_sub3 | with_reducible apply MemIntr.within_usubc | witstep

theorem within_sub_assignM {n : Nat} {R W : Loc → Prop} (c : Cfg) (a b : Loc) (ha : Writable n W a) (hb : Readable n R W b) : Within n R W (sub_assignM c a b) := by
  unfold sub_assignM MemOps.assign
  repeat' first | with_reducible apply MemIntr.within_sub2 | with_reducible apply U256.within_subM | witstep

theorem within_mulM {n : Nat} {R W : Loc → Prop} (c : Cfg) (a b : Loc) (ha : Readable n R W a) (hb : Readable n R W b) : Within n R W (mulM c a b) := by
  unfold mulM MemOps.binop
  repeat' first | with_reducible apply MemIntr.within_mul3 | with_reducible apply MemIntr.within_umulc | witstep

theorem within_mul_assignM {n : Nat} {R W : Loc → Prop} (c : Cfg) (a b : Loc) (ha : Writable n W a) (hb : Readable n R W b) : Within n R W (mul_assignM c a b) := by
  unfold mul_assignM MemOps.assign
  repeat' first | with_reducible apply MemIntr.within_mul2 | with_reducible apply U256.within_mulM | witstep

theorem within_divM {n : Nat} {R W : Loc → Prop} (c : Cfg) (a b : Loc) (ha : Readable n R W a) (hb : Readable n R W b) : Within n R W (divM c a b) := by
  unfold divM MemOps.divmod
  repeat' first | with_reducible apply MemIntr.within_udiv3 | witstep

theorem within_div_assignM {n : Nat} {R W : Loc → Prop} (c : Cfg) (a b : Loc) (ha : Writable n W a) (hb : Readable n R W b) : Within n R W (div_assignM c a b) := by
  unfold div_assignM MemOps.assign
  repeat' first | with_reducible apply MemIntr.within_udiv2 | with_reducible apply U256.within_divM | witstep

theorem within_remM {n : Nat} {R W : Loc → Prop} (c : Cfg) (a b : Loc) (ha : Readable n R W a) (hb : Readable n R W b) : Within n R W (remM c a b) := by
  unfold remM MemOps.divmod
  repeat' first | with_reducible apply MemIntr.within_urem3 | witstep

theorem within_rem_assignM {n : Nat} {R W : Loc → Prop} (c : Cfg) (a b : Loc) (ha : Writable n W a) (hb : Readable n R W b) : Within n R W (rem_assignM c a b) := by
  unfold rem_assignM MemOps.assign
  repeat' first | with_reducible apply MemIntr.within_urem2 | with_reducible apply U256.within_remM | witstep

theorem within_shlM {n : Nat} {R W : Loc → Prop} (c : Cfg) (a : Loc) (b : U32) (ha : Readable n R W a) : Within n R W (shlM c a b) := by
  unfold shlM MemOps.shift
  repeat' first | with_reducible apply MemIntr.within_shl3 | witstep

theorem within_shl_assignM {n : Nat} {R W : Loc → Prop} (c : Cfg) (a : Loc) (b : U32) (ha : Writable n W a) : Within n R W (shl_assignM c a b) := by
  unfold shl_assignM MemOps.assign
  repeat' first | with_reducible apply MemIntr.within_shl2 | with_reducible apply U256.within_shlM | witstep

theorem within_shrM {n : Nat} {R W : Loc → Prop} (c : Cfg) (a : Loc) (b : U32) (ha : Readable n R W a) : Within n R W (shrM c a b) := by
  unfold shrM MemOps.shift
  repeat' first | with_reducible apply MemIntr.within_shr3 | witstep

theorem within_shr_assignM {n : Nat} {R W : Loc → Prop} (c : Cfg) (a : Loc) (b : U32) (ha : Writable n W a) : Within n R W (shr_assignM c a b) := by
  unfold shr_assignM MemOps.assign
  repeat' first | with_reducible apply MemIntr.within_shr2 | with_reducible apply U256.within_shrM | witstep

theorem within_bitand_assignM {n : Nat} {R W : Loc → Prop} (a b : Loc) (ha : Writable n W a) (hb : Readable n R W b) : Within n R W (bitand_assignM a b) := by
  unfold bitand_assignM MemOps.bitwise
  repeat' first  | witstep

theorem within_bitor_assignM {n : Nat} {R W : Loc → Prop} (a b : Loc) (ha : Writable n W a) (hb : Readable n R W b) : Within n R W (bitor_assignM a b) := by
  unfold bitor_assignM MemOps.bitwise
  repeat' first  | witstep

theorem within_bitxor_assignM {n : Nat} {R W : Loc → Prop} (a b : Loc) (ha : Writable n W a) (hb : Readable n R W b) : Within n R W (bitxor_assignM a b) := by
  unfold bitxor_assignM MemOps.bitwise
  repeat' first  | witstep

theorem within_wrapping_addM {n : Nat} {R W : Loc → Prop} (c : Cfg) (a b : Loc) (ha : Readable n R W a) (hb : Readable n R W b) : Within n R W (wrapping_addM c a b) := by
  unfold wrapping_addM MemOps.out
  repeat' first | with_reducible apply MemIntr.within_add3 | witstep

theorem within_overflowing_addM {n : Nat} {R W : Loc → Prop} (c : Cfg) (a b : Loc) (ha : Readable n R W a) (hb : Readable n R W b) : Within n R W (overflowing_addM c a b) := by
  unfold overflowing_addM MemOps.outc
  repeat' first | with_reducible apply MemIntr.within_uaddc | witstep

theorem within_wrapping_subM {n : Nat} {R W : Loc → Prop} (c : Cfg) (a b : Loc) (ha : Readable n R W a) (hb : Readable n R W b) : Within n R W (wrapping_subM c a b) := by
  unfold wrapping_subM MemOps.out
  repeat' first | with_reducible apply MemIntr.within_sub3 | witstep

theorem within_overflowing_subM {n : Nat} {R W : Loc → Prop} (c : Cfg) (a b : Loc) (ha : Readable n R W a) (hb : Readable n R W b) : Within n R W (overflowing_subM c a b) := by
  unfold overflowing_subM MemOps.outc
  repeat' first | with_reducible apply MemIntr.within_usubc | witstep

theorem within_wrapping_mulM {n : Nat} {R W : Loc → Prop} (c : Cfg) (a b : Loc) (ha : Readable n R W a) (hb : Readable n R W b) : Within n R W (wrapping_mulM c a b) := by
  unfold wrapping_mulM MemOps.out
  repeat' first | with_reducible apply MemIntr.within_mul3 | witstep

theorem within_overflowing_mulM {n : Nat} {R W : Loc → Prop} (c : Cfg) (a b : Loc) (ha : Readable n R W a) (hb : Readable n R W b) : Within n R W (overflowing_mulM c a b) := by
  unfold overflowing_mulM MemOps.outc
  repeat' first | with_reducible apply MemIntr.within_umulc | witstep

theorem within_wrapping_shlM {n : Nat} {R W : Loc → Prop} (c : Cfg) (a : Loc) (b : U32) (ha : Readable n R W a) : Within n R W (wrapping_shlM c a b) := by
  unfold wrapping_shlM MemOps.out
  repeat' first | with_reducible apply MemIntr.within_shl3 | witstep

theorem within_wrapping_shrM {n : Nat} {R W : Loc → Prop} (c : Cfg) (a : Loc) (b : U32) (ha : Readable n R W a) : Within n R W (wrapping_shrM c a b) := by
  unfold wrapping_shrM MemOps.out
  repeat' first | with_reducible apply MemIntr.within_shr3 | witstep

theorem within_rotate_leftM {n : Nat} {R W : Loc → Prop} (c : Cfg) (a : Loc) (b : U32) (ha : Readable n R W a) : Within n R W (rotate_leftM c a b) := by
  unfold rotate_leftM MemOps.out
  repeat' first | with_reducible apply MemIntr.within_rol3 | witstep

theorem within_rotate_rightM {n : Nat} {R W : Loc → Prop} (c : Cfg) (a : Loc) (b : U32) (ha : Readable n R W a) : Within n R W (rotate_rightM c a b) := by
  unfold rotate_rightM MemOps.out
  repeat' first | with_reducible apply MemIntr.within_ror3 | witstep

theorem within_div_remM {n : Nat} {R W : Loc → Prop} (c : Cfg) (a b : Loc) (ha : Readable n R W a) (hb : Readable n R W b) : Within n R W (div_remM c a b) := by
  unfold div_remM MemOps.out2
  repeat' first | with_reducible apply MemIntr.within_udivmod4 | witstep

end U256

namespace I256

theorem within_addM {n : Nat} {R W : Loc → Prop} (c : Cfg) (a b : Loc) (ha : Readable n R W a) (hb : Readable n R W b) : Within n R W (addM c a b) := by
  unfold addM MemOps.binop
  repeat' first | with_reducible apply MemIntr.within_iaddc | with_reducible apply MemIntr.within_iadd3 | witstep

theorem within_add_assignM {n : Nat} {R W : Loc → Prop} (c : Cfg) (a b : Loc) (ha : Writable n W a) (hb : Readable n R W b) : Within n R W (add_assignM c a b) := by
  unfold add_assignM MemOps.assign
  repeat' first | with_reducible apply MemIntr.within_iadd2 | with_reducible apply I256.within_addM | witstep

theorem within_subM {n : Nat} {R W : Loc → Prop} (c : Cfg) (a b : Loc) (ha : Readable n R W a) (hb : Readable n R W b) : Within n R W (subM c a b) := by
  unfold subM MemOps.binop
  repeat' first | with_reducible apply MemIntr.within_isubc | with_reducible apply MemIntr.within_isub3 | witstep

theorem within_sub_assignM {n : Nat} {R W : Loc → Prop} (c : Cfg) (a b : Loc) (ha : Writable n W a) (hb : Readable n R W b) : Within n R W (sub_assignM c a b) := by
  unfold sub_assignM MemOps.assign
  repeat' first | with_reducible apply MemIntr.within_isub2 | with_reducible apply I256.within_subM | witstep

theorem within_mulM {n : Nat} {R W : Loc → Prop} (c : Cfg) (a b : Loc) (ha : Readable n R W a) (hb : Readable n R W b) : Within n R W (mulM c a b) := by
  unfold mulM MemOps.binop
  repeat' first | with_reducible apply MemIntr.within_imulc | with_reducible apply MemIntr.within_imul3 | witstep

theorem within_mul_assignM {n : Nat} {R W : Loc → Prop} (c : Cfg) (a b : Loc) (ha : Writable n W a) (hb : Readable n R W b) : Within n R W (mul_assignM c a b) := by
  unfold mul_assignM MemOps.assign
  repeat' first | with_reducible apply MemIntr.within_imul2 | with_reducible apply I256.within_mulM | witstep

theorem within_divM {n : Nat} {R W : Loc → Prop} (c : Cfg) (a b : Loc) (ha : Readable n R W a) (hb : Readable n R W b) : Within n R W (divM c a b) := by
  unfold divM MemOps.divmod
  repeat' first | with_reducible apply MemIntr.within_idiv3 | witstep

theorem within_div_assignM {n : Nat} {R W : Loc → Prop} (c : Cfg) (a b : Loc) (ha : Writable n W a) (hb : Readable n R W b) : Within n R W (div_assignM c a b) := by
  unfold div_assignM MemOps.assign
  repeat' first | with_reducible apply MemIntr.within_idiv2 | with_reducible apply I256.within_divM | witstep

theorem within_remM {n : Nat} {R W : Loc → Prop} (c : Cfg) (a b : Loc) (ha : Readable n R W a) (hb : Readable n R W b) : Within n R W (remM c a b) := by
  unfold remM MemOps.divmod
  repeat' first | with_reducible apply MemIntr.within_irem3 | witstep

theorem within_rem_assignM {n : Nat} {R W : Loc → Prop} (c : Cfg) (a b : Loc) (ha : Writable n W a) (hb : Readable n R W b) : Within n R W (rem_assignM c a b) := by
  unfold rem_assignM MemOps.assign
  repeat' first | with_reducible apply MemIntr.within_irem2 | with_reducible apply I256.within_remM | witstep

theorem within_shlM {n : Nat} {R W : Loc → Prop} (c : Cfg) (a : Loc) (b : U32) (ha : Readable n R W a) : Within n R W (shlM c a b) := by
  unfold shlM MemOps.shift
  repeat' first | with_reducible apply MemIntr.within_ishl3 | witstep

theorem within_shl_assignM {n : Nat} {R W : Loc → Prop} (c : Cfg) (a : Loc) (b : U32) (ha : Writable n W a) : Within n R W (shl_assignM c a b) := by
  unfold shl_assignM MemOps.assign
  repeat' first | with_reducible apply MemIntr.within_ishl2 | with_reducible apply I256.within_shlM | witstep

theorem within_shrM {n : Nat} {R W : Loc → Prop} (c : Cfg) (a : Loc) (b : U32) (ha : Readable n R W a) : Within n R W (shrM c a b) := by
  unfold shrM MemOps.shift
  repeat' first | with_reducible apply MemIntr.within_sar3 | witstep

theorem within_shr_assignM {n : Nat} {R W : Loc → Prop} (c : Cfg) (a : Loc) (b : U32) (ha : Writable n W a) : Within n R W (shr_assignM c a b) := by
  unfold shr_assignM MemOps.assign
  repeat' first | with_reducible apply MemIntr.within_sar2 | with_reducible apply I256.within_shrM | witstep

theorem within_bitand_assignM {n : Nat} {R W : Loc → Prop} (a b : Loc) (ha : Writable n W a) (hb : Readable n R W b) : Within n R W (bitand_assignM a b) := by
  unfold bitand_assignM MemOps.bitwise
  repeat' first  | witstep

theorem within_bitor_assignM {n : Nat} {R W : Loc → Prop} (a b : Loc) (ha : Writable n W a) (hb : Readable n R W b) : Within n R W (bitor_assignM a b) := by
  unfold bitor_assignM MemOps.bitwise
  repeat' first  | witstep

theorem within_bitxor_assignM {n : Nat} {R W : Loc → Prop} (a b : Loc) (ha : Writable n W a) (hb : Readable n R W b) : Within n R W (bitxor_assignM a b) := by
  unfold bitxor_assignM MemOps.bitwise
  repeat' first  | witstep

theorem within_wrapping_addM {n : Nat} {R W : Loc → Prop} (c : Cfg) (a b : Loc) (ha : Readable n R W a) (hb : Readable n R W b) : Within n R W (wrapping_addM c a b) := by
  unfold wrapping_addM MemOps.out
  repeat' first | with_reducible apply MemIntr.within_iadd3 | witstep

theorem within_overflowing_addM {n : Nat} {R W : Loc → Prop} (c : Cfg) (a b : Loc) (ha : Readable n R W a) (hb : Readable n R W b) : Within n R W (overflowing_addM c a b) := by
  unfold overflowing_addM MemOps.outc
  repeat' first | with_reducible apply MemIntr.within_iaddc | witstep

theorem within_wrapping_subM {n : Nat} {R W : Loc → Prop} (c : Cfg) (a b : Loc) (ha : Readable n R W a) (hb : Readable n R W b) : Within n R W (wrapping_subM c a b) := by
  unfold wrapping_subM MemOps.out
  repeat' first | with_reducible apply MemIntr.within_isub3 | witstep

theorem within_overflowing_subM {n : Nat} {R W : Loc → Prop} (c : Cfg) (a b : Loc) (ha : Readable n R W a) (hb : Readable n R W b) : Within n R W (overflowing_subM c a b) := by
  unfold overflowing_subM MemOps.outc
  repeat' first | with_reducible apply MemIntr.within_isubc | witstep

theorem within_wrapping_mulM {n : Nat} {R W : Loc → Prop} (c : Cfg) (a b : Loc) (ha : Readable n R W a) (hb : Readable n R W b) : Within n R W (wrapping_mulM c a b) := by
  unfold wrapping_mulM MemOps.out
  repeat' first | with_reducible apply MemIntr.within_imul3 | witstep

theorem within_overflowing_mulM {n : Nat} {R W : Loc → Prop} (c : Cfg) (a b : Loc) (ha : Readable n R W a) (hb : Readable n R W b) : Within n R W (overflowing_mulM c a b) := by
  unfold overflowing_mulM MemOps.outc
  repeat' first | with_reducible apply MemIntr.within_imulc | witstep

theorem within_wrapping_shlM {n : Nat} {R W : Loc → Prop} (c : Cfg) (a : Loc) (b : U32) (ha : Readable n R W a) : Within n R W (wrapping_shlM c a b) := by
  unfold wrapping_shlM MemOps.out
  repeat' first | with_reducible apply MemIntr.within_ishl3 | witstep

theorem within_wrapping_shrM {n : Nat} {R W : Loc → Prop} (c : Cfg) (a : Loc) (b : U32) (ha : Readable n R W a) : Within n R W (wrapping_shrM c a b) := by
  unfold wrapping_shrM MemOps.out
  repeat' first | with_reducible apply MemIntr.within_sar3 | witstep

theorem within_rotate_leftM {n : Nat} {R W : Loc → Prop} (c : Cfg) (a : Loc) (b : U32) (ha : Readable n R W a) : Within n R W (rotate_leftM c a b) := by
  unfold rotate_leftM MemOps.out
  repeat' first | with_reducible apply MemIntr.within_irol3 | witstep

theorem within_rotate_rightM {n : Nat} {R W : Loc → Prop} (c : Cfg) (a : Loc) (b : U32) (ha : Readable n R W a) : Within n R W (rotate_rightM c a b) := by
  unfold rotate_rightM MemOps.out
  repeat' first | with_reducible apply MemIntr.within_iror3 | witstep

theorem within_wrapping_div_remM {n : Nat} {R W : Loc → Prop} (c : Cfg) (a b : Loc) (ha : Readable n R W a) (hb : Readable n R W b) : Within n R W (wrapping_div_remM c a b) := by
  unfold wrapping_div_remM MemOps.out2
  repeat' first | with_reducible apply MemIntr.within_idivmod4 | witstep

theorem within_checked_div_remM {n : Nat} {R W : Loc → Prop} (c : Cfg) (a b : Loc) (ha : Readable n R W a) (hb : Readable n R W b) : Within n R W (checked_div_remM c a b) := by
  unfold checked_div_remM MemOps.out2
  repeat' first | with_reducible apply MemIntr.within_idivmod4 | witstep

theorem within_checked_divM {n : Nat} {R W : Loc → Prop} (c : Cfg) (a b : Loc) (ha : Readable n R W a) (hb : Readable n R W b) : Within n R W (checked_divM c a b) := by
  unfold checked_divM MemOps.out
  repeat' first | with_reducible apply MemIntr.within_idiv3 | witstep

theorem within_checked_remM {n : Nat} {R W : Loc → Prop} (c : Cfg) (a b : Loc) (ha : Readable n R W a) (hb : Readable n R W b) : Within n R W (checked_remM c a b) := by
  unfold checked_remM MemOps.out
  repeat' first | with_reducible apply MemIntr.within_irem3 | witstep

end I256

end Ethnum.Steps
