import Verif.Model.Mem
import Verif.Proofs.IntApi
import Verif.Proofs.DivMod

namespace Ethnum
open M

/-! ### The memory -/

theorem M.bind_apply {α β : Type} (m : M α) (k : α → M β) (s : Mem) :
    (m >>= k) s = match m s with | (.ok x, s) => k x s | (.error e, s) => (.error e, s) := rfl
theorem M.pure_apply {α : Type} (x : α) (s : Mem) : (pure x : M α) s = (.ok x, s) := rfl
theorem M.lift_apply {α : Type} (r : Res α) (s : Mem) : lift r s = (r, s) := rfl
theorem M.withLocal_apply {α : Type} (x : Cell) (k : Loc → M α) (s : Mem) :
    withLocal x k s = ((k s.length (s ++ [x])).1, (k s.length (s ++ [x])).2.take s.length) := rfl

theorem M.ite_apply {α : Type} (p : Prop) [Decidable p] (m k : M α) (s : Mem) :
    (if p then m else k) s = if p then m s else k s := by split <;> rfl

/-- Object `p` holds `x`. -/
def Has (s : Mem) (p : Loc) (x : U256) : Prop := s[p]? = some (Cell.ofU x)

variable {s : Mem} {p q r a b : Loc} {x y v : U256} {c : Cfg}

theorem Has.lt (h : Has s p x) : p < s.length := by
  unfold Has at h
  exact (List.getElem?_eq_some_iff.1 h).1

theorem rd0_of (h : Has s p x) : rd0 p s = (.ok x.w0, s) := by unfold Has at h; simp [rd0, h, Cell.ofU]
theorem rd1_of (h : Has s p x) : rd1 p s = (.ok x.w1, s) := by unfold Has at h; simp [rd1, h, Cell.ofU]
theorem low_of (h : Has s p x) : low c p s = (.ok (x.low c), s) := by
  unfold low U256.low; split <;> simp_all [rd0_of h, rd1_of h]
theorem high_of (h : Has s p x) : high c p s = (.ok (x.high c), s) := by
  unfold high U256.high; split <;> simp_all [rd0_of h, rd1_of h]
theorem rd_of (h : Has s p x) : rd p s = (.ok x, s) := by
  simp [rd, M.bind_apply, rd0_of h, rd1_of h, M.pure_apply]
theorem ird_of (h : Has s p x) : ird p s = (.ok x.as_i256, s) := by
  simp [ird, M.bind_apply, rd0_of h, rd1_of h, M.pure_apply, U256.as_i256]
theorem wr_of (h : p < s.length) : wr p v s = (.ok (), s.set p (Cell.ofU v)) := by
  simp [wr, M.bind_apply, wr0, wr1, h, Cell.ofU]
theorem iwr_of (h : p < s.length) (v : I256) : iwr p v s = (.ok (), s.set p (Cell.ofU v.as_u256)) := by
  simp [iwr, M.bind_apply, wr0, wr1, h, Cell.ofU, I256.as_u256]

theorem Has.set_self (h : p < s.length) : Has (s.set p (Cell.ofU v)) p v := by simp [Has, h]
theorem Has.set_ne {w : Cell} (h : Has s p x) (hn : r ≠ p) : Has (s.set r w) p x := by
  unfold Has at *; rw [List.getElem?_set_ne hn, h]
theorem Has.append {w : Mem} (h : Has s p x) : Has (s ++ w) p x := by
  have := h.lt
  unfold Has at *; rw [List.getElem?_append_left this, h]
theorem Has.last : Has (s ++ [Cell.ofU v]) s.length v := by simp [Has]

/-- A result written to object `r`: on a fault nothing is written. -/
def Step (s : Mem) (r : Loc) : Res U256 → Res Unit × Mem
  | .ok v => (.ok (), s.set r (Cell.ofU v))
  | .error e => (.error e, s)

/-- A result with a flag: the value is written to object `r`, the flag returned. -/
def StepB (s : Mem) (r : Loc) : Res (U256 × Bool) → Res Bool × Mem
  | .ok (v, o) => (.ok o, s.set r (Cell.ofU v))
  | .error e => (.error e, s)

theorem M.match_ok {α β : Type} (x : α) (s : Mem) (f : α → Mem → Res β × Mem) :
    (match ((.ok x : Res α), s) with | (.ok x, s) => f x s | (.error e, s) => (.error e, s)) = f x s := rfl

/-! ### The native routines -/

namespace MemNative

theorem add3_eq (ha : Has s a x) (hb : Has s b y) (hr : r < s.length) :
    add3 c r a b s = Step s r (.ok (Native.add3 c x y)) := by
  simp only [add3, M.bind_apply, low_of ha, low_of hb, high_of ha, high_of hb, wr_of hr]; rfl
theorem uaddc_eq (ha : Has s a x) (hb : Has s b y) (hr : r < s.length) :
    uaddc c r a b s = StepB s r (.ok (Native.uaddc c x y)) := by
  simp only [uaddc, M.bind_apply, low_of ha, low_of hb, high_of ha, high_of hb, wr_of hr]; rfl
theorem sub3_eq (ha : Has s a x) (hb : Has s b y) (hr : r < s.length) :
    sub3 c r a b s = Step s r (.ok (Native.sub3 c x y)) := by
  simp only [sub3, M.bind_apply, low_of ha, low_of hb, high_of ha, high_of hb, wr_of hr]; rfl
theorem usubc_eq (ha : Has s a x) (hb : Has s b y) (hr : r < s.length) :
    usubc c r a b s = StepB s r (.ok (Native.usubc c x y)) := by
  simp only [usubc, M.bind_apply, low_of ha, low_of hb, high_of ha, high_of hb, wr_of hr]; rfl

theorem iaddc_eq (ha : Has s a x) (hb : Has s b y) (hr : r < s.length) (hra : r ≠ a) (hrb : r ≠ b) :
    iaddc c r a b s = StepB s r (.ok ((Native.iaddc c x.as_i256 y.as_i256).1.as_u256,
      (Native.iaddc c x.as_i256 y.as_i256).2)) := by
  simp only [iaddc, M.bind_apply, add3_eq ha hb hr, Step, ird_of (Has.set_self hr), ird_of (ha.set_ne hra),
    ird_of (hb.set_ne hrb), M.pure_apply]
  rfl
theorem isubc_eq (ha : Has s a x) (hb : Has s b y) (hr : r < s.length) (hra : r ≠ a) (hrb : r ≠ b) :
    isubc c r a b s = StepB s r (.ok ((Native.isubc c x.as_i256 y.as_i256).1.as_u256,
      (Native.isubc c x.as_i256 y.as_i256).2)) := by
  simp only [isubc, M.bind_apply, sub3_eq ha hb hr, Step, ird_of (Has.set_self hr), ird_of (ha.set_ne hra),
    ird_of (hb.set_ne hrb), M.pure_apply]
  rfl

theorem setLow_of (h : Has s p x) (w : U128) : setLow c p w s = (.ok (), s.set p (Cell.ofU (x.set_low c w))) := by
  have := h.lt
  unfold Has at h
  unfold setLow U256.set_low; split <;> simp_all [wr0, wr1, Cell.ofU]
theorem setHigh_of (h : Has s p x) (w : U128) : setHigh c p w s = (.ok (), s.set p (Cell.ofU (x.set_high c w))) := by
  have := h.lt
  unfold Has at h
  unfold setHigh U256.set_high; split <;> simp_all [wr0, wr1, Cell.ofU]

theorem add2_eq (hr : Has s r x) (ha : Has s a y) (hra : r ≠ a) :
    add2 c r a s = Step s r (.ok (Native.add2 c x y)) := by
  simp only [add2, M.bind_apply, low_of hr, low_of ha, setLow_of hr]
  simp only [high_of (Has.set_self hr.lt), high_of (ha.set_ne hra), setHigh_of (Has.set_self hr.lt), List.set_set]
  rfl
theorem sub2_eq (hr : Has s r x) (ha : Has s a y) (hra : r ≠ a) :
    sub2 c r a s = Step s r (.ok (Native.sub2 c x y)) := by
  simp only [sub2, M.bind_apply, low_of hr, low_of ha, setLow_of hr]
  simp only [high_of (Has.set_self hr.lt), high_of (ha.set_ne hra), setHigh_of (Has.set_self hr.lt), List.set_set]
  rfl

theorem mul3_eq (ha : Has s a x) (hb : Has s b y) (hr : r < s.length) :
    mul3 c r a b s = Step s r (Native.mul3 c x y) := by
  simp only [mul3, M.bind_apply, low_of ha, low_of hb, high_of ha, high_of hb, wr_of hr, M.lift_apply,
    Native.mul3, Native.umulddi3_eq]
  rfl

theorem Step_local {res : Res U256} {w : Cell} (hr : r < s.length) :
    ((Step (s ++ [w]) r res).1, (Step (s ++ [w]) r res).2.take s.length) = Step s r res := by
  cases res with
  | ok v => simp [Step, List.set_append_left _ _ hr]
  | error e => simp [Step]

theorem lt_append {w : Mem} (h : r < s.length) : r < (s ++ w).length := by
  rw [List.length_append]; exact Nat.lt_add_right _ h

theorem mul2_eq (hr : Has s r x) (ha : Has s a y) :
    mul2 c r a s = Step s r (Native.mul2 c x y) := by
  simp only [mul2, M.bind_apply, rd_of hr, M.withLocal_apply]
  rw [mul3_eq Has.last ha.append (lt_append hr.lt), Step_local hr.lt]
  rfl

theorem umulc_eq (ha : Has s a x) (hb : Has s b y) (hr : r < s.length) :
    umulc c r a b s = StepB s r (Native.umulc c x y) := by
  simp only [umulc, M.bind_apply, low_of ha, low_of hb, high_of ha, high_of hb, wr_of hr, M.lift_apply,
    Native.umulc, Native.umulddi3_eq]
  rfl

theorem imulc_split (u v : I256) : Intr.imulc c u v =
    (do let r ← Native.mul3 c u.as_u256 v.as_u256; let o ← imulcFlag c u v; return (r.as_i256, o)) := by
  unfold Intr.imulc imulcFlag
  cases Native.mul3 c u.as_u256 v.as_u256 with
  | error e => rfl
  | ok r =>
    simp only [bind, pure, Except.bind, Except.pure]
    split <;> try rfl
    split <;> try rfl
    cases u.shr c (I256.BITS - 1) <;> try rfl
    cases v.shr c (I256.BITS - 1) <;> try rfl
    try dsimp only
    split <;> try rfl
    split
    · cases (I256.MAX c).div c _ <;> rfl
    · try dsimp only
      cases ((v.bitxor _).wrapping_sub c _).neg c <;> try rfl
      try dsimp only
      cases (I256.MIN c).div c _ <;> rfl

theorem imulc_eq (ha : Has s a x) (hb : Has s b y) (hr : r < s.length) (hra : r ≠ a) (hrb : r ≠ b) :
    imulc c r a b s = StepB s r (do let (v, o) ← Intr.imulc c x.as_i256 y.as_i256; return (v.as_u256, o)) := by
  have h := Intr.imulc_eq c x.as_i256 y.as_i256
  rw [imulc_split] at h
  change (do let r ← Native.mul3 c x y; let o ← imulcFlag c x.as_i256 y.as_i256; return (r.as_i256, o)) = _ at h
  rw [imulc_split]
  change _ = StepB s r (do
    let (v, o) ← (do let r ← Native.mul3 c x y; let o ← imulcFlag c x.as_i256 y.as_i256; return (r.as_i256, o))
    return (v.as_u256, o))
  simp only [imulc, M.bind_apply, mul3_eq ha hb hr]
  cases hm : Native.mul3 c x y with
  | error e => rfl
  | ok v =>
    simp only [Step, ird_of (ha.set_ne hra), ird_of (hb.set_ne hrb), M.lift_apply]
    cases hf : imulcFlag c x.as_i256 y.as_i256 with
    | error e => rw [hm, hf] at h; simp [bind, Except.bind] at h
    | ok o => rfl

theorem lift_wr {e : Res U256} (hr : r < s.length) : (lift e >>= fun v => wr r v) s = Step s r e := by
  cases e with
  | ok v => simp only [M.bind_apply, M.lift_apply, wr_of hr, Step]
  | error e => rfl

/-- The I256 result of a routine, as the words it writes. -/
def asU (e : Res I256) : Res U256 := do return (← e).as_u256

theorem lift_iwr {e : Res I256} (hr : r < s.length) : (lift e >>= fun v => iwr r v) s = Step s r (asU e) := by
  cases e with
  | ok v => simp only [M.bind_apply, M.lift_apply, iwr_of hr]; rfl
  | error e => rfl

theorem set_has (h : Has s r x) : s.set r (Cell.ofU x) = s := by
  have hl := h.lt
  unfold Has at h
  rw [List.getElem?_eq_some_iff] at h
  obtain ⟨_, h⟩ := h
  rw [← h, List.set_getElem_self]

theorem shl3_eq (ha : Has s a x) (hr : r < s.length) (n : U32) :
    shl3 c r a n s = Step s r (Native.shl3 c x n) := by
  unfold shl3 Native.shl3
  rw [M.bind_apply, M.lift_apply]
  cases debugAssert c (decide (n < 256)) with
  | error e => rfl
  | ok u =>
    rw [ok_bind]
    dsimp only
    rw [M.ite_apply]
    by_cases h0 : n = 0
    · rw [if_pos h0, if_pos h0]
      simp only [M.bind_apply, high_of ha, low_of ha, wr_of hr]; rfl
    · rw [if_neg h0, if_neg h0, M.ite_apply]
      by_cases h1 : n < 128
      · rw [if_pos h1, if_pos h1, M.bind_apply, high_of ha]
        dsimp only
        rw [M.bind_apply, low_of ha]
        exact lift_wr hr
      · rw [if_neg h1, if_neg h1, M.bind_apply, low_of ha]
        exact lift_wr hr

theorem shl2_eq (hr : Has s r x) (n : U32) :
    shl2 c r n s = Step s r (Native.shl2 c x n) := by
  unfold shl2 Native.shl2
  rw [M.bind_apply, M.lift_apply]
  cases debugAssert c (decide (n < 256)) with
  | error e => rfl
  | ok u =>
    rw [ok_bind]
    dsimp only
    rw [M.ite_apply]
    by_cases h0 : n = 0
    · rw [if_pos h0, if_pos h0]
      change (_, s) = (_, s.set r (Cell.ofU x))
      rw [set_has hr]
    · rw [if_neg h0, if_neg h0, M.ite_apply]
      by_cases h1 : n < 128
      · rw [if_pos h1, if_pos h1, M.bind_apply, high_of hr]
        dsimp only
        rw [M.bind_apply, low_of hr]
        exact lift_wr hr.lt
      · rw [if_neg h1, if_neg h1, M.bind_apply, low_of hr]
        exact lift_wr hr.lt

theorem shr3_eq (ha : Has s a x) (hr : r < s.length) (n : U32) :
    shr3 c r a n s = Step s r (Native.shr3 c x n) := by
  unfold shr3 Native.shr3
  rw [M.bind_apply, M.lift_apply]
  cases debugAssert c (decide (n < 256)) with
  | error e => rfl
  | ok u =>
    rw [ok_bind]
    dsimp only
    rw [M.ite_apply]
    by_cases h0 : n = 0
    · rw [if_pos h0, if_pos h0]
      simp only [M.bind_apply, high_of ha, low_of ha, wr_of hr]; rfl
    · rw [if_neg h0, if_neg h0, M.ite_apply]
      by_cases h1 : n < 128
      · rw [if_pos h1, if_pos h1, M.bind_apply, high_of ha]
        dsimp only
        rw [M.bind_apply, low_of ha]
        exact lift_wr hr
      · rw [if_neg h1, if_neg h1, M.bind_apply, high_of ha]
        exact lift_wr hr

theorem shr2_eq (hr : Has s r x) (n : U32) :
    shr2 c r n s = Step s r (Native.shr2 c x n) := by
  unfold shr2 Native.shr2
  rw [M.bind_apply, M.lift_apply]
  cases debugAssert c (decide (n < 256)) with
  | error e => rfl
  | ok u =>
    rw [ok_bind]
    dsimp only
    rw [M.ite_apply]
    by_cases h0 : n = 0
    · rw [if_pos h0, if_pos h0]
      change (_, s) = (_, s.set r (Cell.ofU x))
      rw [set_has hr]
    · rw [if_neg h0, if_neg h0, M.ite_apply]
      by_cases h1 : n < 128
      · rw [if_pos h1, if_pos h1, M.bind_apply, high_of hr]
        dsimp only
        rw [M.bind_apply, low_of hr]
        exact lift_wr hr.lt
      · rw [if_neg h1, if_neg h1, M.bind_apply, high_of hr]
        exact lift_wr hr.lt

theorem sar3_eq (ha : Has s a x) (hr : r < s.length) (n : U32) :
    sar3 c r a n s = Step s r (asU (Native.sar3 c x.as_i256 n)) := by
  unfold sar3 Native.sar3
  rw [M.bind_apply, M.lift_apply]
  cases debugAssert c (decide (n < 256)) with
  | error e => rfl
  | ok u =>
    rw [ok_bind]
    dsimp only
    rw [M.ite_apply]
    by_cases h0 : n = 0
    · rw [if_pos h0, if_pos h0]
      simp only [M.bind_apply, high_of ha, low_of ha, iwr_of hr]; rfl
    · rw [if_neg h0, if_neg h0, M.ite_apply]
      by_cases h1 : n < 128
      · rw [if_pos h1, if_pos h1, M.bind_apply, high_of ha]
        dsimp only
        rw [M.bind_apply, low_of ha]
        exact lift_iwr hr
      · rw [if_neg h1, if_neg h1, M.bind_apply, high_of ha]
        exact lift_iwr hr

theorem sar2_eq (hr : Has s r x) (n : U32) :
    sar2 c r n s = Step s r (asU (Native.sar2 c x.as_i256 n)) := by
  unfold sar2 Native.sar2
  rw [M.bind_apply, M.lift_apply]
  cases debugAssert c (decide (n < 256)) with
  | error e => rfl
  | ok u =>
    rw [ok_bind]
    dsimp only
    rw [M.ite_apply]
    by_cases h0 : n = 0
    · rw [if_pos h0, if_pos h0]
      change (_, s) = (_, s.set r (Cell.ofU x))
      rw [set_has hr]
    · rw [if_neg h0, if_neg h0, M.ite_apply]
      by_cases h1 : n < 128
      · rw [if_pos h1, if_pos h1, M.bind_apply, high_of hr]
        dsimp only
        rw [M.bind_apply, low_of hr]
        exact lift_iwr hr.lt
      · rw [if_neg h1, if_neg h1, M.bind_apply, high_of hr]
        exact lift_iwr hr.lt

theorem rol3_eq (ha : Has s a x) (hr : r < s.length) (n : U32) :
    rol3 c r a n s = Step s r (Native.rol3 c x n) := by
  unfold rol3
  rw [M.bind_apply, rd_of ha]
  exact lift_wr hr
theorem ror3_eq (ha : Has s a x) (hr : r < s.length) (n : U32) :
    ror3 c r a n s = Step s r (Native.ror3 c x n) := by
  unfold ror3
  rw [M.bind_apply, rd_of ha]
  exact lift_wr hr

end MemNative

/-! ### The routines of the selected back-end -/

namespace MemIntr
open MemNative

theorem add3_eq (ha : Has s a x) (hb : Has s b y) (hr : r < s.length) :
    add3 c r a b s = Step s r (.ok (Intr.add3 c x y)) := by
  unfold add3 Intr.add3
  split
  · simp only [MemLlvm.three, M.bind_apply, rd_of ha, rd_of hb, wr_of hr]; rfl
  · exact MemNative.add3_eq ha hb hr
theorem sub3_eq (ha : Has s a x) (hb : Has s b y) (hr : r < s.length) :
    sub3 c r a b s = Step s r (.ok (Intr.sub3 c x y)) := by
  unfold sub3 Intr.sub3
  split
  · simp only [MemLlvm.three, M.bind_apply, rd_of ha, rd_of hb, wr_of hr]; rfl
  · exact MemNative.sub3_eq ha hb hr
theorem mul3_eq (ha : Has s a x) (hb : Has s b y) (hr : r < s.length) :
    mul3 c r a b s = Step s r (Intr.mul3 c x y) := by
  unfold mul3 Intr.mul3
  split
  · simp only [MemLlvm.three, M.bind_apply, rd_of ha, rd_of hb, wr_of hr]; rfl
  · exact MemNative.mul3_eq ha hb hr
theorem add2_eq (hr : Has s r x) (ha : Has s a y) (hra : r ≠ a) :
    add2 c r a s = Step s r (.ok (Intr.add2 c x y)) := by
  unfold add2 Intr.add2
  split
  · simp only [MemLlvm.two, M.bind_apply, rd_of hr, rd_of ha, wr_of hr.lt]; rfl
  · exact MemNative.add2_eq hr ha hra
theorem sub2_eq (hr : Has s r x) (ha : Has s a y) (hra : r ≠ a) :
    sub2 c r a s = Step s r (.ok (Intr.sub2 c x y)) := by
  unfold sub2 Intr.sub2
  split
  · simp only [MemLlvm.two, M.bind_apply, rd_of hr, rd_of ha, wr_of hr.lt]; rfl
  · exact MemNative.sub2_eq hr ha hra
theorem mul2_eq (hr : Has s r x) (ha : Has s a y) :
    mul2 c r a s = Step s r (Intr.mul2 c x y) := by
  unfold mul2 Intr.mul2
  split
  · simp only [MemLlvm.two, M.bind_apply, rd_of hr, rd_of ha, wr_of hr.lt]; rfl
  · exact MemNative.mul2_eq hr ha
theorem uaddc_eq (ha : Has s a x) (hb : Has s b y) (hr : r < s.length) :
    uaddc c r a b s = StepB s r (.ok (Intr.uaddc c x y)) := by
  unfold uaddc Intr.uaddc
  split
  · simp only [MemLlvm.carry, M.bind_apply, rd_of ha, rd_of hb, wr_of hr]; rfl
  · exact MemNative.uaddc_eq ha hb hr
theorem usubc_eq (ha : Has s a x) (hb : Has s b y) (hr : r < s.length) :
    usubc c r a b s = StepB s r (.ok (Intr.usubc c x y)) := by
  unfold usubc Intr.usubc
  split
  · simp only [MemLlvm.carry, M.bind_apply, rd_of ha, rd_of hb, wr_of hr]; rfl
  · exact MemNative.usubc_eq ha hb hr
theorem umulc_eq (ha : Has s a x) (hb : Has s b y) (hr : r < s.length) :
    umulc c r a b s = StepB s r (Intr.umulc c x y) := by
  unfold umulc Intr.umulc
  split
  · simp only [MemLlvm.carry, M.bind_apply, rd_of ha, rd_of hb, wr_of hr]; rfl
  · exact MemNative.umulc_eq ha hb hr
/-- The I256 result of a routine with a flag, as the words it writes. -/
def asUB (e : Res (I256 × Bool)) : Res (U256 × Bool) := do let (v, o) ← e; return (v.as_u256, o)

theorem iaddc_eq (ha : Has s a x) (hb : Has s b y) (hr : r < s.length) (hra : r ≠ a) (hrb : r ≠ b) :
    iaddc c r a b s = StepB s r (asUB (.ok (Intr.iaddc c x.as_i256 y.as_i256))) := by
  unfold iaddc Intr.iaddc
  split
  · simp only [MemLlvm.icarry, M.bind_apply, ird_of ha, ird_of hb, iwr_of hr]; rfl
  · exact MemNative.iaddc_eq ha hb hr hra hrb
theorem isubc_eq (ha : Has s a x) (hb : Has s b y) (hr : r < s.length) (hra : r ≠ a) (hrb : r ≠ b) :
    isubc c r a b s = StepB s r (asUB (.ok (Intr.isubc c x.as_i256 y.as_i256))) := by
  unfold isubc Intr.isubc
  split
  · simp only [MemLlvm.icarry, M.bind_apply, ird_of ha, ird_of hb, iwr_of hr]; rfl
  · exact MemNative.isubc_eq ha hb hr hra hrb
theorem imulc_eq (ha : Has s a x) (hb : Has s b y) (hr : r < s.length) (hra : r ≠ a) (hrb : r ≠ b) :
    imulc c r a b s = StepB s r (asUB (Intr.imulc c x.as_i256 y.as_i256)) := MemNative.imulc_eq ha hb hr hra hrb
theorem shl3_eq (ha : Has s a x) (hr : r < s.length) (n : U32) :
    shl3 c r a n s = Step s r (Intr.shl3 c x n) := by
  unfold shl3 Intr.shl3
  split
  · simp only [MemLlvm.shift3, M.bind_apply, rd_of ha, wr_of hr]; rfl
  · exact MemNative.shl3_eq ha hr n
theorem shl2_eq (hr : Has s r x) (n : U32) :
    shl2 c r n s = Step s r (Intr.shl2 c x n) := by
  unfold shl2 Intr.shl2
  split
  · simp only [MemLlvm.shift2, M.bind_apply, rd_of hr, wr_of hr.lt]; rfl
  · exact MemNative.shl2_eq hr n
theorem shr3_eq (ha : Has s a x) (hr : r < s.length) (n : U32) :
    shr3 c r a n s = Step s r (Intr.shr3 c x n) := by
  unfold shr3 Intr.shr3
  split
  · simp only [MemLlvm.shift3, M.bind_apply, rd_of ha, wr_of hr]; rfl
  · exact MemNative.shr3_eq ha hr n
theorem shr2_eq (hr : Has s r x) (n : U32) :
    shr2 c r n s = Step s r (Intr.shr2 c x n) := by
  unfold shr2 Intr.shr2
  split
  · simp only [MemLlvm.shift2, M.bind_apply, rd_of hr, wr_of hr.lt]; rfl
  · exact MemNative.shr2_eq hr n
theorem rol3_eq (ha : Has s a x) (hr : r < s.length) (n : U32) :
    rol3 c r a n s = Step s r (Intr.rol3 c x n) := by
  unfold rol3 Intr.rol3
  split
  · simp only [MemLlvm.shift3, M.bind_apply, rd_of ha, wr_of hr]; rfl
  · exact MemNative.rol3_eq ha hr n
theorem ror3_eq (ha : Has s a x) (hr : r < s.length) (n : U32) :
    ror3 c r a n s = Step s r (Intr.ror3 c x n) := by
  unfold ror3 Intr.ror3
  split
  · simp only [MemLlvm.shift3, M.bind_apply, rd_of ha, wr_of hr]; rfl
  · exact MemNative.ror3_eq ha hr n
theorem sar3_eq (ha : Has s a x) (hr : r < s.length) (n : U32) :
    sar3 c r a n s = Step s r (asU (Intr.sar3 c x.as_i256 n)) := by
  unfold sar3 Intr.sar3
  split
  · simp only [MemLlvm.ishift3, M.bind_apply, ird_of ha, iwr_of hr]; rfl
  · exact MemNative.sar3_eq ha hr n
theorem sar2_eq (hr : Has s r x) (n : U32) :
    sar2 c r n s = Step s r (asU (Intr.sar2 c x.as_i256 n)) := by
  unfold sar2 Intr.sar2
  split
  · simp only [MemLlvm.ishift2, M.bind_apply, ird_of hr, iwr_of hr.lt]; rfl
  · exact MemNative.sar2_eq hr n

/-- Both results of a division. -/
def both {T : Type} (e : Res (T × Option T)) : Res (T × T) := do
  let (q, r) ← e
  return (q, ← Intr.assumeInit r)

/-- Two results, written to `res` and `rem`. -/
def Step2 (s : Mem) (res rem : Loc) : Res (U256 × U256) → Res Unit × Mem
  | .ok (q, r) => (.ok (), (s.set res (Cell.ofU q)).set rem (Cell.ofU r))
  | .error e => (.error e, s)

theorem remC_of_divC {u v q : U128} (h : divC u v = .ok q) : ∃ r, remC u v = .ok r := by
  unfold divC at h
  unfold remC
  split at h
  · simp [throwPanic] at h
  · rename_i h'; rw [if_neg h']; exact ⟨_, rfl⟩

theorem udivmod4_none {res : Loc} (ha : Has s a x) (hb : Has s b y) (hr : res < s.length) :
    udivmod4 c res a b none s = Step s res (Intr.udiv3 c x y) := by
  unfold udivmod4 Intr.udiv3 Intr.udivmod4
  simp only [M.bind_apply, high_of ha, high_of hb]
  rw [M.ite_apply]
  by_cases h : x.high c ||| y.high c = 0
  · rw [if_pos h, if_pos h]
    simp only [M.bind_apply, low_of ha, low_of hb, M.lift_apply]
    cases divC (x.low c) (y.low c) with
    | error e => rfl
    | ok q => simp only [wr_of hr]; rfl
  · rw [if_neg h, if_neg h]
    simp only [M.bind_apply, rd_of ha, rd_of hb]
    rw [M.ite_apply]
    by_cases h1 : y.gt c x = true
    · rw [if_pos h1, if_pos h1]
      simp only [wr_of hr]; rfl
    · rw [if_neg h1, if_neg h1]
      simp only [M.bind_apply, M.lift_apply]
      by_cases h2 : y.high c = 0
      · rw [if_pos h2, if_pos h2]
        cases Intr.udivmodNarrow c x y with
        | error e => rfl
        | ok q => simp only [wr_of hr]; rfl
      · rw [if_neg h2, if_neg h2]
        cases Intr.div_mod_knuth c x y with
        | error e => rfl
        | ok q => simp only [wr_of hr]; rfl

theorem udivmod4_some {res rem : Loc} (ha : Has s a x) (hb : Has s b y) (hr : res < s.length) (hm : rem < s.length)
    (hra : res ≠ a) (hrb : res ≠ b) (hn : res ≠ rem) :
    udivmod4 c res a b (some rem) s = Step2 s res rem (both (Intr.udivmod4 c x y true)) := by
  have hm' : ∀ w, rem < (s.set res w).length := fun w => by rw [List.length_set]; exact hm
  have hr' : ∀ w, res < (s.set rem w).length := fun w => by rw [List.length_set]; exact hr
  unfold udivmod4 both Intr.udivmod4
  simp only [M.bind_apply, high_of ha, high_of hb]
  rw [M.ite_apply]
  by_cases h : x.high c ||| y.high c = 0
  · rw [if_pos h, if_pos h]
    simp only [M.bind_apply, low_of ha, low_of hb, M.lift_apply]
    cases hd : divC (x.low c) (y.low c) with
    | error e => rfl
    | ok q =>
      obtain ⟨m, hm1⟩ := remC_of_divC hd
      simp only [wr_of hr, M.bind_apply, low_of (ha.set_ne hra), low_of (hb.set_ne hrb), M.lift_apply, hm1,
        wr_of (hm' _)]
      rfl
  · rw [if_neg h, if_neg h]
    simp only [M.bind_apply, rd_of ha, rd_of hb]
    rw [M.ite_apply]
    by_cases h1 : y.gt c x = true
    · rw [if_pos h1, if_pos h1]
      simp only [M.bind_apply, wr_of hm, wr_of (hr' _), List.set_comm _ _ hn.symm]
      rfl
    · rw [if_neg h1, if_neg h1]
      simp only [M.bind_apply, M.lift_apply]
      by_cases h2 : y.high c = 0
      · rw [if_pos h2, if_pos h2]
        cases Intr.udivmodNarrow c x y with
        | error e => rfl
        | ok q => simp only [M.bind_apply, wr_of hm, wr_of (hr' _), List.set_comm _ _ hn.symm]; rfl
      · rw [if_neg h2, if_neg h2]
        cases Intr.div_mod_knuth c x y with
        | error e => rfl
        | ok q => simp only [M.bind_apply, wr_of hm, wr_of (hr' _), List.set_comm _ _ hn.symm]; rfl

theorem udiv3_eq (ha : Has s a x) (hb : Has s b y) (hr : r < s.length) :
    udiv3 c r a b s = Step s r (Intr.udiv3 c x y) := udivmod4_none ha hb hr

theorem udiv2_eq (hr : Has s r x) (ha : Has s a y) :
    udiv2 c r a s = Step s r (Intr.udiv2 c x y) := by
  unfold udiv2
  simp only [M.bind_apply, rd_of hr, M.withLocal_apply]
  rw [udivmod4_none Has.last ha.append (lt_append hr.lt), Step_local hr.lt]
  rfl

theorem ne_length (h : p < s.length) : s.length ≠ p := Nat.ne_of_gt h

theorem length_lt {w : Cell} : s.length < (s ++ [w]).length := by simp

/-- The quotient goes to a local that is dropped. -/
theorem Step2_local {res : Res (U256 × U256)} {w : Cell} (hr : r < s.length) :
    ((Step2 (s ++ [w]) s.length r res).1, (Step2 (s ++ [w]) s.length r res).2.take s.length)
      = Step s r (do let p ← res; return p.2) := by
  cases res with
  | ok v => simp [Step2, Step, bind, Except.bind, pure, Except.pure, List.set_append_left _ _ hr]
  | error e => simp [Step2, Step, bind, Except.bind]

theorem urem3_eq (ha : Has s a x) (hb : Has s b y) (hr : r < s.length) :
    urem3 c r a b s = Step s r (Intr.urem3 c x y) := by
  unfold urem3
  rw [M.withLocal_apply, udivmod4_some ha.append hb.append length_lt (lt_append hr) (ne_length ha.lt)
    (ne_length hb.lt) (ne_length hr), Step2_local hr]
  unfold both Intr.urem3
  cases Intr.udivmod4 c x y true with
  | error e => rfl
  | ok v => obtain ⟨q, _ | m⟩ := v <;> rfl

theorem Step2_local' {res : Res (U256 × U256)} {w : Cell} {q : Loc} (hq : q < s.length) (hr : r < s.length) :
    ((Step2 (s ++ [w]) q r res).1, (Step2 (s ++ [w]) q r res).2.take s.length) = Step2 s q r res := by
  cases res with
  | ok v =>
    have hr' : r < (s.set q (Cell.ofU v.1)).length := by rw [List.length_set]; exact hr
    simp [Step2, List.set_append_left _ _ hq, List.set_append_left _ _ hr']
  | error e => simp [Step2]

theorem urem2_eq (hr : Has s r x) (ha : Has s a y) :
    urem2 c r a s = Step s r (Intr.urem2 c x y) := by
  unfold urem2
  rw [M.withLocal_apply, M.bind_apply, rd_of hr.append]
  dsimp only
  have h := udivmod4_some (c := c) (res := s.length) (rem := r) (s := s ++ [Cell.uninit] ++ [Cell.ofU x])
    Has.last ha.append.append (lt_append length_lt) (lt_append (lt_append hr.lt)) (by simp)
    (ne_length ha.lt) (ne_length hr.lt)
  rw [M.withLocal_apply, h, Step2_local' length_lt (lt_append hr.lt), Step2_local hr.lt]
  unfold both Intr.urem2
  cases Intr.udivmod4 c x y true with
  | error e => rfl
  | ok v => obtain ⟨q, _ | m⟩ := v <;> rfl

/-- The two I256 results of a division, as the words they are written as. -/
def asU2 (e : Res (I256 × I256)) : Res (U256 × U256) := do let (q, r) ← e; return (q.as_u256, r.as_u256)

theorem set4 {i j : Nat} {u v w z : Cell} (h : i ≠ j) :
    (((s.set i u).set j v).set i w).set j z = (s.set i w).set j z := by
  rw [List.set_comm u v h, List.set_set, List.set_comm v w h.symm, List.set_set]

theorem ofI_eq (v : I256) : Cell.ofI v = Cell.ofU v.as_u256 := rfl

theorem signs_none {res : Loc} {s_a s_b : I256} (ha : Has s a x) (hb : Has s b y) (hr : res < s.length) :
    idivmodSigns c res none s_a s_b a b s
      = Step s res (do let q ← Intr.udiv3 c x y; return ((q.as_i256.bitxor s_b).wrapping_sub c s_b).as_u256) := by
  unfold idivmodSigns
  rw [M.bind_apply, udivmod4_none ha hb hr]
  cases Intr.udiv3 c x y with
  | error e => rfl
  | ok q =>
    have hr' : res < (s.set res (Cell.ofU q)).length := by rw [List.length_set]; exact hr
    simp only [Step, M.bind_apply, ird_of (Has.set_self hr), iwr_of hr', List.set_set]
    rfl

theorem signs_some {res rem : Loc} {s_a s_b : I256} (ha : Has s a x) (hb : Has s b y) (hr : res < s.length)
    (hm : rem < s.length) (hra : res ≠ a) (hrb : res ≠ b) (hn : res ≠ rem) :
    idivmodSigns c res (some rem) s_a s_b a b s
      = Step2 s res rem (do
          let (q, r) ← both (Intr.udivmod4 c x y true)
          return (((q.as_i256.bitxor s_b).wrapping_sub c s_b).as_u256,
            ((r.as_i256.bitxor s_a).wrapping_sub c s_a).as_u256)) := by
  unfold idivmodSigns
  rw [M.bind_apply, udivmod4_some ha hb hr hm hra hrb hn]
  cases both (Intr.udivmod4 c x y true) with
  | error e => rfl
  | ok v =>
    obtain ⟨q, m⟩ := v
    have hm1 : rem < (s.set res (Cell.ofU q)).length := by rw [List.length_set]; exact hm
    have hr1 : res < ((s.set res (Cell.ofU q)).set rem (Cell.ofU m)).length := by
      rw [List.length_set, List.length_set]; exact hr
    have hq : Has ((s.set res (Cell.ofU q)).set rem (Cell.ofU m)) res q := (Has.set_self hr).set_ne hn.symm
    simp only [Step2, M.bind_apply, ird_of hq, iwr_of hr1]
    have hm2 : rem < (((s.set res (Cell.ofU q)).set rem (Cell.ofU m)).set res
        (Cell.ofU (((q.as_i256.bitxor s_b).wrapping_sub c s_b).as_u256))).length := by
      rw [List.length_set, List.length_set, List.length_set]; exact hm
    simp only [ird_of ((Has.set_self hm1).set_ne hn), iwr_of hm2]
    rw [set4 hn]
    rfl

theorem idivmod4_none {res : Loc} (ha : Has s a x) (hb : Has s b y) (hr : res < s.length) :
    idivmod4 c res a b none s = Step s res (asU (Intr.idiv3 c x.as_i256 y.as_i256)) := by
  unfold idivmod4 Intr.idiv3 Intr.idivmod4
  simp only [M.bind_apply, ird_of ha, ird_of hb, M.lift_apply]
  cases x.as_i256.shr c 255 with
  | error e => rfl
  | ok s_a =>
    cases y.as_i256.shr c 255 with
    | error e => rfl
    | ok s_b =>
      simp only [ofI_eq]
      rw [M.withLocal_apply, M.withLocal_apply]
      have h := signs_none (c := c) (res := res) (s_a := s_a) (s_b := s_b.bitxor s_a) (a := s.length)
        (b := (s ++ [Cell.ofU (((x.as_i256.bitxor s_a).wrapping_sub c s_a).as_u256)]).length)
        (s := s ++ [Cell.ofU (((x.as_i256.bitxor s_a).wrapping_sub c s_a).as_u256)]
          ++ [Cell.ofU (((y.as_i256.bitxor s_b).wrapping_sub c s_b).as_u256)])
        Has.last.append Has.last (lt_append (lt_append hr))
      rw [h, Step_local (lt_append hr), Step_local hr]
      unfold Intr.udiv3
      simp only [ok_bind]
      cases Intr.udivmod4 c (((x.as_i256.bitxor s_a).wrapping_sub c s_a).as_u256)
        (((y.as_i256.bitxor s_b).wrapping_sub c s_b).as_u256) false <;> rfl

theorem idivmod4_some {res rem : Loc} (ha : Has s a x) (hb : Has s b y) (hr : res < s.length) (hm : rem < s.length)
    (hn : res ≠ rem) :
    idivmod4 c res a b (some rem) s = Step2 s res rem (asU2 (both (Intr.idivmod4 c x.as_i256 y.as_i256 true))) := by
  unfold idivmod4 Intr.idivmod4
  simp only [M.bind_apply, ird_of ha, ird_of hb, M.lift_apply]
  cases x.as_i256.shr c 255 with
  | error e => rfl
  | ok s_a =>
    cases y.as_i256.shr c 255 with
    | error e => rfl
    | ok s_b =>
      simp only [ofI_eq]
      rw [M.withLocal_apply, M.withLocal_apply]
      have h := signs_some (c := c) (res := res) (rem := rem) (s_a := s_a) (s_b := s_b.bitxor s_a) (a := s.length)
        (b := (s ++ [Cell.ofU (((x.as_i256.bitxor s_a).wrapping_sub c s_a).as_u256)]).length)
        (s := s ++ [Cell.ofU (((x.as_i256.bitxor s_a).wrapping_sub c s_a).as_u256)]
          ++ [Cell.ofU (((y.as_i256.bitxor s_b).wrapping_sub c s_b).as_u256)])
        Has.last.append Has.last (lt_append (lt_append hr)) (lt_append (lt_append hm))
        (ne_length hr).symm (ne_length (lt_append hr)).symm hn
      rw [h, Step2_local' (lt_append hr) (lt_append hm), Step2_local' hr hm]
      simp only [ok_bind]
      cases Intr.udivmod4 c (((x.as_i256.bitxor s_a).wrapping_sub c s_a).as_u256)
        (((y.as_i256.bitxor s_b).wrapping_sub c s_b).as_u256) true with
      | error e => rfl
      | ok v => obtain ⟨q, _ | m⟩ := v <;> rfl

theorem idiv3_eq (ha : Has s a x) (hb : Has s b y) (hr : r < s.length) :
    idiv3 c r a b s = Step s r (asU (Intr.idiv3 c x.as_i256 y.as_i256)) := idivmod4_none ha hb hr

theorem idiv2_eq (hr : Has s r x) (ha : Has s a y) :
    idiv2 c r a s = Step s r (asU (Intr.idiv2 c x.as_i256 y.as_i256)) := by
  unfold idiv2
  simp only [M.bind_apply, ird_of hr, M.withLocal_apply]
  have h := idivmod4_none (c := c) (res := r) (a := s.length) (s := s ++ [Cell.ofU x]) Has.last ha.append
    (lt_append hr.lt)
  erw [h]
  rw [Step_local hr.lt]
  rfl

theorem irem3_eq (ha : Has s a x) (hb : Has s b y) (hr : r < s.length) :
    irem3 c r a b s = Step s r (asU (Intr.irem3 c x.as_i256 y.as_i256)) := by
  unfold irem3
  rw [M.withLocal_apply, idivmod4_some ha.append hb.append length_lt (lt_append hr) (ne_length hr), Step2_local hr]
  unfold both Intr.irem3
  cases Intr.idivmod4 c x.as_i256 y.as_i256 true with
  | error e => rfl
  | ok v => obtain ⟨q, _ | m⟩ := v <;> rfl

theorem irem2_eq (hr : Has s r x) (ha : Has s a y) :
    irem2 c r a s = Step s r (asU (Intr.irem2 c x.as_i256 y.as_i256)) := by
  unfold irem2
  rw [M.withLocal_apply, M.bind_apply, ird_of hr.append]
  dsimp only
  have h := idivmod4_some (c := c) (res := s.length) (rem := r) (s := s ++ [Cell.uninit] ++ [Cell.ofU x])
    Has.last ha.append.append (lt_append length_lt) (lt_append (lt_append hr.lt)) (ne_length hr.lt)
  rw [M.withLocal_apply]
  erw [h]
  rw [Step2_local' length_lt (lt_append hr.lt), Step2_local hr.lt]
  unfold both Intr.irem2
  cases Intr.idivmod4 c x.as_i256 y.as_i256 true with
  | error e => rfl
  | ok v => obtain ⟨q, _ | m⟩ := v <;> rfl

end MemIntr

/-! ### Operators and methods -/

namespace MemOps
open MemIntr
open MemNative (lt_append asU)

theorem take_Step {e : Res U256} {w : Cell} : (Step (s ++ [w]) s.length e).2.take s.length = s := by
  cases e <;> simp [Step]
theorem take_StepB {e : Res (U256 × Bool)} {w : Cell} : (StepB (s ++ [w]) s.length e).2.take s.length = s := by
  cases e <;> simp [StepB]

variable {T : Type} {rdT : Loc → M T} {g : U256 → T}

/-- `rdT` reads an object of a type whose values are given by `g`. -/
def Reads (rdT : Loc → M T) (g : U256 → T) : Prop := ∀ t p v, Has t p v → rdT p t = (.ok (g v), t)

theorem reads_u : Reads rd id := fun _ _ _ h => rd_of h
theorem reads_i : Reads ird U256.as_i256 := fun _ _ _ h => ird_of h

theorem out_eq (hrd : Reads rdT g) {op : Loc → M Unit} {e : Res U256}
    (h : op s.length (s ++ [Cell.uninit]) = Step (s ++ [Cell.uninit]) s.length e) :
    out rdT op s = ((do let v ← e; return g v), s) := by
  unfold out
  rw [M.withLocal_apply, M.bind_apply, h]
  cases e with
  | error e => simp [Step, bind, Except.bind]
  | ok v =>
    simp only [Step]
    rw [hrd _ _ _ (Has.set_self length_lt)]
    simp [bind, Except.bind, pure, Except.pure]

theorem outc_eq (hrd : Reads rdT g) {op : Loc → M Bool} {e : Res (U256 × Bool)}
    (h : op s.length (s ++ [Cell.uninit]) = StepB (s ++ [Cell.uninit]) s.length e) :
    outc rdT op s = ((do let (v, o) ← e; return (g v, o)), s) := by
  unfold outc
  rw [M.withLocal_apply, M.bind_apply, h]
  cases e with
  | error e => simp [StepB, bind, Except.bind]
  | ok v =>
    obtain ⟨v, o⟩ := v
    simp only [StepB, M.bind_apply]
    rw [hrd _ _ _ (Has.set_self length_lt)]
    simp [bind, Except.bind, pure, Except.pure, M.pure_apply]

theorem out2_eq (hrd : Reads rdT g) {op : Loc → Option Loc → M Unit} {e : Res (U256 × U256)}
    (h : op s.length (some (s.length + 1)) (s ++ [Cell.uninit] ++ [Cell.uninit])
      = Step2 (s ++ [Cell.uninit] ++ [Cell.uninit]) s.length (s.length + 1) e) :
    out2 rdT op s = ((do let (q, r) ← e; return (g q, g r)), s) := by
  have hl : (s ++ [Cell.uninit]).length = s.length + 1 := by simp
  unfold out2
  rw [M.withLocal_apply, M.withLocal_apply, hl, M.bind_apply, h]
  cases e with
  | error e => simp [Step2, bind, Except.bind, List.take_take]
  | ok v =>
    obtain ⟨q, r⟩ := v
    simp only [Step2, M.bind_apply]
    have h1 : Has (((s ++ [Cell.uninit] ++ [Cell.uninit]).set s.length (Cell.ofU q)).set (s.length + 1)
        (Cell.ofU r)) s.length q := (Has.set_self (lt_append length_lt)).set_ne (by simp)
    have h2 : Has (((s ++ [Cell.uninit] ++ [Cell.uninit]).set s.length (Cell.ofU q)).set (s.length + 1)
        (Cell.ofU r)) (s.length + 1) r := Has.set_self (by simp)
    rw [hrd _ _ _ h1]
    dsimp only
    rw [hrd _ _ _ h2]
    simp [bind, Except.bind, pure, Except.pure, M.pure_apply, List.take_take]

theorem binop_eq (hrd : Reads rdT g) {op3 : Loc → Loc → Loc → M Unit} {opc : Loc → Loc → Loc → M Bool} {p : Panic}
    {e3 : Res U256} {ec : Res (U256 × Bool)}
    (h3 : op3 s.length a b (s ++ [Cell.uninit]) = Step (s ++ [Cell.uninit]) s.length e3)
    (hc : opc s.length a b (s ++ [Cell.uninit]) = StepB (s ++ [Cell.uninit]) s.length ec) :
    binop c rdT op3 opc p a b s = ((if c.debugAssertions then
        (do let (v, o) ← ec; if o then throwPanic p else .ok (g v)) else (do let v ← e3; .ok (g v))), s) := by
  unfold binop
  rw [M.withLocal_apply]
  cases c.debugAssertions with
  | true =>
    simp only [if_true, M.bind_apply, hc]
    cases ec with
    | error e => simp [StepB, bind, Except.bind]
    | ok v =>
      obtain ⟨v, o⟩ := v
      simp only [StepB]
      cases o with
      | true => simp [M.lift_apply, throwPanic, bind, Except.bind]
      | false =>
        simp only [Bool.false_eq_true, if_false, M.pure_apply]
        rw [hrd _ _ _ (Has.set_self length_lt)]
        simp [bind, Except.bind]
  | false =>
    simp only [Bool.false_eq_true, if_false, M.bind_apply, h3]
    cases e3 with
    | error e => simp [Step, bind, Except.bind]
    | ok v =>
      simp only [Step]
      rw [hrd _ _ _ (Has.set_self length_lt)]
      simp [bind, Except.bind]

theorem divmod_eq (hrd : Reads rdT g) (hb : Has s b y) {z : T → Bool} {op3 : Loc → Loc → Loc → M Unit} {p : Panic}
    {e3 : Res U256} (h3 : op3 s.length a b (s ++ [Cell.uninit]) = Step (s ++ [Cell.uninit]) s.length e3) :
    divmod rdT z op3 p a b s = ((if z (g y) then throwPanic p else (do let v ← e3; return (g v))), s) := by
  unfold divmod
  rw [M.bind_apply, hrd _ _ _ hb]
  dsimp only
  rw [M.ite_apply]
  cases z (g y) with
  | true => rfl
  | false =>
    simp only [Bool.false_eq_true, if_false]
    exact out_eq (op := fun r => op3 r a b) hrd h3

theorem shift_eq (hrd : Reads rdT g) {op3 : Loc → Loc → U32 → M Unit} {p : Panic} {n : U32} {e3 : Res U256}
    (h3 : op3 s.length a n (s ++ [Cell.uninit]) = Step (s ++ [Cell.uninit]) s.length e3) :
    shift c rdT op3 p a n s
      = ((if c.debugAssertions && decide (n > 0xff) then throwPanic p else (do let v ← e3; return (g v))), s) := by
  unfold shift
  rw [M.ite_apply]
  cases (c.debugAssertions && decide (n > 0xff)) with
  | true => rfl
  | false =>
    simp only [Bool.false_eq_true, if_false]
    exact out_eq (op := fun r => op3 r a n) hrd h3

/-- `wrT` writes an object of a type whose values are the words `k`. -/
def WritesT (wrT : Loc → T → M Unit) (k : T → U256) : Prop :=
  ∀ t p v, p < t.length → wrT p v t = (.ok (), t.set p (Cell.ofU (k v)))

theorem writes_u : WritesT wr id := fun _ _ _ h => wr_of h
theorem writes_i : WritesT iwr I256.as_u256 := fun _ _ v h => iwr_of h v

theorem assign_eq {wrT : Loc → T → M Unit} {k : T → U256} (hw : WritesT wrT k) {op : M T} {op2 : M Unit} {e : Res T}
    {e2 : Res U256} (ha : a < s.length) (h : op s = (e, s)) (h2 : op2 s = Step s a e2) :
    assign c wrT op op2 a s = Step s a (if c.debugAssertions then (do let v ← e; return (k v)) else e2) := by
  unfold assign
  rw [M.ite_apply]
  cases c.debugAssertions with
  | true =>
    simp only [if_true, M.bind_apply, h]
    cases e with
    | error e => rfl
    | ok v => simp only [hw _ _ _ ha]; rfl
  | false => simpa using h2

theorem bitwise_eq {op : U128 → U128 → U128} (ha : Has s a x) (hb : Has s b y) (hn : a ≠ b) :
    bitwise op a b s = Step s a (.ok ⟨op x.w0 y.w0, op x.w1 y.w1⟩) := by
  have hl := ha.lt
  have h1 : wr0 a (op x.w0 y.w0) s = (.ok (), s.set a (Cell.ofU ⟨op x.w0 y.w0, x.w1⟩)) := by
    unfold Has at ha; simp [wr0, ha, Cell.ofU]
  simp only [bitwise, M.bind_apply, rd0_of ha, rd0_of hb, h1, rd1_of (Has.set_self hl), rd1_of (hb.set_ne hn)]
  simp [wr1, hl, Cell.ofU, Step]

end MemOps

open MemOps MemIntr
open MemNative (lt_append asU)

namespace U256
variable (ha : Has s a x) (hb : Has s b y) (hn : a ≠ b) (n : U32)
include ha

include hb in
theorem addM_eq : addM c a b s = (x.add c y, s) := by
  unfold addM add
  rw [binop_eq reads_u (add3_eq ha.append hb.append length_lt) (uaddc_eq ha.append hb.append length_lt)]
  rfl
include hb hn in
theorem add_assignM_eq : add_assignM c a b s = Step s a (x.add_assign c y) := by
  unfold add_assignM add_assign
  rw [assign_eq writes_u ha.lt (addM_eq ha hb) (add2_eq ha hb hn)]
  split
  · cases x.add c y <;> rfl
  · rfl
include hb in
theorem wrapping_addM_eq : wrapping_addM c a b s = (.ok (x.wrapping_add c y), s) :=
  out_eq (op := fun r => MemIntr.add3 c r a b) reads_u (add3_eq ha.append hb.append length_lt)
include hb in
theorem overflowing_addM_eq : overflowing_addM c a b s = (.ok (x.overflowing_add c y), s) :=
  outc_eq (op := fun r => MemIntr.uaddc c r a b) reads_u (uaddc_eq ha.append hb.append length_lt)

include hb in
theorem subM_eq : subM c a b s = (x.sub c y, s) := by
  unfold subM sub
  rw [binop_eq reads_u (sub3_eq ha.append hb.append length_lt) (usubc_eq ha.append hb.append length_lt)]
  rfl
include hb hn in
theorem sub_assignM_eq : sub_assignM c a b s = Step s a (x.sub_assign c y) := by
  unfold sub_assignM sub_assign
  rw [assign_eq writes_u ha.lt (subM_eq ha hb) (sub2_eq ha hb hn)]
  split
  · cases x.sub c y <;> rfl
  · rfl
include hb in
theorem wrapping_subM_eq : wrapping_subM c a b s = (.ok (x.wrapping_sub c y), s) :=
  out_eq (op := fun r => MemIntr.sub3 c r a b) reads_u (sub3_eq ha.append hb.append length_lt)
include hb in
theorem overflowing_subM_eq : overflowing_subM c a b s = (.ok (x.overflowing_sub c y), s) :=
  outc_eq (op := fun r => MemIntr.usubc c r a b) reads_u (usubc_eq ha.append hb.append length_lt)

include hb in
theorem mulM_eq : mulM c a b s = (x.mul c y, s) := by
  unfold mulM mul
  rw [binop_eq reads_u (mul3_eq ha.append hb.append length_lt) (umulc_eq ha.append hb.append length_lt)]
  split
  · cases Intr.umulc c x y <;> rfl
  · cases Intr.mul3 c x y <;> rfl
include hb in
theorem mul_assignM_eq : mul_assignM c a b s = Step s a (x.mul_assign c y) := by
  unfold mul_assignM mul_assign
  rw [assign_eq writes_u ha.lt (mulM_eq ha hb) (mul2_eq ha hb)]
  split
  · cases x.mul c y <;> rfl
  · rfl
include hb in
theorem wrapping_mulM_eq : wrapping_mulM c a b s = (x.wrapping_mul c y, s) := by
  unfold wrapping_mulM wrapping_mul
  rw [out_eq (op := fun r => MemIntr.mul3 c r a b) reads_u (mul3_eq ha.append hb.append length_lt)]
  cases Intr.mul3 c x y <;> rfl
include hb in
theorem overflowing_mulM_eq : overflowing_mulM c a b s = (x.overflowing_mul c y, s) := by
  unfold overflowing_mulM overflowing_mul
  rw [outc_eq (op := fun r => MemIntr.umulc c r a b) reads_u (umulc_eq ha.append hb.append length_lt)]
  cases Intr.umulc c x y <;> rfl

include hb in
theorem divM_eq : divM c a b s = (x.div c y, s) := by
  unfold divM div
  rw [divmod_eq reads_u hb (udiv3_eq ha.append hb.append length_lt)]
  change (if y.eq_prim c 0 = true then _ else _, s) = _
  split
  · rfl
  · cases Intr.udiv3 c x y <;> rfl
include hb in
theorem div_assignM_eq : div_assignM c a b s = Step s a (x.div_assign c y) := by
  unfold div_assignM div_assign
  rw [assign_eq writes_u ha.lt (divM_eq ha hb) (udiv2_eq ha hb)]
  split
  · cases x.div c y <;> rfl
  · rfl

include hb in
theorem remM_eq : remM c a b s = (x.rem c y, s) := by
  unfold remM rem
  rw [divmod_eq reads_u hb (urem3_eq ha.append hb.append length_lt)]
  change (if y.eq_prim c 0 = true then _ else _, s) = _
  split
  · rfl
  · cases Intr.urem3 c x y <;> rfl
include hb in
theorem rem_assignM_eq : rem_assignM c a b s = Step s a (x.rem_assign c y) := by
  unfold rem_assignM rem_assign
  rw [assign_eq writes_u ha.lt (remM_eq ha hb) (urem2_eq ha hb)]
  split
  · cases x.rem c y <;> rfl
  · rfl

theorem shlM_eq : shlM c a n s = (x.shl c n, s) := by
  unfold shlM shl
  rw [shift_eq reads_u (shl3_eq ha.append length_lt n)]
  split
  · rfl
  · cases Intr.shl3 c x n <;> rfl
theorem shl_assignM_eq : shl_assignM c a n s = Step s a (x.shl_assign c n) := by
  unfold shl_assignM shl_assign
  rw [assign_eq writes_u ha.lt (shlM_eq ha n) (shl2_eq ha n)]
  split
  · cases x.shl c n <;> rfl
  · rfl
theorem wrapping_shlM_eq : wrapping_shlM c a n s = (x.wrapping_shl c n, s) := by
  unfold wrapping_shlM wrapping_shl
  rw [out_eq (op := fun r => MemIntr.shl3 c r a (n &&& 0xff)) reads_u (shl3_eq ha.append length_lt _)]
  cases Intr.shl3 c x (n &&& 0xff) <;> rfl

theorem shrM_eq : shrM c a n s = (x.shr c n, s) := by
  unfold shrM shr
  rw [shift_eq reads_u (shr3_eq ha.append length_lt n)]
  split
  · rfl
  · cases Intr.shr3 c x n <;> rfl
theorem shr_assignM_eq : shr_assignM c a n s = Step s a (x.shr_assign c n) := by
  unfold shr_assignM shr_assign
  rw [assign_eq writes_u ha.lt (shrM_eq ha n) (shr2_eq ha n)]
  split
  · cases x.shr c n <;> rfl
  · rfl
theorem wrapping_shrM_eq : wrapping_shrM c a n s = (x.wrapping_shr c n, s) := by
  unfold wrapping_shrM wrapping_shr
  rw [out_eq (op := fun r => MemIntr.shr3 c r a (n &&& 0xff)) reads_u (shr3_eq ha.append length_lt _)]
  cases Intr.shr3 c x (n &&& 0xff) <;> rfl

theorem rotate_leftM_eq : rotate_leftM c a n s = (x.rotate_left c n, s) := by
  unfold rotate_leftM rotate_left
  rw [out_eq (op := fun r => MemIntr.rol3 c r a n) reads_u (rol3_eq ha.append length_lt _)]
  cases Intr.rol3 c x n <;> rfl

theorem rotate_rightM_eq : rotate_rightM c a n s = (x.rotate_right c n, s) := by
  unfold rotate_rightM rotate_right
  rw [out_eq (op := fun r => MemIntr.ror3 c r a n) reads_u (ror3_eq ha.append length_lt _)]
  cases Intr.ror3 c x n <;> rfl

include hb hn in
theorem bitand_assignM_eq : bitand_assignM a b s = Step s a (.ok (x.bitand_assign y)) := bitwise_eq ha hb hn
include hb hn in
theorem bitor_assignM_eq : bitor_assignM a b s = Step s a (.ok (x.bitor_assign y)) := bitwise_eq ha hb hn
include hb hn in
theorem bitxor_assignM_eq : bitxor_assignM a b s = Step s a (.ok (x.bitxor_assign y)) := bitwise_eq ha hb hn

include hb in
theorem div_remM_eq : div_remM c a b s = (x.div_rem c y, s) := by
  have hl : s.length < (s ++ [Cell.uninit] ++ [Cell.uninit]).length := lt_append length_lt
  have h := udivmod4_some (c := c) (res := s.length) (rem := s.length + 1) (s := s ++ [Cell.uninit] ++ [Cell.uninit])
    ha.append.append hb.append.append hl (by simp) (ne_length ha.lt) (ne_length hb.lt) (by simp)
  have ho := out2_eq (op := fun q r => MemIntr.udivmod4 c q a b r) reads_u h
  unfold div_remM div_rem
  rw [M.bind_apply, rd_of hb]
  dsimp only
  rw [M.ite_apply]
  split
  · rfl
  · rw [M.bind_apply, M.lift_apply]
    cases unreachableIf (y.le_prim c 0) with
    | error e => rfl
    | ok _ =>
      dsimp only
      rw [M.bind_apply, ho]
      unfold both
      cases Intr.udivmod4 c x y true with
      | error e => rfl
      | ok v =>
        obtain ⟨q, _ | m⟩ := v
        · rfl
        · simp only [bind, Except.bind, pure, Except.pure, Intr.assumeInit, id]
          rw [rd_of ha]
          rfl

end U256

namespace I256

theorem rt (x : I256) : x.as_u256.as_i256 = x := rfl

variable {x y : I256} (ha : Has s a x.as_u256) (hb : Has s b y.as_u256) (hn : a ≠ b) (n : U32)
include ha

include hb in
theorem addM_eq : addM c a b s = (x.add c y, s) := by
  unfold addM add
  rw [show MemIntr.iadd3 c = MemIntr.add3 c from rfl]
  rw [binop_eq reads_i (MemIntr.add3_eq ha.append hb.append length_lt)
    (iaddc_eq ha.append hb.append length_lt (ne_length ha.lt) (ne_length hb.lt))]
  rfl
include hb hn in
theorem add_assignM_eq : add_assignM c a b s = Step s a (asU (x.add_assign c y)) := by
  unfold add_assignM add_assign
  rw [show MemIntr.iadd2 c = MemIntr.add2 c from rfl]
  rw [assign_eq writes_i ha.lt (addM_eq ha hb) (add2_eq ha hb hn)]
  split <;> rfl
include hb in
theorem wrapping_addM_eq : wrapping_addM c a b s = (.ok (x.wrapping_add c y), s) :=
  out_eq (op := fun r => MemIntr.add3 c r a b) reads_i (MemIntr.add3_eq ha.append hb.append length_lt)
include hb in
theorem overflowing_addM_eq : overflowing_addM c a b s = (.ok (x.overflowing_add c y), s) :=
  outc_eq (op := fun r => MemIntr.iaddc c r a b) reads_i (iaddc_eq ha.append hb.append length_lt (ne_length ha.lt) (ne_length hb.lt))

include hb in
theorem subM_eq : subM c a b s = (x.sub c y, s) := by
  unfold subM sub
  rw [show MemIntr.isub3 c = MemIntr.sub3 c from rfl]
  rw [binop_eq reads_i (MemIntr.sub3_eq ha.append hb.append length_lt)
    (isubc_eq ha.append hb.append length_lt (ne_length ha.lt) (ne_length hb.lt))]
  rfl
include hb hn in
theorem sub_assignM_eq : sub_assignM c a b s = Step s a (asU (x.sub_assign c y)) := by
  unfold sub_assignM sub_assign
  rw [show MemIntr.isub2 c = MemIntr.sub2 c from rfl]
  rw [assign_eq writes_i ha.lt (subM_eq ha hb) (sub2_eq ha hb hn)]
  split <;> rfl
include hb in
theorem wrapping_subM_eq : wrapping_subM c a b s = (.ok (x.wrapping_sub c y), s) :=
  out_eq (op := fun r => MemIntr.sub3 c r a b) reads_i (MemIntr.sub3_eq ha.append hb.append length_lt)
include hb in
theorem overflowing_subM_eq : overflowing_subM c a b s = (.ok (x.overflowing_sub c y), s) :=
  outc_eq (op := fun r => MemIntr.isubc c r a b) reads_i (isubc_eq ha.append hb.append length_lt (ne_length ha.lt) (ne_length hb.lt))

include hb in
theorem mulM_eq : mulM c a b s = (x.mul c y, s) := by
  unfold mulM mul
  rw [show MemIntr.imul3 c = MemIntr.mul3 c from rfl]
  rw [binop_eq reads_i (MemIntr.mul3_eq ha.append hb.append length_lt)
    (MemIntr.imulc_eq ha.append hb.append length_lt (ne_length ha.lt) (ne_length hb.lt))]
  split
  · change (do let (v, o) ← asUB (Intr.imulc c x y); if o then throwPanic .mulOverflow else .ok v.as_i256, s) = _
    cases Intr.imulc c x y <;> rfl
  · unfold Intr.imul3
    cases Intr.mul3 c x.as_u256 y.as_u256 <;> rfl
include hb in
theorem mul_assignM_eq : mul_assignM c a b s = Step s a (asU (x.mul_assign c y)) := by
  unfold mul_assignM mul_assign
  rw [show MemIntr.imul2 c = MemIntr.mul2 c from rfl]
  rw [assign_eq writes_i ha.lt (mulM_eq ha hb) (MemIntr.mul2_eq ha hb)]
  split
  · rfl
  · unfold Intr.imul2
    cases Intr.mul2 c x.as_u256 y.as_u256 <;> rfl
include hb in
theorem wrapping_mulM_eq : wrapping_mulM c a b s = (x.wrapping_mul c y, s) := by
  unfold wrapping_mulM wrapping_mul
  rw [show MemIntr.imul3 c = MemIntr.mul3 c from rfl]
  rw [out_eq (op := fun r => MemIntr.mul3 c r a b) reads_i (MemIntr.mul3_eq ha.append hb.append length_lt)]
  unfold Intr.imul3
  cases Intr.mul3 c x.as_u256 y.as_u256 <;> rfl
include hb in
theorem overflowing_mulM_eq : overflowing_mulM c a b s = (x.overflowing_mul c y, s) := by
  unfold overflowing_mulM overflowing_mul
  rw [outc_eq (op := fun r => MemIntr.imulc c r a b) reads_i (MemIntr.imulc_eq ha.append hb.append length_lt (ne_length ha.lt) (ne_length hb.lt))]
  change (do let (v, o) ← asUB (Intr.imulc c x y); return (v.as_i256, o), s) = _
  cases Intr.imulc c x y <;> rfl

include hb in
theorem divM_eq : divM c a b s = (x.div c y, s) := by
  unfold divM div
  rw [divmod_eq reads_i hb (idiv3_eq ha.append hb.append length_lt)]
  change (if y.eq_prim c 0 = true then _ else (do let v ← asU (Intr.idiv3 c x y); return v.as_i256), s) = _
  split
  · rfl
  · cases Intr.idiv3 c x y <;> rfl
include hb in
theorem div_assignM_eq : div_assignM c a b s = Step s a (asU (x.div_assign c y)) := by
  unfold div_assignM div_assign
  rw [assign_eq writes_i ha.lt (divM_eq ha hb) (idiv2_eq ha hb)]
  split <;> rfl
include hb in
theorem checked_divM_eq : checked_divM c a b s = (x.checked_div c y, s) := by
  unfold checked_divM checked_div
  have ho := out_eq (op := fun r => MemIntr.idiv3 c r a b) reads_i (idiv3_eq ha.append hb.append length_lt)
  rw [M.bind_apply, ird_of ha]
  dsimp only
  rw [M.bind_apply, ird_of hb]
  dsimp only
  rw [M.ite_apply]
  change (if y.eq_prim c 0 || minByMinusOne c x y then _ else _) = _
  split
  · rfl
  · rw [M.bind_apply, ho]
    simp only [rt]
    cases Intr.idiv3 c x y <;> rfl

include hb in
theorem remM_eq : remM c a b s = (x.rem c y, s) := by
  unfold remM rem
  rw [divmod_eq reads_i hb (irem3_eq ha.append hb.append length_lt)]
  change (if y.eq_prim c 0 = true then _ else (do let v ← asU (Intr.irem3 c x y); return v.as_i256), s) = _
  split
  · rfl
  · cases Intr.irem3 c x y <;> rfl
include hb in
theorem rem_assignM_eq : rem_assignM c a b s = Step s a (asU (x.rem_assign c y)) := by
  unfold rem_assignM rem_assign
  rw [assign_eq writes_i ha.lt (remM_eq ha hb) (irem2_eq ha hb)]
  split <;> rfl
include hb in
theorem checked_remM_eq : checked_remM c a b s = (x.checked_rem c y, s) := by
  unfold checked_remM checked_rem
  have ho := out_eq (op := fun r => MemIntr.irem3 c r a b) reads_i (irem3_eq ha.append hb.append length_lt)
  rw [M.bind_apply, ird_of ha]
  dsimp only
  rw [M.bind_apply, ird_of hb]
  dsimp only
  rw [M.ite_apply]
  change (if y.eq_prim c 0 || minByMinusOne c x y then _ else _) = _
  split
  · rfl
  · rw [M.bind_apply, ho]
    simp only [rt]
    cases Intr.irem3 c x y <;> rfl

theorem shlM_eq : shlM c a n s = (x.shl c n, s) := by
  unfold shlM shl
  have h := shift_eq (c := c) (p := .shlOverflow) reads_i (MemIntr.shl3_eq (c := c) ha.append length_lt n)
  refine h.trans ?_
  split
  · rfl
  · unfold Intr.ishl3
    cases Intr.shl3 c x.as_u256 n <;> rfl
theorem shl_assignM_eq : shl_assignM c a n s = Step s a (asU (x.shl_assign c n)) := by
  unfold shl_assignM shl_assign
  have h := assign_eq (c := c) (k := I256.as_u256) writes_i ha.lt (shlM_eq (c := c) ha n) (MemIntr.shl2_eq (c := c) ha n)
  refine h.trans ?_
  split
  · rfl
  · unfold Intr.ishl2; cases Intr.shl2 c x.as_u256 n <;> rfl
theorem wrapping_shlM_eq : wrapping_shlM c a n s = (x.wrapping_shl c n, s) := by
  unfold wrapping_shlM wrapping_shl
  have h := out_eq (op := fun r => MemIntr.shl3 c r a (n &&& 0xff)) reads_i (MemIntr.shl3_eq (c := c) ha.append length_lt _)
  refine h.trans ?_
  unfold Intr.ishl3
  cases Intr.shl3 c x.as_u256 (n &&& 0xff) <;> rfl

theorem shrM_eq : shrM c a n s = (x.shr c n, s) := by
  unfold shrM shr
  have h := shift_eq (c := c) (p := .shrOverflow) reads_i (MemIntr.sar3_eq (c := c) ha.append length_lt n)
  refine h.trans ?_
  split
  · rfl
  · change (do let v ← asU (Intr.sar3 c x n); return v.as_i256, s) = _
    cases Intr.sar3 c x n <;> rfl
theorem shr_assignM_eq : shr_assignM c a n s = Step s a (asU (x.shr_assign c n)) := by
  unfold shr_assignM shr_assign
  have h := assign_eq (c := c) (k := I256.as_u256) writes_i ha.lt (shrM_eq (c := c) ha n) (MemIntr.sar2_eq (c := c) ha n)
  refine h.trans ?_
  split
  · rfl
  · rfl
theorem wrapping_shrM_eq : wrapping_shrM c a n s = (x.wrapping_shr c n, s) := by
  unfold wrapping_shrM wrapping_shr
  have h := out_eq (op := fun r => MemIntr.sar3 c r a (n &&& 0xff)) reads_i (MemIntr.sar3_eq (c := c) ha.append length_lt _)
  refine h.trans ?_
  change (do let v ← asU (Intr.sar3 c x (n &&& 0xff)); return v.as_i256, s) = _
  cases Intr.sar3 c x (n &&& 0xff) <;> rfl

theorem rotate_leftM_eq : rotate_leftM c a n s = (x.rotate_left c n, s) := by
  unfold rotate_leftM rotate_left
  have h := out_eq (op := fun r => MemIntr.rol3 c r a n) reads_i (rol3_eq (c := c) ha.append length_lt n)
  refine h.trans ?_
  unfold Intr.irol3
  cases Intr.rol3 c x.as_u256 n <;> rfl

theorem rotate_rightM_eq : rotate_rightM c a n s = (x.rotate_right c n, s) := by
  unfold rotate_rightM rotate_right
  have h := out_eq (op := fun r => MemIntr.ror3 c r a n) reads_i (ror3_eq (c := c) ha.append length_lt n)
  refine h.trans ?_
  unfold Intr.iror3
  cases Intr.ror3 c x.as_u256 n <;> rfl

include hb hn in
theorem bitand_assignM_eq : bitand_assignM a b s = Step s a (asU (.ok (x.bitand_assign y))) := bitwise_eq ha hb hn
include hb hn in
theorem bitor_assignM_eq : bitor_assignM a b s = Step s a (asU (.ok (x.bitor_assign y))) := bitwise_eq ha hb hn
include hb hn in
theorem bitxor_assignM_eq : bitxor_assignM a b s = Step s a (asU (.ok (x.bitxor_assign y))) := bitwise_eq ha hb hn

include hb in
theorem out2_idivmod : (out2 ird fun q r => MemIntr.idivmod4 c q a b r) s = (both (Intr.idivmod4 c x y true), s) := by
  have hl : s.length < (s ++ [Cell.uninit] ++ [Cell.uninit]).length := lt_append length_lt
  have h := idivmod4_some (c := c) (res := s.length) (rem := s.length + 1) (s := s ++ [Cell.uninit] ++ [Cell.uninit])
    ha.append.append hb.append.append hl (by simp) (by simp)
  refine (out2_eq (op := fun q r => MemIntr.idivmod4 c q a b r) reads_i h).trans ?_
  change (do let (q, r) ← asU2 (both (Intr.idivmod4 c x y true)); return (q.as_i256, r.as_i256), s) = _
  cases both (Intr.idivmod4 c x y true) <;> rfl

include hb in
theorem wrapping_div_remM_eq : wrapping_div_remM c a b s = (x.wrapping_div_rem c y, s) := by
  unfold wrapping_div_remM wrapping_div_rem
  rw [M.bind_apply, ird_of hb]
  dsimp only
  rw [M.ite_apply]
  change (if y.eq_prim c 0 = true then _ else _) = _
  split
  · rfl
  · rw [M.bind_apply, M.lift_apply]
    simp only [rt]
    cases unreachableIf (cmp c y ZERO == .eq) with
    | error e => rfl
    | ok _ => exact out2_idivmod ha hb

include hb in
theorem checked_div_remM_eq : checked_div_remM c a b s = (x.checked_div_rem c y, s) := by
  unfold checked_div_remM checked_div_rem
  rw [M.bind_apply, ird_of ha]
  dsimp only
  rw [M.bind_apply, ird_of hb]
  dsimp only
  rw [M.ite_apply]
  change (if y.eq_prim c 0 || minByMinusOne c x y then _ else _) = _
  split
  · rfl
  · rw [M.bind_apply, M.lift_apply]
    simp only [rt]
    cases unreachableIf (cmp c y ZERO == .eq) with
    | error e => rfl
    | ok _ =>
      dsimp only
      rw [M.bind_apply, out2_idivmod ha hb]
      unfold both
      cases Intr.idivmod4 c x y true with
      | error e => rfl
      | ok v => obtain ⟨q, _ | m⟩ := v <;> rfl

end I256

end Ethnum
