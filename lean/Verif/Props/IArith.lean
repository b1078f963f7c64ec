import Verif.Proofs.IntApi
import Verif.Props.Repr

/-
C06 I256 addition/subtraction/negation/absolute value, C07 multiplication, C08 truncated division,
C09 Euclidean division, C11 shift methods, C19 absolute difference (I256), C44 sign functions.
-/

set_option linter.unusedSimpArgs false

namespace Ethnum

/-- `z` clamped to the range of `I256`. -/
def clampI256 (z : Int) : Int := max (-2 ^ 255) (min z (2 ^ 255 - 1))

/-! ### C06 -/

/-- C06: addition. -/
theorem C06_add (c : Cfg) (a b : I256) :
    a.wrapping_add c b = I256.ofInt c (a.toInt c + b.toInt c)
    ∧ a.overflowing_add c b
      = (I256.ofInt c (a.toInt c + b.toInt c), decide (¬ InI256 (a.toInt c + b.toInt c)))
    ∧ a.checked_add c b = (if InI256 (a.toInt c + b.toInt c)
        then some (I256.ofInt c (a.toInt c + b.toInt c)) else none)
    ∧ (a.saturating_add c b).toInt c = clampI256 (a.toInt c + b.toInt c) := by
  have hc : a.checked_add c b = (if InI256 (a.toInt c + b.toInt c)
        then some (I256.ofInt c (a.toInt c + b.toInt c)) else none) := by
    unfold I256.checked_add I256.overflowing_add
    rw [Intr.iaddc_eq, checkedOf_not]
  refine ⟨Intr.iadd3_eq c a b, Intr.iaddc_eq c a b, hc, ?_⟩
  unfold I256.saturating_add
  rw [hc]
  have := I256.toInt_lt c a; have := I256.le_toInt c a
  have := I256.toInt_lt c b; have := I256.le_toInt c b
  unfold clampI256
  by_cases h : InI256 (a.toInt c + b.toInt c)
  · rw [if_pos h]; show (I256.ofInt c _).toInt c = _
    rw [I256.toInt_ofInt_of_in c h]; unfold InI256 at h; omega
  · rw [if_neg h]; unfold InI256 at h
    show (if b.gt_prim c 0 then I256.MAX c else I256.MIN c).toInt c = _
    rw [I256.gt_prim_eq, toInt_0]
    by_cases hb : 0 < b.toInt c
    · rw [if_pos (decide_eq_true hb), I256.toInt_MAX]; omega
    · rw [if_neg (by simpa using hb), I256.toInt_MIN]; omega

example : (I256.MAX dbg).overflowing_add dbg (I256.ONE dbg) = (I256.MIN dbg, true)
    ∧ (I256.MIN rel).saturating_add rel (I256.MINUS_ONE rel) = I256.MIN rel := by decide

/-- C06: subtraction. -/
theorem C06_sub (c : Cfg) (a b : I256) :
    a.wrapping_sub c b = I256.ofInt c (a.toInt c - b.toInt c)
    ∧ a.overflowing_sub c b
      = (I256.ofInt c (a.toInt c - b.toInt c), decide (¬ InI256 (a.toInt c - b.toInt c)))
    ∧ a.checked_sub c b = (if InI256 (a.toInt c - b.toInt c)
        then some (I256.ofInt c (a.toInt c - b.toInt c)) else none)
    ∧ (a.saturating_sub c b).toInt c = clampI256 (a.toInt c - b.toInt c) := by
  have hc : a.checked_sub c b = (if InI256 (a.toInt c - b.toInt c)
        then some (I256.ofInt c (a.toInt c - b.toInt c)) else none) := by
    unfold I256.checked_sub I256.overflowing_sub
    rw [Intr.isubc_eq, checkedOf_not]
  refine ⟨Intr.isub3_eq c a b, Intr.isubc_eq c a b, hc, ?_⟩
  unfold I256.saturating_sub
  rw [hc]
  have := I256.toInt_lt c a; have := I256.le_toInt c a
  have := I256.toInt_lt c b; have := I256.le_toInt c b
  unfold clampI256
  by_cases h : InI256 (a.toInt c - b.toInt c)
  · rw [if_pos h]; show (I256.ofInt c _).toInt c = _
    rw [I256.toInt_ofInt_of_in c h]; unfold InI256 at h; omega
  · rw [if_neg h]; unfold InI256 at h
    show (if b.gt_prim c 0 then I256.MIN c else I256.MAX c).toInt c = _
    rw [I256.gt_prim_eq, toInt_0]
    by_cases hb : 0 < b.toInt c
    · rw [if_pos (decide_eq_true hb), I256.toInt_MIN]; omega
    · rw [if_neg (by simpa using hb), I256.toInt_MAX]; omega

example : (I256.MIN dbg).checked_sub dbg (I256.ONE dbg) = none
    ∧ (I256.ZERO).saturating_sub rel (I256.MIN rel) = I256.MAX rel := by decide

theorem as_i256_toInt_cases (c : Cfg) (b : U256) :
    b.as_i256.toInt c = b.toNat c - (if b.as_i256.toInt c < 0 then 2 ^ 256 else 0) := by
  have h := I256.toNat_toInt c b.as_i256
  rw [I256.toNat_as_i256] at h
  have h1 := I256.toInt_lt c b.as_i256; have h2 := I256.le_toInt c b.as_i256
  split <;> omega

/-- C06: adding an unsigned value. -/
theorem C06_add_unsigned (c : Cfg) (a : I256) (b : U256) :
    a.wrapping_add_unsigned c b = I256.ofInt c (a.toInt c + b.toNat c)
    ∧ a.overflowing_add_unsigned c b
      = (I256.ofInt c (a.toInt c + b.toNat c), decide (¬ InI256 (a.toInt c + b.toNat c)))
    ∧ a.checked_add_unsigned c b = (if InI256 (a.toInt c + b.toNat c)
        then some (I256.ofInt c (a.toInt c + b.toNat c)) else none)
    ∧ (a.saturating_add_unsigned c b).toInt c = clampI256 (a.toInt c + b.toNat c) := by
  have hb := as_i256_toInt_cases c b
  have ha1 := I256.toInt_lt c a; have ha2 := I256.le_toInt c a
  have hb1 := I256.toInt_lt c b.as_i256; have hb2 := I256.le_toInt c b.as_i256
  have hbl := U256.toNat_lt c b
  have hw : I256.ofInt c (a.toInt c + b.as_i256.toInt c) = I256.ofInt c (a.toInt c + b.toNat c) := by
    apply I256.ofInt_congr; split at hb <;> omega
  have ho : a.overflowing_add_unsigned c b
      = (I256.ofInt c (a.toInt c + b.toNat c), decide (¬ InI256 (a.toInt c + b.toNat c))) := by
    unfold I256.overflowing_add_unsigned I256.overflowing_add
    dsimp only
    rw [Intr.iaddc_eq, hw, I256.lt_prim_eq, toInt_0]
    simp only []
    congr 1
    unfold InI256
    by_cases h : b.as_i256.toInt c < 0
    · rw [if_pos h] at hb
      rw [decide_eq_true h, Bool.xor_true, ← decide_not, decide_eq_decide]; omega
    · rw [if_neg h] at hb
      rw [decide_eq_false h, Bool.xor_false, decide_eq_decide]; omega
  have hc : a.checked_add_unsigned c b = (if InI256 (a.toInt c + b.toNat c)
        then some (I256.ofInt c (a.toInt c + b.toNat c)) else none) := by
    unfold I256.checked_add_unsigned; rw [ho, checkedOf_not]
  refine ⟨?_, ho, hc, ?_⟩
  · unfold I256.wrapping_add_unsigned I256.wrapping_add; rw [Intr.iadd3_eq, hw]
  · unfold I256.saturating_add_unsigned; rw [hc]
    unfold clampI256
    by_cases h : InI256 (a.toInt c + b.toNat c)
    · rw [if_pos h]; show (I256.ofInt c _).toInt c = _
      rw [I256.toInt_ofInt_of_in c h]; unfold InI256 at h; omega
    · rw [if_neg h]; unfold InI256 at h
      show (I256.MAX c).toInt c = _
      rw [I256.toInt_MAX]; omega

example : (I256.MINUS_ONE dbg).checked_add_unsigned dbg U256.MAX = none
    ∧ (I256.MIN dbg).checked_add_unsigned dbg U256.MAX = some (I256.MAX dbg) := by decide

/-- C06: subtracting an unsigned value. -/
theorem C06_sub_unsigned (c : Cfg) (a : I256) (b : U256) :
    a.wrapping_sub_unsigned c b = I256.ofInt c (a.toInt c - b.toNat c)
    ∧ a.overflowing_sub_unsigned c b
      = (I256.ofInt c (a.toInt c - b.toNat c), decide (¬ InI256 (a.toInt c - b.toNat c)))
    ∧ a.checked_sub_unsigned c b = (if InI256 (a.toInt c - b.toNat c)
        then some (I256.ofInt c (a.toInt c - b.toNat c)) else none)
    ∧ (a.saturating_sub_unsigned c b).toInt c = clampI256 (a.toInt c - b.toNat c) := by
  have hb := as_i256_toInt_cases c b
  have ha1 := I256.toInt_lt c a; have ha2 := I256.le_toInt c a
  have hb1 := I256.toInt_lt c b.as_i256; have hb2 := I256.le_toInt c b.as_i256
  have hbl := U256.toNat_lt c b
  have hw : I256.ofInt c (a.toInt c - b.as_i256.toInt c) = I256.ofInt c (a.toInt c - b.toNat c) := by
    apply I256.ofInt_congr; split at hb <;> omega
  have ho : a.overflowing_sub_unsigned c b
      = (I256.ofInt c (a.toInt c - b.toNat c), decide (¬ InI256 (a.toInt c - b.toNat c))) := by
    unfold I256.overflowing_sub_unsigned I256.overflowing_sub
    dsimp only
    rw [Intr.isubc_eq, hw, I256.lt_prim_eq, toInt_0]
    simp only []
    congr 1
    unfold InI256
    by_cases h : b.as_i256.toInt c < 0
    · rw [if_pos h] at hb
      rw [decide_eq_true h, Bool.xor_true, ← decide_not, decide_eq_decide]; omega
    · rw [if_neg h] at hb
      rw [decide_eq_false h, Bool.xor_false, decide_eq_decide]; omega
  have hc : a.checked_sub_unsigned c b = (if InI256 (a.toInt c - b.toNat c)
        then some (I256.ofInt c (a.toInt c - b.toNat c)) else none) := by
    unfold I256.checked_sub_unsigned; rw [ho, checkedOf_not]
  refine ⟨?_, ho, hc, ?_⟩
  · unfold I256.wrapping_sub_unsigned; rw [I256.wrapping_sub_eq, hw]
  · unfold I256.saturating_sub_unsigned; rw [hc]
    unfold clampI256
    by_cases h : InI256 (a.toInt c - b.toNat c)
    · rw [if_pos h]; show (I256.ofInt c _).toInt c = _
      rw [I256.toInt_ofInt_of_in c h]; unfold InI256 at h; omega
    · rw [if_neg h]; unfold InI256 at h
      show (I256.MIN c).toInt c = _
      rw [I256.toInt_MIN]; omega

example : (I256.MAX dbg).checked_sub_unsigned dbg U256.MAX = some (I256.MIN dbg)
    ∧ (I256.ZERO).overflowing_sub_unsigned rel U256.MAX = (I256.ONE rel, true) := by decide

theorem InI256_neg_iff {z : Int} (h : InI256 z) : InI256 (-z) ↔ z ≠ -2 ^ 255 := by
  unfold InI256 at *; omega

/-- C06: negation; no form panics. -/
theorem C06_neg (c : Cfg) (a : I256) :
    a.wrapping_neg c = I256.ofInt c (-a.toInt c)
    ∧ a.overflowing_neg c = .ok (I256.ofInt c (-a.toInt c), decide (¬ InI256 (-a.toInt c)))
    ∧ a.checked_neg c = .ok (if InI256 (-a.toInt c) then some (I256.ofInt c (-a.toInt c)) else none)
    ∧ (a.saturating_neg c).toInt c = clampI256 (-a.toInt c) := by
  have ho : a.overflowing_neg c = .ok (I256.ofInt c (-a.toInt c), decide (¬ InI256 (-a.toInt c))) := by
    unfold I256.overflowing_neg
    rw [I256.eq_eq, I256.toInt_MIN]
    by_cases h : a.toInt c = -2 ^ 255
    · rw [if_pos (decide_eq_true h), decide_eq_true (by rw [InI256_neg_iff (I256.toInt_in c a)]; omega)]
      rw [h, I256.MIN_eq, I256.ofInt_congr c (y := - -2 ^ 255) (z := -2 ^ 255) (by decide)]; rfl
    · rw [if_neg (by simpa using h), I256.neg_eq, if_neg (fun hh => h hh.2),
        decide_eq_false (by rw [InI256_neg_iff (I256.toInt_in c a)]; omega)]; rfl
  refine ⟨I256.wrapping_neg_eq c a, ho, ?_, ?_⟩
  · unfold I256.checked_neg; rw [ho, ok_bind, pure_eq_ok, checkedOf_not]
  · unfold I256.saturating_neg; rw [(C06_sub c _ _).2.2.2, I256.toInt_ZERO, Int.zero_sub]

example : (I256.MIN dbg).overflowing_neg dbg = .ok (I256.MIN dbg, true)
    ∧ (I256.MIN rel).saturating_neg rel = I256.MAX rel := by decide

/-- C06: absolute value; no form panics. -/
theorem C06_abs (c : Cfg) (a : I256) :
    a.wrapping_abs c = I256.ofInt c (a.toInt c).natAbs
    ∧ a.overflowing_abs c = (I256.ofInt c (a.toInt c).natAbs, decide (¬ InI256 (a.toInt c).natAbs))
    ∧ a.checked_abs c = .ok (if InI256 (a.toInt c).natAbs then some (I256.ofInt c (a.toInt c).natAbs) else none)
    ∧ (a.saturating_abs c).toInt c = clampI256 (a.toInt c).natAbs
    ∧ (a.unsigned_abs c).toNat c = (a.toInt c).natAbs := by
  have h1 := I256.toInt_lt c a; have h2 := I256.le_toInt c a
  refine ⟨I256.wrapping_abs_eq c a, ?_, ?_, ?_, I256.toNat_unsigned_abs c a⟩
  · unfold I256.overflowing_abs
    rw [I256.wrapping_abs_eq, I256.eq_eq, I256.toInt_MIN, Prod.mk.injEq]
    refine ⟨rfl, ?_⟩
    rw [decide_eq_decide]; unfold InI256; omega
  · unfold I256.checked_abs
    rw [I256.is_negative_eq, (C06_neg c a).2.2.1]
    by_cases h : a.toInt c < 0
    · rw [if_pos (decide_eq_true h), show ((a.toInt c).natAbs : Int) = -a.toInt c by omega]
    · rw [if_neg (by simpa using h), show ((a.toInt c).natAbs : Int) = a.toInt c by omega,
        if_pos (I256.toInt_in c a), I256.ofInt_toInt]; rfl
  · unfold I256.saturating_abs
    rw [I256.is_negative_eq]
    by_cases h : a.toInt c < 0
    · rw [if_pos (decide_eq_true h), (C06_neg c a).2.2.2, show ((a.toInt c).natAbs : Int) = -a.toInt c by omega]
    · rw [if_neg (by simpa using h)]; unfold clampI256; omega

example : (I256.MIN dbg).unsigned_abs dbg = U256.ofNat dbg (2 ^ 255)
    ∧ (I256.new rel (-7)).checked_abs rel = .ok (some (I256.new rel 7)) := by decide

/-! ### C07 -/

/-- C07: multiplication; no form panics. -/
theorem C07_mul (c : Cfg) (a b : I256) :
    a.wrapping_mul c b = .ok (I256.ofInt c (a.toInt c * b.toInt c))
    ∧ a.overflowing_mul c b
      = .ok (I256.ofInt c (a.toInt c * b.toInt c), decide (¬ InI256 (a.toInt c * b.toInt c)))
    ∧ a.checked_mul c b = .ok (if InI256 (a.toInt c * b.toInt c)
        then some (I256.ofInt c (a.toInt c * b.toInt c)) else none)
    ∧ a.saturating_mul c b = .ok (I256.ofInt c (clampI256 (a.toInt c * b.toInt c))) := by
  have hc : a.checked_mul c b = .ok (if InI256 (a.toInt c * b.toInt c)
        then some (I256.ofInt c (a.toInt c * b.toInt c)) else none) := by
    unfold I256.checked_mul I256.overflowing_mul
    rw [Intr.imulc_eq, ok_bind, pure_eq_ok, checkedOf_not]
  refine ⟨Intr.imul3_eq c a b, Intr.imulc_eq c a b, hc, ?_⟩
  unfold I256.saturating_mul
  rw [hc, ok_bind]
  by_cases h : InI256 (a.toInt c * b.toInt c)
  · rw [if_pos h]
    have : clampI256 (a.toInt c * b.toInt c) = a.toInt c * b.toInt c := by
      unfold InI256 at h; unfold clampI256; omega
    rw [this]; rfl
  · rw [if_neg h]
    show (Except.ok (if a.lt_prim c 0 == b.lt_prim c 0 then I256.MAX c else I256.MIN c) : Res I256) = _
    congr 1
    rw [I256.lt_prim_eq, I256.lt_prim_eq, toInt_0]
    unfold InI256 at h; unfold clampI256
    by_cases ha : a.toInt c < 0 <;> by_cases hb : b.toInt c < 0 <;>
      simp only [ha, hb, decide_true, decide_false, beq_self_eq_true, if_true, Bool.false_eq_true, if_false,
        show (true == false) = false from rfl, show (false == true) = false from rfl]
    · have := Int.mul_pos_of_neg_of_neg ha hb
      rw [I256.MAX_eq]; congr 1; omega
    · have := Int.mul_nonpos_of_nonpos_of_nonneg (Int.le_of_lt ha) (Int.not_lt.1 hb)
      rw [I256.MIN_eq]; congr 1; omega
    · have := Int.mul_nonpos_of_nonneg_of_nonpos (Int.not_lt.1 ha) (Int.le_of_lt hb)
      rw [I256.MIN_eq]; congr 1; omega
    · have := Int.mul_nonneg (Int.not_lt.1 ha) (Int.not_lt.1 hb)
      rw [I256.MAX_eq]; congr 1; omega

example : (I256.MIN dbg).overflowing_mul dbg (I256.MINUS_ONE dbg) = .ok (I256.MIN dbg, true)
    ∧ (I256.MIN dbg).saturating_mul dbg (I256.new dbg 3) = .ok (I256.MIN dbg)
    ∧ (I256.new rel (-3)).checked_mul rel (I256.new rel 5) = .ok (some (I256.new rel (-15))) := by
  decide +kernel

/-! ### C08 -/

theorem C08_aux (c : Cfg) (a b : I256) (hb : b.toInt c ≠ 0) (hm : ¬ (a.toInt c = -2 ^ 255 ∧ b.toInt c = -1)) :
    b.eq_prim c 0 = false ∧ I256.minByMinusOne c a b = false
    ∧ (b.eq_prim c 0 || I256.minByMinusOne c a b) = false := by
  have h1 : b.eq_prim c 0 = false := by rw [I256.eq_prim_eq, toInt_0, decide_eq_false hb]
  have h2 : I256.minByMinusOne c a b = false := by rw [I256.minByMinusOne_eq, decide_eq_false hm]
  exact ⟨h1, h2, by rw [h1, h2]; rfl⟩

/-- C08: truncated division, every form, for a non-zero divisor and not `MIN / -1`.
`Int.tdiv` and `Int.tmod` are division rounding toward zero and its remainder. -/
theorem C08_div_rem (c : Cfg) (a b : I256) (hb : b.toInt c ≠ 0)
    (hm : ¬ (a.toInt c = -2 ^ 255 ∧ b.toInt c = -1)) :
    let q := I256.ofInt c (Int.tdiv (a.toInt c) (b.toInt c))
    let r := I256.ofInt c (Int.tmod (a.toInt c) (b.toInt c))
    a.div c b = .ok q ∧ a.rem c b = .ok r
    ∧ a.checked_div c b = .ok (some q) ∧ a.checked_rem c b = .ok (some r)
    ∧ a.wrapping_div c b = .ok q ∧ a.wrapping_rem c b = .ok r
    ∧ a.overflowing_div c b = .ok (q, false) ∧ a.overflowing_rem c b = .ok (r, false)
    ∧ a.saturating_div c b = .ok q
    ∧ a.div_rem c b = .ok (q, r) ∧ a.checked_div_rem c b = .ok (some (q, r))
    ∧ a.wrapping_div_rem c b = .ok (q, r) ∧ a.overflowing_div_rem c b = .ok (q, r, false)
    ∧ a.saturating_div_rem c b = .ok (q, r) := by
  intro q r
  obtain ⟨h1, h2, h3⟩ := C08_aux c a b hb hm
  have hd : a.div c b = .ok q := by rw [I256.div_eq, if_neg hb]
  have hr : a.rem c b = .ok r := by rw [I256.rem_eq, if_neg hb]
  have hod : a.overflowing_div c b = .ok (q, false) := by
    unfold I256.overflowing_div; rw [h2, hd]; rfl
  have hor : a.overflowing_rem c b = .ok (r, false) := by
    unfold I256.overflowing_rem; rw [h2, hr]; rfl
  have hcmp : (I256.cmp c b I256.ZERO == .eq) = false := by
    have h := I256.cmp_eq c b I256.ZERO
    rw [I256.toInt_ZERO] at h
    rw [h, beq_eq_false_iff_ne]
    intro h'; exact hb (compare_eq_iff_eq.1 h')
  have hw : a.wrapping_div_rem c b = .ok (q, r) := by
    unfold I256.wrapping_div_rem
    rw [h1]; simp only [Bool.false_eq_true, if_false]
    rw [unreachableIf_ok hcmp, ok_bind, Intr.idivmod4_eq c _ hb]; rfl
  have hodr : a.overflowing_div_rem c b = .ok (q, r, false) := by
    unfold I256.overflowing_div_rem; rw [h2, hw]; rfl
  refine ⟨hd, hr, ?_, ?_, ?_, ?_, hod, hor, ?_, ?_, ?_, hw, hodr, ?_⟩
  · unfold I256.checked_div; rw [h3, Intr.idiv3_eq c hb]; rfl
  · unfold I256.checked_rem; rw [h3, Intr.irem3_eq c hb]; rfl
  · unfold I256.wrapping_div; rw [hod]; rfl
  · unfold I256.wrapping_rem; rw [hor]; rfl
  · unfold I256.saturating_div; rw [hod]; rfl
  · unfold I256.div_rem; rw [h2, hw]; rfl
  · unfold I256.checked_div_rem
    rw [h3]; simp only [Bool.false_eq_true, if_false]
    rw [unreachableIf_ok hcmp, ok_bind, Intr.idivmod4_eq c _ hb]; rfl
  · unfold I256.saturating_div_rem; rw [hodr]; rfl

example : (I256.new dbg (-7)).div_rem dbg (I256.new dbg 2) = .ok (I256.new dbg (-3), I256.new dbg (-1))
    ∧ (I256.MIN rel).div rel (I256.new rel (-2)) = .ok (I256.ofInt rel (2 ^ 254)) := by decide +kernel

/-- C08: quotient and remainder are characterised by `a = q*b + r`, `|r| < |b|`, and `r` having the
sign of `a`; both are representable. -/
theorem C08_spec (c : Cfg) (a b : I256) (hb : b.toInt c ≠ 0)
    (hm : ¬ (a.toInt c = -2 ^ 255 ∧ b.toInt c = -1)) :
    ∃ q r, a.div_rem c b = .ok (q, r) ∧ a.toInt c = q.toInt c * b.toInt c + r.toInt c
      ∧ (r.toInt c).natAbs < (b.toInt c).natAbs ∧ (0 ≤ a.toInt c → 0 ≤ r.toInt c)
      ∧ (a.toInt c ≤ 0 → r.toInt c ≤ 0) := by
  refine ⟨_, _, (C08_div_rem c a b hb hm).2.2.2.2.2.2.2.2.2.1, ?_⟩
  have ha1 := I256.toInt_lt c a; have ha2 := I256.le_toInt c a
  have hb1 := I256.toInt_lt c b; have hb2 := I256.le_toInt c b
  have hr : (Int.tmod (a.toInt c) (b.toInt c)).natAbs < (b.toInt c).natAbs := by
    rw [Int.natAbs_tmod]; exact Nat.mod_lt _ (Int.natAbs_pos.2 hb)
  have hq : (Int.tdiv (a.toInt c) (b.toInt c)).natAbs = (a.toInt c).natAbs / (b.toInt c).natAbs :=
    Int.natAbs_tdiv ..
  have hqle := Nat.div_le_self (a.toInt c).natAbs (b.toInt c).natAbs
  have hqin : InI256 (Int.tdiv (a.toInt c) (b.toInt c)) := by
    unfold InI256
    by_cases hbig : (Int.tdiv (a.toInt c) (b.toInt c)) = 2 ^ 255
    · exfalso
      have hA : (a.toInt c).natAbs = 2 ^ 255 := by omega
      have hB : (b.toInt c).natAbs = 1 := by
        have h4 : (a.toInt c).natAbs / (b.toInt c).natAbs = (a.toInt c).natAbs := by
          rw [← hq, hbig, hA]; rfl
        rw [Nat.div_eq_self] at h4; omega
      have : a.toInt c = -2 ^ 255 := by omega
      have hb1' : b.toInt c = 1 := by omega
      rw [hb1', Int.tdiv_one] at hbig; omega
    · omega
  rw [I256.toInt_ofInt_of_in c hqin, I256.toInt_ofInt_of_in c (by unfold InI256; omega)]
  refine ⟨?_, hr, Int.tmod_nonneg _, ?_⟩
  · rw [Int.mul_comm]; exact (Int.mul_tdiv_add_tmod _ _).symm
  · intro h
    have := Int.tmod_nonneg (b.toInt c) (show 0 ≤ -a.toInt c by omega)
    rw [Int.neg_tmod] at this; omega

example : (I256.ofInt dbg (-7)).toInt dbg ≠ 0
    ∧ (I256.ofInt dbg (-7)).div_rem dbg (I256.ofInt dbg 2) = .ok (I256.ofInt dbg (-3), I256.ofInt dbg (-1))
    ∧ (I256.ofInt dbg (-7)).div_rem dbg (I256.ofInt dbg (-2)) = .ok (I256.ofInt dbg 3, I256.ofInt dbg (-1)) := by
  decide +kernel

/-- C08: a zero divisor. -/
theorem C08_zero (c : Cfg) (a b : I256) (hb : b.toInt c = 0) :
    a.checked_div c b = .ok none ∧ a.checked_rem c b = .ok none ∧ a.checked_div_rem c b = .ok none
    ∧ Panics (a.div c b) ∧ Panics (a.rem c b) ∧ Panics (a.wrapping_div c b) ∧ Panics (a.wrapping_rem c b)
    ∧ Panics (a.overflowing_div c b) ∧ Panics (a.overflowing_rem c b) ∧ Panics (a.saturating_div c b)
    ∧ Panics (a.div_rem c b) ∧ Panics (a.wrapping_div_rem c b) ∧ Panics (a.overflowing_div_rem c b)
    ∧ Panics (a.saturating_div_rem c b) := by
  have h1 : b.eq_prim c 0 = true := by rw [I256.eq_prim_eq, toInt_0, hb]; rfl
  have h2 : I256.minByMinusOne c a b = false := by
    rw [I256.minByMinusOne_eq, decide_eq_false]; omega
  have hd : a.div c b = .error (.panic .divByZero) := by rw [I256.div_eq, if_pos hb]
  have hr : a.rem c b = .error (.panic .remByZero) := by rw [I256.rem_eq, if_pos hb]
  have hcmp : (I256.cmp c b I256.ZERO != .eq) = false := by
    have h := I256.cmp_eq c b I256.ZERO
    rw [I256.toInt_ZERO, hb] at h
    rw [h]; rfl
  have hw : a.wrapping_div_rem c b = .error (.panic .divByZero) := by
    unfold I256.wrapping_div_rem
    rw [h1, if_pos rfl, unreachableIf_ok hcmp]; rfl
  refine ⟨?_, ?_, ?_, ⟨_, hd⟩, ⟨_, hr⟩, ⟨.divByZero, ?_⟩, ⟨.remByZero, ?_⟩, ⟨.divByZero, ?_⟩, ⟨.remByZero, ?_⟩,
    ⟨.divByZero, ?_⟩, ⟨.divByZero, ?_⟩, ⟨_, hw⟩, ⟨.divByZero, ?_⟩, ⟨.divByZero, ?_⟩⟩
  · unfold I256.checked_div; rw [h1]; rfl
  · unfold I256.checked_rem; rw [h1]; rfl
  · unfold I256.checked_div_rem; rw [h1]; rfl
  · unfold I256.wrapping_div I256.overflowing_div; rw [h2, hd]; rfl
  · unfold I256.wrapping_rem I256.overflowing_rem; rw [h2, hr]; rfl
  · unfold I256.overflowing_div; rw [h2, hd]; rfl
  · unfold I256.overflowing_rem; rw [h2, hr]; rfl
  · unfold I256.saturating_div I256.overflowing_div; rw [h2, hd]; rfl
  · unfold I256.div_rem; rw [h2, hw]; rfl
  · unfold I256.overflowing_div_rem; rw [h2, hw]; rfl
  · unfold I256.saturating_div_rem I256.overflowing_div_rem; rw [h2, hw]; rfl

example : (I256.ONE dbg).checked_div dbg I256.ZERO = .ok none := by decide

/-- C08: `MIN / -1`. The plain operators return `MIN` and `0` in every build (the documentation of
`div_rem` and of the standard integers has a panic here; only `div_rem` panics). -/
theorem C08_min_by_minus_one (c : Cfg) :
    let a := I256.MIN c
    let b := I256.MINUS_ONE c
    a.checked_div c b = .ok none ∧ a.checked_rem c b = .ok none ∧ a.checked_div_rem c b = .ok none
    ∧ a.wrapping_div c b = .ok a ∧ a.wrapping_rem c b = .ok I256.ZERO
    ∧ a.wrapping_div_rem c b = .ok (a, I256.ZERO)
    ∧ a.overflowing_div c b = .ok (a, true) ∧ a.overflowing_rem c b = .ok (I256.ZERO, true)
    ∧ a.overflowing_div_rem c b = .ok (a, I256.ZERO, true)
    ∧ a.saturating_div c b = .ok (I256.MAX c) ∧ a.saturating_div_rem c b = .ok (I256.MAX c, I256.ZERO)
    ∧ Panics (a.div_rem c b)
    ∧ a.div c b = .ok a ∧ a.rem c b = .ok I256.ZERO := by
  intro a b
  have ha : a.toInt c = -2 ^ 255 := I256.toInt_MIN c
  have hb : b.toInt c = -1 := I256.toInt_MINUS_ONE c
  have h1 : b.eq_prim c 0 = false := by rw [I256.eq_prim_eq, toInt_0, hb]; rfl
  have h2 : I256.minByMinusOne c a b = true := by rw [I256.minByMinusOne_eq, ha, hb]; rfl
  have h3 : (b.eq_prim c 0 || I256.minByMinusOne c a b) = true := by rw [h1, h2]; rfl
  have hq : I256.ofInt c (Int.tdiv (a.toInt c) (b.toInt c)) = a := by
    rw [ha, hb]
    show _ = I256.MIN c
    rw [I256.MIN_eq]; exact I256.ofInt_congr c (by decide)
  have hr : I256.ofInt c (Int.tmod (a.toInt c) (b.toInt c)) = I256.ZERO := by
    rw [ha, hb, I256.ZERO_eq c]; exact I256.ofInt_congr c (by decide)
  have hcmp : (I256.cmp c b I256.ZERO == .eq) = false := by
    have h := I256.cmp_eq c b I256.ZERO
    rw [I256.toInt_ZERO, hb] at h
    rw [h]; rfl
  refine ⟨?_, ?_, ?_, ?_, ?_, ?_, ?_, ?_, ?_, ?_, ?_, ⟨.divOverflow, ?_⟩, ?_, ?_⟩
  · unfold I256.checked_div; rw [h3]; rfl
  · unfold I256.checked_rem; rw [h3]; rfl
  · unfold I256.checked_div_rem; rw [h3]; rfl
  · unfold I256.wrapping_div I256.overflowing_div; rw [h2]; rfl
  · unfold I256.wrapping_rem I256.overflowing_rem; rw [h2]; rfl
  · unfold I256.wrapping_div_rem
    rw [h1]; simp only [Bool.false_eq_true, if_false]
    rw [unreachableIf_ok hcmp, ok_bind, Intr.idivmod4_eq c _ (by omega), hq]
    simp only [if_true, ok_bind, Intr.assumeInit, hr]; rfl
  · unfold I256.overflowing_div; rw [h2]; rfl
  · unfold I256.overflowing_rem; rw [h2]; rfl
  · unfold I256.overflowing_div_rem; rw [h2]; rfl
  · unfold I256.saturating_div I256.overflowing_div; rw [h2]; rfl
  · unfold I256.saturating_div_rem I256.overflowing_div_rem; rw [h2]; rfl
  · unfold I256.div_rem; rw [h2]; rfl
  · rw [I256.div_eq, if_neg (by omega), hq]
  · rw [I256.rem_eq, if_neg (by omega), hr]

/-! ### C09 -/

/-- C09: the Euclidean quotient and remainder. `Int`'s `/` and `%` are Euclidean division:
`a = q*b + r` and `0 ≤ r < |b|` (see `C09_spec`). -/
theorem C09_div_euclid_rem_euclid (c : Cfg) (a b : I256) (hb : b.toInt c ≠ 0)
    (hm : ¬ (a.toInt c = -2 ^ 255 ∧ b.toInt c = -1)) :
    let q := I256.ofInt c (a.toInt c / b.toInt c)
    let r := I256.ofInt c (a.toInt c % b.toInt c)
    a.div_euclid c b = .ok q ∧ a.rem_euclid c b = .ok r
    ∧ a.checked_div_euclid c b = .ok (some q) ∧ a.checked_rem_euclid c b = .ok (some r)
    ∧ a.wrapping_div_euclid c b = .ok q ∧ a.wrapping_rem_euclid c b = .ok r
    ∧ a.overflowing_div_euclid c b = .ok (q, false) ∧ a.overflowing_rem_euclid c b = .ok (r, false) := by
  intro q r
  obtain ⟨h1, h2, h3⟩ := C08_aux c a b hb hm
  have ha1 := I256.toInt_lt c a; have ha2 := I256.le_toInt c a
  have hb1 := I256.toInt_lt c b; have hb2 := I256.le_toInt c b
  have hdiv := I256.div_eq c a b
  have hrem := I256.rem_eq c a b
  rw [if_neg hb] at hdiv hrem
  have htd : Int.tdiv (a.toInt c) (b.toInt c) = _ := Int.tdiv_eq_ediv
  have htm : Int.tmod (a.toInt c) (b.toInt c) = _ := Int.tmod_eq_emod
  have hmn := Int.emod_nonneg (a.toInt c) hb
  have hml := Int.emod_lt_abs (a.toInt c) hb
  rw [Int.abs_eq_natAbs] at hml
  have hdvd : b.toInt c ∣ a.toInt c ↔ a.toInt c % b.toInt c = 0 := Int.dvd_iff_emod_eq_zero ..
  have hqb : a.toInt c % b.toInt c ≠ 0 →
      -2 ^ 254 - 1 ≤ a.toInt c / b.toInt c ∧ a.toInt c / b.toInt c ≤ 2 ^ 254 + 1 := by
    intro hne
    obtain ⟨e1, e2⟩ := I256.euclid_of_abs (a.toInt c) (b.toInt c) hb
    have hR : (a.toInt c).natAbs % (b.toInt c).natAbs ≠ 0 := by
      intro h0; rw [h0] at e2; apply hne; rw [e2]; simp
    have hh := I256.quot_half (A := (a.toInt c).natAbs) (by omega)
      (I256.two_le_of_mod (by omega) hR)
    generalize (a.toInt c).natAbs / (b.toInt c).natAbs = Q at *
    rw [e1]
    split <;> split <;> omega
  have hde : a.div_euclid c b = .ok q := by
    unfold I256.div_euclid
    rw [hdiv, hrem]; simp only [ok_bind]
    rw [I256.lt_prim_eq, toInt_0, I256.gt_prim_eq, toInt_0]
    by_cases hcase : 0 ≤ a.toInt c ∨ b.toInt c ∣ a.toInt c
    · rw [if_pos hcase] at htd htm
      rw [htm, I256.toInt_ofInt_of_in c (by unfold InI256; omega), if_neg (by rw [decide_eq_true_eq]; omega), htd]
      simp [q]
    · rw [if_neg hcase] at htd htm
      have hne : a.toInt c % b.toInt c ≠ 0 := fun h => hcase (Or.inr (hdvd.2 h))
      have hq1 := hqb hne
      rw [htm, I256.toInt_ofInt_of_in c (by unfold InI256; omega), if_pos (decide_eq_true (by omega))]
      by_cases hbp : 0 < b.toInt c
      · rw [Int.sign_eq_one_of_pos hbp] at htd
        have hin : InI256 (a.toInt c / b.toInt c + 1) := by unfold InI256; omega
        rw [if_pos (by simpa using hbp), htd,
          I256.sub_one_eq c _ (by rw [I256.toInt_ofInt_of_in c hin]; unfold InI256; omega),
          I256.toInt_ofInt_of_in c hin, Int.add_sub_cancel]
      · rw [Int.sign_eq_neg_one_of_neg (by omega)] at htd
        have hin : InI256 (a.toInt c / b.toInt c + -1) := by unfold InI256; omega
        rw [if_neg (by simpa using hbp), htd,
          I256.add_one_eq c _ (by rw [I256.toInt_ofInt_of_in c hin]; unfold InI256; omega),
          I256.toInt_ofInt_of_in c hin, Int.neg_add_cancel_right]
  have hre : a.rem_euclid c b = .ok r := by
    unfold I256.rem_euclid
    rw [hrem]; simp only [ok_bind]
    rw [I256.lt_prim_eq, toInt_0, I256.lt_prim_eq, toInt_0]
    by_cases hcase : 0 ≤ a.toInt c ∨ b.toInt c ∣ a.toInt c
    · rw [if_pos hcase] at htm
      rw [htm, I256.toInt_ofInt_of_in c (by unfold InI256; omega), if_neg (by rw [decide_eq_true_eq]; omega)]
      simp [r]
    · rw [if_neg hcase] at htm
      have hin : InI256 (a.toInt c % b.toInt c - ((b.toInt c).natAbs : Int)) := by unfold InI256; omega
      rw [htm, I256.toInt_ofInt_of_in c hin, if_pos (decide_eq_true (by omega))]
      by_cases hbp : b.toInt c < 0
      · rw [if_pos (by simpa using hbp), I256.sub_eq, I256.toInt_ofInt_of_in c hin,
          show a.toInt c % b.toInt c - ((b.toInt c).natAbs : Int) - b.toInt c = a.toInt c % b.toInt c by omega,
          if_neg (fun h => h.2 (by unfold InI256; omega))]
      · rw [if_neg (by simpa using hbp), I256.add_eq, I256.toInt_ofInt_of_in c hin,
          show a.toInt c % b.toInt c - ((b.toInt c).natAbs : Int) + b.toInt c = a.toInt c % b.toInt c by omega,
          if_neg (fun h => h.2 (by unfold InI256; omega))]
  refine ⟨hde, hre, ?_, ?_, ?_, ?_, ?_, ?_⟩
  · unfold I256.checked_div_euclid; rw [h3, hde]; rfl
  · unfold I256.checked_rem_euclid; rw [h3, hre]; rfl
  · unfold I256.wrapping_div_euclid I256.overflowing_div_euclid; rw [h2, hde]; rfl
  · unfold I256.wrapping_rem_euclid I256.overflowing_rem_euclid; rw [h2, hre]; rfl
  · unfold I256.overflowing_div_euclid; rw [h2, hde]; rfl
  · unfold I256.overflowing_rem_euclid; rw [h2, hre]; rfl

example : (I256.new dbg (-7)).div_euclid dbg (I256.new dbg 2) = .ok (I256.new dbg (-4))
    ∧ (I256.new dbg (-7)).rem_euclid dbg (I256.new dbg (-2)) = .ok (I256.ONE dbg)
    ∧ (I256.new dbg (-1)).rem_euclid dbg (I256.MIN dbg) = .ok (I256.MAX dbg) := by decide +kernel

/-- C09: `Int`'s `/` and `%` at the values at hand are representable and are the Euclidean pair. -/
theorem C09_spec (c : Cfg) (a b : I256) (hb : b.toInt c ≠ 0)
    (hm : ¬ (a.toInt c = -2 ^ 255 ∧ b.toInt c = -1)) :
    ∃ q r, a.div_euclid c b = .ok q ∧ a.rem_euclid c b = .ok r
      ∧ a.toInt c = q.toInt c * b.toInt c + r.toInt c
      ∧ 0 ≤ r.toInt c ∧ r.toInt c < (b.toInt c).natAbs := by
  obtain ⟨h1, h2, _⟩ := C09_div_euclid_rem_euclid c a b hb hm
  refine ⟨_, _, h1, h2, ?_⟩
  have ha1 := I256.toInt_lt c a; have ha2 := I256.le_toInt c a
  have hb1 := I256.toInt_lt c b; have hb2 := I256.le_toInt c b
  have hmn := Int.emod_nonneg (a.toInt c) hb
  have hml := Int.emod_lt_abs (a.toInt c) hb
  rw [Int.abs_eq_natAbs] at hml
  have hq : InI256 (a.toInt c / b.toInt c) := by
    obtain ⟨e1, e2⟩ := I256.euclid_of_abs (a.toInt c) (b.toInt c) hb
    have hqle := Nat.div_le_self (a.toInt c).natAbs (b.toInt c).natAbs
    have hh : (a.toInt c).natAbs % (b.toInt c).natAbs ≠ 0 →
        (a.toInt c).natAbs / (b.toInt c).natAbs ≤ 2 ^ 254 := fun h =>
      I256.quot_half (by omega) (I256.two_le_of_mod (by omega) h)
    have hbig : (a.toInt c).natAbs / (b.toInt c).natAbs = 2 ^ 255 → a.toInt c < 0 ∧ ¬ b.toInt c < 0 := by
      intro h
      have hA : (a.toInt c).natAbs = 2 ^ 255 := by omega
      have hB : (b.toInt c).natAbs = 1 := by
        rw [hA, ← hA] at h
        have h4 : (a.toInt c).natAbs / (b.toInt c).natAbs = (a.toInt c).natAbs := by omega
        rw [Nat.div_eq_self] at h4; omega
      constructor <;> omega
    generalize (a.toInt c).natAbs / (b.toInt c).natAbs = Q at *
    generalize (a.toInt c).natAbs % (b.toInt c).natAbs = R at *
    rw [e1]
    unfold InI256
    by_cases hx : a.toInt c < 0 <;> by_cases hy : b.toInt c < 0 <;>
      simp only [hx, hy, decide_true, decide_false, Bool.xor_true, Bool.xor_false, Bool.not_true, Bool.not_false,
        Bool.false_eq_true, if_true, if_false, true_and, false_and] <;> (try split) <;> omega
  rw [I256.toInt_ofInt_of_in c hq, I256.toInt_ofInt_of_in c (by unfold InI256; omega)]
  refine ⟨?_, hmn, hml⟩
  rw [Int.mul_comm]; exact (Int.mul_ediv_add_emod _ _).symm

example : (I256.ofInt dbg (-7)).div_euclid dbg (I256.ofInt dbg 2) = .ok (I256.ofInt dbg (-4))
    ∧ (I256.ofInt dbg (-7)).rem_euclid dbg (I256.ofInt dbg 2) = .ok (I256.ofInt dbg 1)
    ∧ (I256.ofInt dbg (-7)).div_euclid dbg (I256.ofInt dbg (-2)) = .ok (I256.ofInt dbg 4) := by
  decide +kernel

/-- C09, the `div_rem_euclid` family, partial: every case except divisor `MIN` with a negative dividend
that it does not divide, in builds with debug assertions (where the code panics, see
`C09_div_rem_euclid_panics`). The full property claims the same conclusion without `hd`. -/
theorem C09_div_rem_euclid_partial (c : Cfg) (a b : I256) (hb : b.toInt c ≠ 0)
    (hm : ¬ (a.toInt c = -2 ^ 255 ∧ b.toInt c = -1))
    (hd : c.debugAssertions = true → b.toInt c = -2 ^ 255 → a.toInt c < 0 → a.toInt c % b.toInt c = 0) :
    let q := I256.ofInt c (a.toInt c / b.toInt c)
    let r := I256.ofInt c (a.toInt c % b.toInt c)
    a.div_rem_euclid c b = .ok (q, r) ∧ a.checked_div_rem_euclid c b = .ok (some (q, r))
    ∧ a.wrapping_div_rem_euclid c b = .ok (q, r) ∧ a.overflowing_div_rem_euclid c b = .ok (q, r, false)
    ∧ a.saturating_div_rem_euclid c b = .ok (q, r) := by
  intro q r
  obtain ⟨h1, h2, h3⟩ := C08_aux c a b hb hm
  have hw : a.wrapping_div_rem_euclid c b = .ok (q, r) := by
    rw [I256.wrapping_div_rem_euclid_eq c a b hb, if_neg (fun h => h.2.2.2 (hd h.1 h.2.1 h.2.2.1))]
  have hcmp : (I256.cmp c b I256.ZERO == .eq) = false := by
    have h := I256.cmp_eq c b I256.ZERO
    rw [I256.toInt_ZERO] at h
    rw [h, beq_eq_false_iff_ne]
    intro h'; exact hb (compare_eq_iff_eq.1 h')
  have ho : a.overflowing_div_rem_euclid c b = .ok (q, r, false) := by
    unfold I256.overflowing_div_rem_euclid; rw [h2, hw]; rfl
  refine ⟨?_, ?_, hw, ho, ?_⟩
  · unfold I256.div_rem_euclid; rw [h2, hw]; rfl
  · unfold I256.checked_div_rem_euclid
    rw [h3]; simp only [Bool.false_eq_true, if_false]
    rw [unreachableIf_ok hcmp, ok_bind, hw]; rfl
  · unfold I256.saturating_div_rem_euclid; rw [ho]; rfl

example : (I256.new dbg (-7)).div_rem_euclid dbg (I256.new dbg (-2)) = .ok (I256.new dbg 4, I256.ONE dbg)
    ∧ (I256.new rel (-1)).wrapping_div_rem_euclid rel (I256.MIN rel) = .ok (I256.ONE rel, I256.MAX rel)
    ∧ (I256.new dbg 5).div_rem_euclid dbg (I256.MIN dbg) = .ok (I256.ZERO, I256.new dbg 5) := by decide +kernel

/-- C09 fails: in a debug build every form of `div_rem_euclid`, even the checked and wrapping ones,
panics when the divisor is `MIN` and the dividend is negative and not `MIN`. -/
theorem C09_div_rem_euclid_panics (c : Cfg) (hc : c.debugAssertions = true) (a : I256)
    (ha : a.toInt c < 0) (ha' : a.toInt c ≠ -2 ^ 255) :
    Panics (a.div_rem_euclid c (I256.MIN c)) ∧ Panics (a.checked_div_rem_euclid c (I256.MIN c))
    ∧ Panics (a.wrapping_div_rem_euclid c (I256.MIN c)) ∧ Panics (a.overflowing_div_rem_euclid c (I256.MIN c))
    ∧ Panics (a.saturating_div_rem_euclid c (I256.MIN c)) := by
  have hb : (I256.MIN c).toInt c = -2 ^ 255 := I256.toInt_MIN c
  have hb0 : (I256.MIN c).toInt c ≠ 0 := by omega
  obtain ⟨h1, h2, h3⟩ := C08_aux c a (I256.MIN c) hb0 (by omega)
  have h4 := I256.le_toInt c a
  have hne : a.toInt c % (I256.MIN c).toInt c ≠ 0 := by
    rw [hb, Int.emod_neg]; omega
  have hw : a.wrapping_div_rem_euclid c (I256.MIN c) = .error (.panic .subOverflow) := by
    rw [I256.wrapping_div_rem_euclid_eq c a _ hb0, if_pos ⟨hc, hb, ha, hne⟩]
  have hcmp : (I256.cmp c (I256.MIN c) I256.ZERO == .eq) = false := by
    have h := I256.cmp_eq c (I256.MIN c) I256.ZERO
    rw [I256.toInt_ZERO] at h
    rw [h, beq_eq_false_iff_ne]
    intro h'; exact hb0 (compare_eq_iff_eq.1 h')
  refine ⟨⟨.subOverflow, ?_⟩, ⟨.subOverflow, ?_⟩, ⟨_, hw⟩, ⟨.subOverflow, ?_⟩, ⟨.subOverflow, ?_⟩⟩
  · unfold I256.div_rem_euclid; rw [h2, hw]; rfl
  · unfold I256.checked_div_rem_euclid
    rw [h3]; simp only [Bool.false_eq_true, if_false]
    rw [unreachableIf_ok hcmp, ok_bind, hw]; rfl
  · unfold I256.overflowing_div_rem_euclid; rw [h2, hw]; rfl
  · unfold I256.saturating_div_rem_euclid I256.overflowing_div_rem_euclid; rw [h2, hw]; rfl

example : (I256.MINUS_ONE dbg).checked_div_rem_euclid dbg (I256.MIN dbg) = .error (.panic .subOverflow) := by
  decide +kernel

/-- C09: a zero divisor. -/
theorem C09_zero (c : Cfg) (a b : I256) (hb : b.toInt c = 0) :
    a.checked_div_euclid c b = .ok none ∧ a.checked_rem_euclid c b = .ok none
    ∧ a.checked_div_rem_euclid c b = .ok none
    ∧ Panics (a.div_euclid c b) ∧ Panics (a.rem_euclid c b) ∧ Panics (a.wrapping_div_euclid c b)
    ∧ Panics (a.wrapping_rem_euclid c b) ∧ Panics (a.overflowing_div_euclid c b)
    ∧ Panics (a.overflowing_rem_euclid c b) ∧ Panics (a.div_rem_euclid c b)
    ∧ Panics (a.wrapping_div_rem_euclid c b) ∧ Panics (a.overflowing_div_rem_euclid c b)
    ∧ Panics (a.saturating_div_rem_euclid c b) := by
  have h1 : b.eq_prim c 0 = true := by rw [I256.eq_prim_eq, toInt_0, hb]; rfl
  have h2 : I256.minByMinusOne c a b = false := by
    rw [I256.minByMinusOne_eq, decide_eq_false]; omega
  have hd : a.div_euclid c b = .error (.panic .divByZero) := by
    unfold I256.div_euclid; rw [I256.div_eq, if_pos hb]; rfl
  have hr : a.rem_euclid c b = .error (.panic .remByZero) := by
    unfold I256.rem_euclid; rw [I256.rem_eq, if_pos hb]; rfl
  have hw := I256.wrapping_div_rem_euclid_zero c a b hb
  refine ⟨?_, ?_, ?_, ⟨_, hd⟩, ⟨_, hr⟩, ⟨.divByZero, ?_⟩, ⟨.remByZero, ?_⟩, ⟨.divByZero, ?_⟩, ⟨.remByZero, ?_⟩,
    ⟨.divByZero, ?_⟩, ⟨_, hw⟩, ⟨.divByZero, ?_⟩, ⟨.divByZero, ?_⟩⟩
  · unfold I256.checked_div_euclid; rw [h1]; rfl
  · unfold I256.checked_rem_euclid; rw [h1]; rfl
  · unfold I256.checked_div_rem_euclid; rw [h1]; rfl
  · unfold I256.wrapping_div_euclid I256.overflowing_div_euclid; rw [h2, hd]; rfl
  · unfold I256.wrapping_rem_euclid I256.overflowing_rem_euclid; rw [h2, hr]; rfl
  · unfold I256.overflowing_div_euclid; rw [h2, hd]; rfl
  · unfold I256.overflowing_rem_euclid; rw [h2, hr]; rfl
  · unfold I256.div_rem_euclid; rw [h2, hw]; rfl
  · unfold I256.overflowing_div_rem_euclid; rw [h2, hw]; rfl
  · unfold I256.saturating_div_rem_euclid I256.overflowing_div_rem_euclid; rw [h2, hw]; rfl

example : I256.ZERO.toInt dbg = 0 ∧ (I256.ofInt dbg 7).checked_rem_euclid dbg I256.ZERO = .ok none := by
  decide +kernel

/-- C09: `(MIN, -1)`. -/
theorem C09_min_by_minus_one (c : Cfg) :
    let a := I256.MIN c
    let b := I256.MINUS_ONE c
    a.checked_div_euclid c b = .ok none ∧ a.checked_rem_euclid c b = .ok none
    ∧ a.checked_div_rem_euclid c b = .ok none
    ∧ a.wrapping_div_euclid c b = .ok a ∧ a.wrapping_rem_euclid c b = .ok I256.ZERO
    ∧ a.wrapping_div_rem_euclid c b = .ok (a, I256.ZERO)
    ∧ a.overflowing_div_euclid c b = .ok (a, true) ∧ a.overflowing_rem_euclid c b = .ok (I256.ZERO, true)
    ∧ a.overflowing_div_rem_euclid c b = .ok (a, I256.ZERO, true)
    ∧ a.saturating_div_rem_euclid c b = .ok (I256.MAX c, I256.ZERO)
    ∧ Panics (a.div_rem_euclid c b)
    ∧ a.div_euclid c b = .ok a ∧ a.rem_euclid c b = .ok I256.ZERO := by
  intro a b
  have ha : a.toInt c = -2 ^ 255 := I256.toInt_MIN c
  have hb : b.toInt c = -1 := I256.toInt_MINUS_ONE c
  have h1 : b.eq_prim c 0 = false := by rw [I256.eq_prim_eq, toInt_0, hb]; rfl
  have h2 : I256.minByMinusOne c a b = true := by rw [I256.minByMinusOne_eq, ha, hb]; rfl
  have h3 : (b.eq_prim c 0 || I256.minByMinusOne c a b) = true := by rw [h1, h2]; rfl
  obtain ⟨_, _, _, _, _, _, _, _, _, _, _, _, hdiv, hrem⟩ := C08_min_by_minus_one c
  refine ⟨?_, ?_, ?_, ?_, ?_, ?_, ?_, ?_, ?_, ?_, ⟨.divOverflow, ?_⟩, ?_, ?_⟩
  · unfold I256.checked_div_euclid; rw [h3]; rfl
  · unfold I256.checked_rem_euclid; rw [h3]; rfl
  · unfold I256.checked_div_rem_euclid; rw [h3]; rfl
  · unfold I256.wrapping_div_euclid I256.overflowing_div_euclid; rw [h2]; rfl
  · unfold I256.wrapping_rem_euclid I256.overflowing_rem_euclid; rw [h2]; rfl
  · rw [I256.wrapping_div_rem_euclid_eq c a b (by omega), if_neg (by omega)]
    congr 2
    · rw [ha, hb]; show _ = I256.MIN c
      rw [I256.MIN_eq]; exact I256.ofInt_congr c (by decide)
    · rw [ha, hb, I256.ZERO_eq c]; exact I256.ofInt_congr c (by decide)
  · unfold I256.overflowing_div_euclid; rw [h2]; rfl
  · unfold I256.overflowing_rem_euclid; rw [h2]; rfl
  · unfold I256.overflowing_div_rem_euclid; rw [h2]; rfl
  · unfold I256.saturating_div_rem_euclid I256.overflowing_div_rem_euclid; rw [h2]; rfl
  · unfold I256.div_rem_euclid; rw [h2]; rfl
  · unfold I256.div_euclid; rw [hdiv, ok_bind, hrem, ok_bind, I256.lt_prim_eq, I256.toInt_ZERO]; rfl
  · unfold I256.rem_euclid; rw [hrem, ok_bind, I256.lt_prim_eq, I256.toInt_ZERO]; rfl

/-! ### C11 -/

theorem u32_gt_255' (n : U32) : decide (n > 255) = decide (255 < n.toNat) := by
  rw [decide_eq_decide, gt_iff_lt, BitVec.lt_def]; rfl

/-- C11: left shift methods of `I256`, for every shift amount. -/
theorem C11_shl (c : Cfg) (a : I256) (n : U32) :
    let r := I256.ofInt c (a.toInt c * 2 ^ (n.toNat % 256))
    a.wrapping_shl c n = .ok r
    ∧ a.overflowing_shl c n = .ok (r, decide (255 < n.toNat))
    ∧ a.checked_shl c n = .ok (if n.toNat ≤ 255 then some r else none) := by
  intro r
  have hw : a.wrapping_shl c n = .ok r := by
    unfold I256.wrapping_shl
    rw [Intr.ishl3_eq c a _ (by rw [toNat_and_ff]; omega), toNat_and_ff]
  have ho : a.overflowing_shl c n = .ok (r, decide (255 < n.toNat)) := by
    unfold I256.overflowing_shl; rw [hw, ok_bind, u32_gt_255']; rfl
  refine ⟨hw, ho, ?_⟩
  unfold I256.checked_shl
  rw [ho, ok_bind, pure_eq_ok, checkedOf_mk]
  by_cases h : n.toNat ≤ 255
  · rw [if_neg (by omega), if_pos h]
  · rw [if_pos (by omega), if_neg h]

example : (I256.MINUS_ONE dbg).overflowing_shl dbg 260 = .ok (I256.new dbg (-16), true) := by decide

/-- C11: arithmetic right shift; `Int`'s `/` rounds down for a positive divisor. -/
theorem C11_shr (c : Cfg) (a : I256) (n : U32) :
    let r := I256.ofInt c (a.toInt c / 2 ^ (n.toNat % 256))
    a.wrapping_shr c n = .ok r
    ∧ a.overflowing_shr c n = .ok (r, decide (255 < n.toNat))
    ∧ a.checked_shr c n = .ok (if n.toNat ≤ 255 then some r else none) := by
  intro r
  have hw : a.wrapping_shr c n = .ok r := by
    unfold I256.wrapping_shr
    rw [Intr.sar3_eq c a _ (by rw [toNat_and_ff]; omega), toNat_and_ff]
  have ho : a.overflowing_shr c n = .ok (r, decide (255 < n.toNat)) := by
    unfold I256.overflowing_shr; rw [hw, ok_bind, u32_gt_255']; rfl
  refine ⟨hw, ho, ?_⟩
  unfold I256.checked_shr
  rw [ho, ok_bind, pure_eq_ok, checkedOf_mk]
  by_cases h : n.toNat ≤ 255
  · rw [if_neg (by omega), if_pos h]
  · rw [if_pos (by omega), if_neg h]

example : (I256.new rel (-5)).wrapping_shr rel 1 = .ok (I256.new rel (-3))
    ∧ (I256.MIN dbg).checked_shr dbg 255 = .ok (some (I256.MINUS_ONE dbg)) := by decide

/-! ### C19 (I256) -/

/-- C19: the absolute difference of two `I256`, as a `U256`. -/
theorem C19_i256_abs_diff (c : Cfg) (a b : I256) :
    (a.abs_diff c b).toNat c = (a.toInt c - b.toInt c).natAbs := by
  unfold I256.abs_diff U256.wrapping_sub
  rw [I256.lt_eq]
  have ha := I256.toNat_toInt c a; have hb := I256.toNat_toInt c b
  have ha1 := I256.toInt_lt c a; have ha2 := I256.le_toInt c a
  have hb1 := I256.toInt_lt c b; have hb2 := I256.le_toInt c b
  by_cases h : a.toInt c < b.toInt c
  · rw [if_pos (decide_eq_true h), Intr.sub3_eq, I256.toNat_as_u256, I256.toNat_as_u256]
    have := U256.toNat_ofInt c (b.toNat c - a.toNat c)
    omega
  · rw [if_neg (by simpa using h), Intr.sub3_eq, I256.toNat_as_u256, I256.toNat_as_u256]
    have := U256.toNat_ofInt c (a.toNat c - b.toNat c)
    omega

example : (I256.MIN dbg).abs_diff dbg (I256.MAX dbg) = U256.MAX := by decide

/-! ### C44 -/

/-- C44: sign functions. -/
theorem C44_sign (c : Cfg) (a : I256) :
    (a.signum c).toInt c = Int.sign (a.toInt c)
    ∧ (a.signum128 c).toInt = Int.sign (a.toInt c)
    ∧ a.is_positive c = decide (0 < a.toInt c)
    ∧ a.is_negative c = decide (a.toInt c < 0) := by
  refine ⟨?_, I256.signum128_toInt c a, ?_, I256.is_negative_eq c a⟩
  · unfold I256.signum; rw [I256.toInt_new, I256.signum128_toInt]
  · unfold I256.is_positive; rw [I256.signum128_toInt, decide_eq_decide, Int.sign_pos_iff]

example : (I256.from_words dbg 0 5).is_positive dbg = true ∧ (I256.MIN rel).signum rel = I256.MINUS_ONE rel
    ∧ (I256.from_words dbg 1 0).signum128 dbg = 1 := by decide

/-- C44: `abs` is exact, except that `MIN` panics with and gives `MIN` without debug assertions. -/
theorem C44_abs (c : Cfg) (a : I256) :
    (a ≠ I256.MIN c → ∃ r, a.abs c = .ok r ∧ r.toInt c = (a.toInt c).natAbs)
    ∧ ((I256.MIN c).abs c = if c.debugAssertions then .error (.panic .negOverflow) else .ok (I256.MIN c)) := by
  have h1 := I256.toInt_lt c a; have h2 := I256.le_toInt c a
  constructor
  · intro h
    rw [_root_.ne_eq, I256.toInt_MIN_iff] at h
    unfold I256.abs
    rw [I256.is_negative_eq]
    by_cases hn : a.toInt c < 0
    · rw [if_pos (decide_eq_true hn), I256.neg_eq, if_neg (fun hh => h hh.2)]
      exact ⟨_, rfl, by rw [I256.toInt_ofInt_of_in c (by unfold InI256; omega)]; omega⟩
    · rw [if_neg (by simpa using hn)]
      exact ⟨_, rfl, by omega⟩
  · unfold I256.abs
    rw [I256.is_negative_eq, I256.toInt_MIN, if_pos (by decide), I256.neg_eq, I256.toInt_MIN]
    by_cases hd : c.debugAssertions = true
    · rw [if_pos ⟨hd, rfl⟩, if_pos hd]
    · rw [if_neg (fun h => hd h.1), if_neg hd, I256.MIN_eq]
      exact congrArg _ (I256.ofInt_congr c (by decide))

example : (I256.new dbg (-9)).abs dbg = .ok (I256.new dbg 9) := by decide

end Ethnum
