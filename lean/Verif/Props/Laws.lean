import Verif.Props.Operators
import Verif.Props.Pow
import Verif.Props.Convert
import Verif.Props.Fmt
import Verif.Props.Bits
import Verif.Props.Programs

/-
C52 the checked, overflowing, wrapping and saturating forms of an operation agree, C53 the primitive integers are embedded
in `U256` and `I256`.
-/

namespace Ethnum

/-! ### C52 -/

/-- The forms of one operation agree: the overflowing form returns a value and a flag; the wrapping form returns the value,
and the checked form returns it if the flag is off and nothing if it is on. -/
def Agree {T : Type} (checked : Res (Option T)) (overflowing : Res (T × Bool)) (wrapping : Res T) : Prop :=
  ∃ v o, overflowing = .ok (v, o) ∧ wrapping = .ok v ∧ checked = .ok (if o = true then none else some v)

/-- The operator agrees with the other forms: it panics on overflow with debug assertions, and wraps otherwise. -/
def OpAgree {T : Type} (c : Cfg) (op : Res T) (overflowing : Res (T × Bool)) : Prop :=
  ∃ v o, overflowing = .ok (v, o) ∧ (if c.debugAssertions = true ∧ o = true then Panics op else op = .ok v)

/-- The saturating form agrees with the checked one: it returns the same value, or a bound when there is none. -/
def SatAgree {T : Type} (saturating : Res T) (checked : Res (Option T)) (bound : T) : Prop :=
  ∃ r, checked = .ok r ∧ saturating = .ok (r.getD bound)

/-- C52 for `U256`. Addition, subtraction, multiplication, addition of a signed number, negation, powers and shifts. -/
theorem C52_u256 (c : Cfg) (a b : U256) (s : I256) (n : U32) :
    Agree (.ok (a.checked_add c b)) (.ok (a.overflowing_add c b)) (.ok (a.wrapping_add c b))
    ∧ Agree (.ok (a.checked_sub c b)) (.ok (a.overflowing_sub c b)) (.ok (a.wrapping_sub c b))
    ∧ Agree (a.checked_mul c b) (a.overflowing_mul c b) (a.wrapping_mul c b)
    ∧ Agree (.ok (a.checked_add_signed c s)) (.ok (a.overflowing_add_signed c s)) (.ok (a.wrapping_add_signed c s))
    ∧ Agree (.ok (a.checked_neg c)) (.ok (a.overflowing_neg c)) (.ok (a.wrapping_neg c))
    ∧ Agree (a.checked_pow c n) (a.overflowing_pow c n) (a.wrapping_pow c n)
    ∧ Agree (a.checked_shl c n) (a.overflowing_shl c n) (a.wrapping_shl c n)
    ∧ Agree (a.checked_shr c n) (a.overflowing_shr c n) (a.wrapping_shr c n) := by
  refine ⟨⟨_, _, by rw [(C02_overflowing c a b).1], by rw [(C02_wrapping c a b).1], ?_⟩,
    ⟨_, _, by rw [(C02_overflowing c a b).2], by rw [(C02_wrapping c a b).2.1], ?_⟩,
    ⟨_, _, (C03_mul c a b).2.1, (C03_mul c a b).1, ?_⟩,
    ⟨_, _, by rw [(C02_add_signed c a s).2.1], by rw [(C02_add_signed c a s).1], ?_⟩,
    ⟨_, _, by rw [(C02_neg c a).2.1], by rw [(C02_neg c a).1], ?_⟩,
    ⟨_, _, (C16_pow c a n).2.1, (C16_pow c a n).1, ?_⟩,
    ⟨_, _, (C10_shl c a n).2.1, (C10_shl c a n).1, ?_⟩,
    ⟨_, _, (C10_shr c a n).2.1, (C10_shr c a n).1, ?_⟩⟩
  · rw [(C02_checked c a b).1]; simp only [decide_eq_true_eq]
    split <;> split <;> first | rfl | omega
  · rw [(C02_checked c a b).2]; simp only [decide_eq_true_eq]
    split
    · rw [if_neg (by omega), ← U256.ofInt_natCast, Int.natCast_sub (by omega)]
    · rw [if_pos (by omega)]
  · rw [(C03_mul c a b).2.2.1]; simp only [decide_eq_true_eq]
    split <;> split <;> first | rfl | omega
  · rw [(C02_add_signed c a s).2.2.1]; simp only [decide_eq_true_eq]
    split <;> split <;> first | rfl | omega
  · rw [(C02_neg c a).2.2]; simp only [decide_eq_true_eq]
    split
    · next h => rw [if_neg (by simp [h]), h]; congr 2; exact U256.toNat_inj c (by simp [U256.toNat_ZERO]; exact_mod_cast (U256.toNat_ofInt c 0).symm)
    · rfl
  · rw [(C16_pow c a n).2.2.1]; simp only [decide_eq_true_eq]
    split <;> split <;> first | rfl | omega
  · rw [(C10_shl c a n).2.2]; simp only [decide_eq_true_eq]
    split <;> split <;> first | rfl | omega
  · rw [(C10_shr c a n).2.2]; simp only [decide_eq_true_eq]
    split <;> split <;> first | rfl | omega

/-- C52: the operators of `U256`. -/
theorem C52_u256_ops (c : Cfg) (a b : U256) (n : U32) :
    OpAgree c (a.add c b) (.ok (a.overflowing_add c b)) ∧ OpAgree c (a.sub c b) (.ok (a.overflowing_sub c b))
    ∧ OpAgree c (a.mul c b) (a.overflowing_mul c b) ∧ OpAgree c (a.pow c n) (a.overflowing_pow c n) := by
  refine ⟨⟨_, _, by rw [(C02_overflowing c a b).1], ?_⟩, ⟨_, _, by rw [(C02_overflowing c a b).2], ?_⟩,
    ⟨_, _, (C03_mul c a b).2.1, ?_⟩, ⟨_, _, (C16_pow c a n).2.1, ?_⟩⟩
  · rw [(C25_u256 c a b).1]; simp only [decide_eq_true_eq]
    split
    · exact ⟨_, rfl⟩
    · rfl
  · rw [(C25_u256 c a b).2.1]; simp only [decide_eq_true_eq]
    by_cases h : c.debugAssertions = true ∧ a.toNat c < b.toNat c
    · rw [if_pos h, if_pos ⟨h.1, by have := h.2; omega⟩]; exact ⟨_, rfl⟩
    · rw [if_neg h, if_neg (fun hh => h ⟨hh.1, by have := hh.2; omega⟩)]
  · rw [(C25_u256 c a b).2.2]; simp only [decide_eq_true_eq]
    split
    · exact ⟨_, rfl⟩
    · rfl
  · rw [(C16_pow c a n).2.2.2.2]; simp only [decide_eq_true_eq]
    split
    · exact ⟨_, rfl⟩
    · rfl

/-- C52: the saturating methods of `U256`. -/
theorem C52_u256_saturating (c : Cfg) (a b : U256) (s : I256) (n : U32) :
    SatAgree (.ok (a.saturating_add c b)) (.ok (a.checked_add c b)) U256.MAX
    ∧ SatAgree (.ok (a.saturating_sub c b)) (.ok (a.checked_sub c b)) U256.ZERO
    ∧ SatAgree (a.saturating_mul c b) (a.checked_mul c b) U256.MAX
    ∧ SatAgree (.ok (a.saturating_add_signed c s)) (.ok (a.checked_add_signed c s)) (if s.toInt c < 0 then U256.ZERO else U256.MAX)
    ∧ SatAgree (a.saturating_pow c n) (a.checked_pow c n) U256.MAX := by
  have hmax : U256.ofNat c (2 ^ 256 - 1) = U256.MAX := U256.toNat_inj c (by rw [U256.toNat_ofNat_of_lt c (by omega), U256.toNat_MAX])
  have ha := a.toNat_lt c; have hb := b.toNat_lt c
  refine ⟨⟨_, rfl, ?_⟩, ⟨_, rfl, ?_⟩, ⟨_, (C03_mul c a b).2.2.1, ?_⟩, ⟨_, rfl, ?_⟩, ⟨_, (C16_pow c a n).2.2.1, ?_⟩⟩
  · refine congrArg _ (U256.toNat_inj c ?_)
    rw [(C02_saturating c a b).1, (C02_checked c a b).1]
    split
    · next h => rw [Option.getD_some, U256.toNat_ofNat_of_lt c h]; omega
    · rw [Option.getD_none, U256.toNat_MAX]; omega
  · refine congrArg _ (U256.toNat_inj c ?_)
    rw [(C02_saturating c a b).2, (C02_checked c a b).2]
    split
    · rw [Option.getD_some, U256.toNat_ofNat_of_lt c (by omega)]
    · rw [Option.getD_none, U256.toNat_ZERO]; omega
  · rw [(C03_mul c a b).2.2.2]
    split
    · rw [Option.getD_some, Nat.min_eq_left (by omega)]
    · rw [Option.getD_none, Nat.min_eq_right (by omega), hmax]
  · refine congrArg _ (U256.toNat_inj c ?_)
    have h := (C02_add_signed c a s).2.2.2
    rw [(C02_add_signed c a s).2.2.1]
    have h1 := I256.le_toInt c s; have h2 := I256.toInt_lt c s
    split
    · next hr => have := U256.toNat_ofInt_of_range c hr.1 hr.2; rw [Option.getD_some]; omega
    · rw [Option.getD_none]
      split
      · rw [U256.toNat_ZERO]; omega
      · rw [U256.toNat_MAX]; omega
  · rw [(C16_pow c a n).2.2.2.1]
    split
    · rw [Option.getD_some, Nat.min_eq_left (by omega)]
    · rw [Option.getD_none, Nat.min_eq_right (by omega), hmax]

theorem if_not_in {T : Type} (p : Prop) [Decidable p] (v : T) :
    (if p then some v else none) = (if decide (¬ p) = true then none else some v) := by
  by_cases h : p <;> simp [h]

/-- C52 for `I256`. -/
theorem C52_i256 (c : Cfg) (a b : I256) (u : U256) (n : U32) :
    Agree (.ok (a.checked_add c b)) (.ok (a.overflowing_add c b)) (.ok (a.wrapping_add c b))
    ∧ Agree (.ok (a.checked_sub c b)) (.ok (a.overflowing_sub c b)) (.ok (a.wrapping_sub c b))
    ∧ Agree (a.checked_mul c b) (a.overflowing_mul c b) (a.wrapping_mul c b)
    ∧ Agree (.ok (a.checked_add_unsigned c u)) (.ok (a.overflowing_add_unsigned c u)) (.ok (a.wrapping_add_unsigned c u))
    ∧ Agree (.ok (a.checked_sub_unsigned c u)) (.ok (a.overflowing_sub_unsigned c u)) (.ok (a.wrapping_sub_unsigned c u))
    ∧ Agree (a.checked_neg c) (a.overflowing_neg c) (.ok (a.wrapping_neg c))
    ∧ Agree (a.checked_abs c) (.ok (a.overflowing_abs c)) (.ok (a.wrapping_abs c))
    ∧ Agree (a.checked_pow c n) (a.overflowing_pow c n) (a.wrapping_pow c n)
    ∧ Agree (a.checked_shl c n) (a.overflowing_shl c n) (a.wrapping_shl c n)
    ∧ Agree (a.checked_shr c n) (a.overflowing_shr c n) (a.wrapping_shr c n) := by
  refine ⟨⟨_, _, by rw [(C06_add c a b).2.1], by rw [(C06_add c a b).1], ?_⟩,
    ⟨_, _, by rw [(C06_sub c a b).2.1], by rw [(C06_sub c a b).1], ?_⟩,
    ⟨_, _, (C07_mul c a b).2.1, (C07_mul c a b).1, ?_⟩,
    ⟨_, _, by rw [(C06_add_unsigned c a u).2.1], by rw [(C06_add_unsigned c a u).1], ?_⟩,
    ⟨_, _, by rw [(C06_sub_unsigned c a u).2.1], by rw [(C06_sub_unsigned c a u).1], ?_⟩,
    ⟨_, _, (C06_neg c a).2.1, by rw [(C06_neg c a).1], ?_⟩,
    ⟨_, _, by rw [(C06_abs c a).2.1], by rw [(C06_abs c a).1], ?_⟩,
    ⟨_, _, (C17_pow c a n).2.1, (C17_pow c a n).1, ?_⟩,
    ⟨_, _, (C11_shl c a n).2.1, (C11_shl c a n).1, ?_⟩,
    ⟨_, _, (C11_shr c a n).2.1, (C11_shr c a n).1, ?_⟩⟩
  · rw [(C06_add c a b).2.2.1, if_not_in]
  · rw [(C06_sub c a b).2.2.1, if_not_in]
  · rw [(C07_mul c a b).2.2.1, if_not_in]
  · rw [(C06_add_unsigned c a u).2.2.1, if_not_in]
  · rw [(C06_sub_unsigned c a u).2.2.1, if_not_in]
  · rw [(C06_neg c a).2.2.1, if_not_in]
  · rw [(C06_abs c a).2.2.1, if_not_in]
  · rw [(C17_pow c a n).2.2.1, if_not_in]
  · rw [(C11_shl c a n).2.2]; simp only [decide_eq_true_eq]
    split <;> split <;> first | rfl | omega
  · rw [(C11_shr c a n).2.2]; simp only [decide_eq_true_eq]
    split <;> split <;> first | rfl | omega

/-- C52: the operators of `I256`. -/
theorem C52_i256_ops (c : Cfg) (a b : I256) (n : U32) :
    OpAgree c (a.add c b) (.ok (a.overflowing_add c b)) ∧ OpAgree c (a.sub c b) (.ok (a.overflowing_sub c b))
    ∧ OpAgree c (a.mul c b) (a.overflowing_mul c b) ∧ OpAgree c (a.neg c) (a.overflowing_neg c)
    ∧ OpAgree c (a.pow c n) (a.overflowing_pow c n) := by
  refine ⟨⟨_, _, by rw [(C06_add c a b).2.1], ?_⟩, ⟨_, _, by rw [(C06_sub c a b).2.1], ?_⟩,
    ⟨_, _, (C07_mul c a b).2.1, ?_⟩, ⟨_, _, (C06_neg c a).2.1, ?_⟩, ⟨_, _, (C17_pow c a n).2.1, ?_⟩⟩
  · rw [(C25_i256 c a b).1]; simp only [decide_eq_true_eq]
    split
    · exact ⟨_, rfl⟩
    · rfl
  · rw [(C25_i256 c a b).2.1]; simp only [decide_eq_true_eq]
    split
    · exact ⟨_, rfl⟩
    · rfl
  · rw [(C25_i256 c a b).2.2.1]; simp only [decide_eq_true_eq]
    split
    · exact ⟨_, rfl⟩
    · rfl
  · rw [(C25_i256 c a b).2.2.2]; simp only [decide_eq_true_eq]
    split
    · exact ⟨_, rfl⟩
    · rfl
  · rw [(C17_pow c a n).2.2.2.2]; simp only [decide_eq_true_eq]
    split
    · exact ⟨_, rfl⟩
    · rfl

/-- C52: the saturating methods of `I256`: on overflow the bound on the side of the exact result. -/
theorem C52_i256_saturating (c : Cfg) (a b : I256) (u : U256) (n : U32) :
    SatAgree (.ok (a.saturating_add c b)) (.ok (a.checked_add c b)) (if b.toInt c < 0 then I256.MIN c else I256.MAX c)
    ∧ SatAgree (.ok (a.saturating_sub c b)) (.ok (a.checked_sub c b)) (if b.toInt c < 0 then I256.MAX c else I256.MIN c)
    ∧ SatAgree (a.saturating_mul c b) (a.checked_mul c b)
        (if (a.toInt c < 0 ↔ b.toInt c < 0) then I256.MAX c else I256.MIN c)
    ∧ SatAgree (.ok (a.saturating_add_unsigned c u)) (.ok (a.checked_add_unsigned c u)) (I256.MAX c)
    ∧ SatAgree (.ok (a.saturating_sub_unsigned c u)) (.ok (a.checked_sub_unsigned c u)) (I256.MIN c)
    ∧ SatAgree (.ok (a.saturating_neg c)) (a.checked_neg c) (I256.MAX c)
    ∧ SatAgree (.ok (a.saturating_abs c)) (a.checked_abs c) (I256.MAX c)
    ∧ SatAgree (a.saturating_pow c n) (a.checked_pow c n)
        (if a.toInt c < 0 ∧ n.toNat % 2 = 1 then I256.MIN c else I256.MAX c) := by
  have a1 := I256.le_toInt c a; have a2 := I256.toInt_lt c a
  have b1 := I256.le_toInt c b; have b2 := I256.toInt_lt c b
  have u1 := u.toNat_lt c
  -- what saturation of the exact result `z` means
  have key : ∀ (z : Int) (x : I256) (m : I256), x.toInt c = clampI256 z →
      (2 ^ 255 ≤ z → m = I256.MAX c) → (z < -2 ^ 255 → m = I256.MIN c) →
      x = (if InI256 z then some (I256.ofInt c z) else none).getD m := by
    intro z x m hx h1 h2
    apply I256.toInt_inj c
    rw [hx]
    unfold clampI256
    by_cases hz : InI256 z
    · rw [if_pos hz, Option.getD_some, I256.toInt_ofInt_of_in c hz]; unfold InI256 at hz; omega
    · rw [if_neg hz, Option.getD_none]
      unfold InI256 at hz
      rcases Int.lt_or_le z 0 with h | h
      · rw [h2 (by omega), I256.toInt_MIN]; omega
      · rw [h1 (by omega), I256.toInt_MAX]; omega
  have hclamp : ∀ z, (I256.ofInt c (clampI256 z)).toInt c = clampI256 z := fun z =>
    I256.toInt_ofInt_of_in c (by unfold clampI256 InI256; omega)
  refine ⟨⟨_, rfl, ?_⟩, ⟨_, rfl, ?_⟩, ⟨_, (C07_mul c a b).2.2.1, ?_⟩, ⟨_, rfl, ?_⟩, ⟨_, rfl, ?_⟩,
    ⟨_, (C06_neg c a).2.2.1, ?_⟩, ⟨_, (C06_abs c a).2.2.1, ?_⟩, ⟨_, (C17_pow c a n).2.2.1, ?_⟩⟩
  · rw [(C06_add c a b).2.2.1]
    exact congrArg _ (key _ _ _ (C06_add c a b).2.2.2 (fun h => if_neg (by omega)) (fun h => if_pos (by omega)))
  · rw [(C06_sub c a b).2.2.1]
    exact congrArg _ (key _ _ _ (C06_sub c a b).2.2.2 (fun h => if_pos (by omega)) (fun h => if_neg (by omega)))
  · rw [(C07_mul c a b).2.2.2]
    refine congrArg _ (key _ _ _ (hclamp _) (fun h => if_pos ?_) (fun h => if_neg ?_))
    · have hp : 0 < a.toInt c * b.toInt c := by omega
      rcases pos_and_pos_or_neg_and_neg_of_mul_pos hp with h | h <;> omega
    · have hp : a.toInt c * b.toInt c < 0 := by omega
      rcases mul_neg_iff.1 hp with h | h <;> omega
  · rw [(C06_add_unsigned c a u).2.2.1]
    exact congrArg _ (key _ _ _ (C06_add_unsigned c a u).2.2.2 (fun h => rfl) (fun h => by omega))
  · rw [(C06_sub_unsigned c a u).2.2.1]
    exact congrArg _ (key _ _ _ (C06_sub_unsigned c a u).2.2.2 (fun h => by omega) (fun h => rfl))
  · exact congrArg _ (key _ _ _ (C06_neg c a).2.2.2 (fun h => rfl) (fun h => by omega))
  · exact congrArg _ (key _ _ _ (C06_abs c a).2.2.2.1 (fun h => rfl) (fun h => by omega))
  · rw [(C17_pow c a n).2.2.2.1]
    refine congrArg _ (key _ _ _ (hclamp _) (fun h => if_neg ?_) (fun h => if_pos ?_))
    · rintro ⟨h1, h2⟩
      have : a.toInt c ^ n.toNat < 0 := Odd.pow_neg (Nat.odd_iff.2 h2) h1
      omega
    · have hp : a.toInt c ^ n.toNat < 0 := by omega
      refine ⟨?_, ?_⟩
      · by_contra hn
        have := pow_nonneg (show 0 ≤ a.toInt c by omega) n.toNat
        omega
      · by_contra hn
        have := Even.pow_nonneg (Nat.even_iff.2 (by omega : n.toNat % 2 = 0)) (a.toInt c)
        omega

/-- A shift by a `u32` is by the amount itself. -/
theorem law_amount_u32 (c : Cfg) (n : U32) : (ShiftBy.prim (c := c) .u32 n).amount = n := by
  have hv : (ShiftBy.prim (c := c) .u32 n).value = n.toNat := rfl
  have hlt := n.isLt
  apply BitVec.eq_of_toNat_eq
  cases hc : c.debugAssertions
  · have := (ShiftBy.prim (c := c) .u32 n).amount_release hc
    rw [hv] at this; omega
  · have := (ShiftBy.prim (c := c) .u32 n).amount_debug hc
    rw [hv] at this; split at this <;> omega

theorem shlBy_u32 (c : Cfg) (a : U256) (x : I256) (n : U32) :
    a.shlBy c (.prim .u32 n) = a.shl c n ∧ a.shrBy c (.prim .u32 n) = a.shr c n
    ∧ x.shlBy c (.prim .u32 n) = x.shl c n ∧ x.shrBy c (.prim .u32 n) = x.shr c n := by
  unfold U256.shlBy U256.shrBy I256.shlBy I256.shrBy
  rw [law_amount_u32]; exact ⟨rfl, rfl, rfl, rfl⟩

/-- C52: the shift operators and `abs`. The shift operators agree with the other forms for every operand exactly with debug
assertions, in the LLVM back-end, or for an amount that C12 allows; for the other amounts `1 << n` is wrong. -/
theorem C52_shift_abs (c : Cfg) (a : U256) (x : I256) (n : U32) :
    let p := c.debugAssertions = true ∨ c.llvm = true ∨ n.toNat < 256 ∨ 128 ≤ n.toNat % 256
    (p → OpAgree c (a.shl c n) (a.overflowing_shl c n) ∧ OpAgree c (a.shr c n) (a.overflowing_shr c n)
      ∧ OpAgree c (x.shl c n) (x.overflowing_shl c n) ∧ OpAgree c (x.shr c n) (x.overflowing_shr c n))
    ∧ (¬ p → ¬ OpAgree c ((U256.ONE c).shl c n) ((U256.ONE c).overflowing_shl c n))
    ∧ OpAgree c (x.abs c) (.ok (x.overflowing_abs c)) := by
  intro p
  have hv : (ShiftBy.prim (c := c) .u32 n).value = n.toNat := rfl
  have hlt := n.isLt
  obtain ⟨s1, s2, s3, s4⟩ := shlBy_u32 c a x n
  refine ⟨fun h => ?_, fun h => ?_, ?_⟩
  · by_cases hn : n.toNat < 256
    · obtain ⟨h1, h2, h3, h4⟩ := C12_in_range c a x (.prim .u32 n) (by rw [hv]; omega) (by rw [hv]; omega)
      rw [hv, Int.toNat_natCast] at h1 h2 h3 h4
      rw [s1] at h1; rw [s2] at h2; rw [s3] at h3; rw [s4] at h4
      have hd : ¬ (c.debugAssertions = true ∧ decide (255 < n.toNat) = true) := by simp; omega
      have hm : n.toNat % 256 = n.toNat := Nat.mod_eq_of_lt hn
      refine ⟨⟨_, _, (C10_shl c a n).2.1, ?_⟩, ⟨_, _, (C10_shr c a n).2.1, ?_⟩,
        ⟨_, _, (C11_shl c x n).2.1, ?_⟩, ⟨_, _, (C11_shr c x n).2.1, ?_⟩⟩ <;> rw [if_neg hd, hm]
      · exact h1
      · exact h2
      · exact h3
      · exact h4
    · by_cases hc : c.debugAssertions = true
      · obtain ⟨h1, h2, h3, h4⟩ := C12_debug c hc a x (.prim .u32 n) (by rw [hv]; omega)
        rw [s1] at h1; rw [s2] at h2; rw [s3] at h3; rw [s4] at h4
        have hd : c.debugAssertions = true ∧ decide (255 < n.toNat) = true := ⟨hc, by simp; omega⟩
        refine ⟨⟨_, _, (C10_shl c a n).2.1, ?_⟩, ⟨_, _, (C10_shr c a n).2.1, ?_⟩,
          ⟨_, _, (C11_shl c x n).2.1, ?_⟩, ⟨_, _, (C11_shr c x n).2.1, ?_⟩⟩ <;> rw [if_pos hd]
        · exact h1
        · exact h2
        · exact h3
        · exact h4
      · have hc' : c.debugAssertions = false := by simpa using hc
        obtain ⟨h1, h2, h3, h4⟩ := C12_release_partial c hc' a x (.prim .u32 n) (by
          rw [hv]
          rcases h with h | h | h | h
          · exact absurd h hc
          · exact .inl h
          · exact absurd h hn
          · right; right; omega)
        have hm : ((n.toNat : Int) % 256).toNat = n.toNat % 256 := by omega
        rw [hv, hm] at h1 h2 h3 h4
        rw [s1] at h1; rw [s2] at h2; rw [s3] at h3; rw [s4] at h4
        have hd : ¬ (c.debugAssertions = true ∧ decide (255 < n.toNat) = true) := fun hh => hc hh.1
        refine ⟨⟨_, _, (C10_shl c a n).2.1, ?_⟩, ⟨_, _, (C10_shr c a n).2.1, ?_⟩,
          ⟨_, _, (C11_shl c x n).2.1, ?_⟩, ⟨_, _, (C11_shr c x n).2.1, ?_⟩⟩ <;> rw [if_neg hd]
        · exact h1
        · exact h2
        · exact h3
        · exact h4
  · rintro ⟨v, o, hv', ho⟩
    have hc : c.debugAssertions = false := by
      cases hh : c.debugAssertions
      · rfl
      · exact absurd (.inl hh) h
    obtain ⟨-, h2⟩ := C12_release_wrong c hc (.prim .u32 n) (by
      rw [hv]; rintro (h1 | h1 | h1)
      · exact h (.inr (.inl h1))
      · exact h (.inr (.inr (.inl (by omega))))
      · exact h (.inr (.inr (.inr (by omega)))))
    rw [if_neg (by rw [hc]; simp)] at ho
    have h3 := (C10_shl c (U256.ONE c) n).2.1
    rw [h3, U256.toNat_ONE, Nat.one_mul] at hv'
    have hv2 := (Prod.mk.inj (Except.ok.inj hv')).1
    have hm : ((n.toNat : Int) % 256).toNat = n.toNat % 256 := by omega
    rw [hv, hm, (shlBy_u32 c (U256.ONE c) x n).1] at h2
    exact h2 (by rw [hv2]; exact ho)
  · have a1 := I256.le_toInt c x; have a2 := I256.toInt_lt c x
    refine ⟨_, _, by rw [(C06_abs c x).2.1], ?_⟩
    by_cases hm : x = I256.MIN c
    · subst hm
      have hi : ¬ InI256 (((I256.MIN c).toInt c).natAbs : Int) := by rw [I256.toInt_MIN]; unfold InI256; omega
      rw [(C44_abs c (I256.MIN c)).2, decide_eq_true hi]
      cases c.debugAssertions
      · rw [if_neg (by simp), if_neg (by simp)]
        refine congrArg _ (I256.toInt_inj c ?_)
        rw [I256.toInt_ofInt, I256.toInt_MIN]; rfl
      · rw [if_pos ⟨rfl, rfl⟩]; exact ⟨_, rfl⟩
    · obtain ⟨r, h1, h2⟩ := (C44_abs c x).1 hm
      have hm' : x.toInt c ≠ -2 ^ 255 := fun e => hm ((I256.toInt_MIN_iff c x).2 e)
      have hi : InI256 ((x.toInt c).natAbs : Int) := by unfold InI256; omega
      rw [if_neg (by rw [decide_eq_false (not_not.2 hi)]; simp), h1]
      refine congrArg _ (I256.toInt_inj c ?_)
      rw [h2, I256.toInt_ofInt_of_in c hi]

example : (U256.ONE rll).shl rll 257 = .ok (U256.ofNat rll 2) ∧ (U256.ONE rll).overflowing_shl rll 257 = .ok (U256.ofNat rll 2, true)
    ∧ (U256.ONE rel).shl rel 257 = .ok (U256.ofNat rel (2 ^ 129))
    ∧ (I256.MIN rel).abs rel = .ok (I256.MIN rel) ∧ (I256.MIN dbg).abs dbg = .error (.panic .negOverflow) := by decide +kernel

example : U256.MAX.checked_add dbg (U256.ONE dbg) = none ∧ U256.MAX.overflowing_add dbg (U256.ONE dbg) = (U256.ZERO, true)
    ∧ (I256.MIN rel).checked_abs rel = .ok none ∧ (I256.MIN rel).overflowing_abs rel = (I256.MIN rel, true)
    ∧ (I256.ofInt rel (-3)).saturating_pow rel 201 = .ok (I256.MIN rel) := by decide +kernel

/-! ### C53 -/

theorem toNat_u128 (c : Cfg) (p : U128) : (U256.from_prim c .u128 p).toNat c = p.toNat := by
  have h := C23_u256_from_prim c .u128 (by simp) p
  have : PrimTy.u128.toInt (c := c) p = p.toNat := rfl
  omega

theorem toInt_i128 (c : Cfg) (p : U128) : (I256.from_prim c .i128 p).toInt c = p.toInt := C23_i256_from_prim c .i128 p

/-- C53: computing with `u128` numbers in `U256` gives what `u128` gives, whenever the `u128` result does not overflow. Here
`p + q`, `p * q`, `p / q`, ... on the right are the wrapping operations on 128-bit patterns. -/
theorem C53_u128 (c : Cfg) (p q : BitVec 128) (n : U32) :
    let U : BitVec 128 → U256 := fun x => U256.from_prim c .u128 x
    (p.toNat + q.toNat < 2 ^ 128 → (U p).add c (U q) = .ok (U (p + q)))
    ∧ (q.toNat ≤ p.toNat → (U p).sub c (U q) = .ok (U (p - q)))
    ∧ (p.toNat * q.toNat < 2 ^ 128 → (U p).mul c (U q) = .ok (U (p * q)))
    ∧ (q ≠ 0 → (U p).div c (U q) = .ok (U (p / q)) ∧ (U p).rem c (U q) = .ok (U (p % q)))
    ∧ (∀ r : BitVec 128, p.toNat ^ n.toNat < 2 ^ 128 → r.toNat = p.toNat ^ n.toNat → (U p).pow c n = .ok (U r))
    ∧ (U p).bitand (U q) = U (p &&& q) ∧ (U p).bitor (U q) = U (p ||| q) ∧ (U p).bitxor (U q) = U (p ^^^ q)
    ∧ (U p).eq c (U q) = decide (p = q) ∧ (U p).lt c (U q) = decide (p.toNat < q.toNat)
    ∧ (U p).cmp c (U q) = compare p.toNat q.toNat := by
  intro U
  have hU : ∀ x, (U x).toNat c = x.toNat := toNat_u128 c
  have hp := p.isLt; have hq := q.isLt
  have ext : ∀ {x : U256} {y : BitVec 128}, x.toNat c = y.toNat → x = U y := fun h => U256.toNat_inj c (by rw [hU]; exact h)
  refine ⟨fun h => ?_, fun h => ?_, fun h => ?_, fun h => ?_, fun r h hr => ?_, ?_, ?_, ?_, ?_, ?_, ?_⟩
  · rw [(C25_u256 c _ _).1, hU, hU, if_neg (by omega)]
    refine congrArg _ (ext ?_)
    rw [U256.toNat_ofNat_of_lt c (by omega), BitVec.toNat_add, Nat.mod_eq_of_lt h]
  · rw [(C25_u256 c _ _).2.1, hU, hU, if_neg (by omega)]
    refine congrArg _ (ext ?_)
    have e := U256.toNat_ofInt_of_range c (z := (p.toNat : Int) - q.toNat) (by omega) (by omega)
    rw [BitVec.toNat_sub_of_le (BitVec.le_def.2 h)]; omega
  · rw [(C25_u256 c _ _).2.2, hU, hU, if_neg (by omega)]
    refine congrArg _ (ext ?_)
    rw [U256.toNat_ofNat_of_lt c (by omega), BitVec.toNat_mul, Nat.mod_eq_of_lt h]
  · have h0 : (U q).toNat c ≠ 0 := by
      rw [hU]; intro hz; exact h (BitVec.eq_of_toNat_eq (by rw [hz]; rfl))
    refine ⟨?_, ?_⟩
    · rw [(C04_div c _ _ h0).1, hU, hU]
      refine congrArg _ (ext ?_)
      rw [U256.toNat_ofNat_of_lt c (lt_of_le_of_lt (Nat.div_le_self _ _) (by omega)), BitVec.toNat_udiv]
    · rw [(C04_rem c _ _ h0).1, hU, hU]
      refine congrArg _ (ext ?_)
      rw [U256.toNat_ofNat_of_lt c (lt_of_le_of_lt (Nat.mod_le _ _) (by omega)), BitVec.toNat_umod]
  · rw [(C16_pow c _ n).2.2.2.2, hU, if_neg (by omega)]
    refine congrArg _ (ext ?_)
    rw [U256.toNat_ofNat_of_lt c (by omega), hr]
  · exact ext (by rw [(C21_u256_bitwise c _ _).1, hU, hU, BitVec.toNat_and])
  · exact ext (by rw [(C21_u256_bitwise c _ _).2.1, hU, hU, BitVec.toNat_or])
  · exact ext (by rw [(C21_u256_bitwise c _ _).2.2.1, hU, hU, BitVec.toNat_xor])
  · rw [(C20_u256_cmp c _ _).2.2.1, hU, hU]
    exact decide_eq_decide.2 ⟨BitVec.eq_of_toNat_eq, fun h => by rw [h]⟩
  · rw [(C20_u256_cmp c _ _).2.2.2.2.1, hU, hU]
  · rw [(C20_u256_cmp c _ _).1, hU, hU]

/-- C53 for `i128` in `I256`. Division truncates in both. -/
theorem C53_i128 (c : Cfg) (p q : BitVec 128) (n : U32) :
    let S : BitVec 128 → I256 := fun x => I256.from_prim c .i128 x
    (-2 ^ 127 ≤ p.toInt + q.toInt ∧ p.toInt + q.toInt < 2 ^ 127 → (S p).add c (S q) = .ok (S (p + q)))
    ∧ (-2 ^ 127 ≤ p.toInt - q.toInt ∧ p.toInt - q.toInt < 2 ^ 127 → (S p).sub c (S q) = .ok (S (p - q)))
    ∧ (-2 ^ 127 ≤ p.toInt * q.toInt ∧ p.toInt * q.toInt < 2 ^ 127 → (S p).mul c (S q) = .ok (S (p * q)))
    ∧ (p ≠ BitVec.intMin 128 → (S p).neg c = .ok (S (-p)))
    ∧ (q ≠ 0 → ¬ (p = BitVec.intMin 128 ∧ q = -1) →
        (S p).div c (S q) = .ok (S (p.sdiv q)) ∧ (S p).rem c (S q) = .ok (S (p.srem q)))
    ∧ (∀ r : BitVec 128, r.toInt = p.toInt ^ n.toNat → (S p).pow c n = .ok (S r))
    ∧ (S p).bitand (S q) = S (p &&& q) ∧ (S p).bitor (S q) = S (p ||| q) ∧ (S p).bitxor (S q) = S (p ^^^ q)
    ∧ (S p).not = S (~~~ p)
    ∧ (S p).eq c (S q) = decide (p = q) ∧ (S p).lt c (S q) = decide (p.toInt < q.toInt)
    ∧ (S p).cmp c (S q) = compare p.toInt q.toInt := by
  intro S
  have hS : ∀ x, (S x).toInt c = x.toInt := toInt_i128 c
  have rng : ∀ x : BitVec 128, -2 ^ 127 ≤ x.toInt ∧ x.toInt < 2 ^ 127 := fun x =>
    ⟨by have := BitVec.le_toInt x; simpa using this, by have := BitVec.toInt_lt (x := x); simpa using this⟩
  have hp := rng p; have hq := rng q
  have ext : ∀ {x : I256} {y : BitVec 128}, x.toInt c = y.toInt → x = S y := fun h => I256.toInt_inj c (by rw [hS]; exact h)
  have bm : ∀ z : Int, -2 ^ 127 ≤ z ∧ z < 2 ^ 127 → z.bmod (2 ^ 128) = z := fun z hz =>
    Int.bmod_eq_of_le (by omega) (by omega)
  have hin : ∀ z : Int, -2 ^ 127 ≤ z ∧ z < 2 ^ 127 → InI256 z := fun z hz => ⟨by omega, by omega⟩
  -- the pattern is the sign extension
  have hN : ∀ x : BitVec 128, (S x).toNat c = (x.signExtend 256).toNat := fun x => by
    have h1 := I256.toNat_toInt c (S x)
    have h2 : (x.signExtend 256).toNat = ((x.signExtend 256).toInt % 2 ^ 256).toNat := by
      conv_lhs => rw [← BitVec.ofInt_toInt (x := x.signExtend 256), BitVec.toNat_ofInt]
      rfl
    rw [BitVec.toInt_signExtend_of_le (by omega)] at h2
    rw [hS] at h1
    omega
  have extN : ∀ {x : I256} {y : BitVec 128}, x.toNat c = (y.signExtend 256).toNat → x = S y := fun h =>
    I256.toNat_inj c (by rw [hN]; exact h)
  have hmin : (BitVec.intMin 128).toInt = -2 ^ 127 := by decide +kernel
  refine ⟨fun h => ?_, fun h => ?_, fun h => ?_, fun h => ?_, fun h hm => ?_, fun r hr => ?_, ?_, ?_, ?_, ?_, ?_, ?_, ?_⟩
  · rw [(C25_i256 c _ _).1, hS, hS, if_neg (fun hh => hh.2 (hin _ h))]
    refine congrArg _ (ext ?_)
    rw [I256.toInt_ofInt_of_in c (hin _ h), BitVec.toInt_add, bm _ h]
  · rw [(C25_i256 c _ _).2.1, hS, hS, if_neg (fun hh => hh.2 (hin _ h))]
    refine congrArg _ (ext ?_)
    rw [I256.toInt_ofInt_of_in c (hin _ h), BitVec.toInt_sub, bm _ h]
  · rw [(C25_i256 c _ _).2.2.1, hS, hS, if_neg (fun hh => hh.2 (hin _ h))]
    refine congrArg _ (ext ?_)
    rw [I256.toInt_ofInt_of_in c (hin _ h), BitVec.toInt_mul, bm _ h]
  · have h' : p.toInt ≠ -2 ^ 127 := fun e => h (BitVec.eq_of_toInt_eq (by rw [e, hmin]))
    have hr : -2 ^ 127 ≤ -p.toInt ∧ -p.toInt < 2 ^ 127 := by omega
    rw [(C25_i256 c _ (S p)).2.2.2, hS, if_neg (fun hh => hh.2 (hin _ hr))]
    refine congrArg _ (ext ?_)
    rw [I256.toInt_ofInt_of_in c (hin _ hr), BitVec.toInt_neg, bm _ hr]
  · have h0 : (S q).toInt c ≠ 0 := by
      rw [hS]; intro e; exact h (BitVec.eq_of_toInt_eq (by rw [e]; rfl))
    have hm' : ¬ ((S p).toInt c = -2 ^ 255 ∧ (S q).toInt c = -1) := by rw [hS]; omega
    have hd := C08_div_rem c _ _ h0 hm'
    dsimp only at hd
    rw [hd.1, hd.2.1, hS, hS]
    refine ⟨congrArg _ (ext ?_), congrArg _ (ext ?_)⟩
    · rw [BitVec.toInt_sdiv_of_ne_or_ne]
      · refine I256.toInt_ofInt_of_in c ((tdiv_in (hin _ hp) (by rw [hS] at h0; exact h0)).1 (by omega))
      · by_contra hh
        exact hm (by simpa using hh)
    · rw [BitVec.toInt_srem]
      exact I256.toInt_ofInt_of_in c (tmod_in (hin _ hp))
  · have hr' := rng r
    rw [(C17_pow c _ n).2.2.2.2, hS, ← hr, if_neg (fun hh => hh.2 (hin _ hr'))]
    exact congrArg _ (ext (I256.toInt_ofInt_of_in c (hin _ hr')))
  · exact extN (by rw [(C21_i256_bitwise c _ _).1, hN, hN, ← BitVec.toNat_and, BitVec.signExtend_and])
  · exact extN (by rw [(C21_i256_bitwise c _ _).2.1, hN, hN, ← BitVec.toNat_or, BitVec.signExtend_or])
  · exact extN (by rw [(C21_i256_bitwise c _ _).2.2.1, hN, hN, ← BitVec.toNat_xor, BitVec.signExtend_xor])
  · refine ext ?_
    rw [(C21_i256_bitwise c _ (S p)).2.2.2.1, hS, BitVec.toInt_not]
    have h1 := BitVec.toInt_eq_toNat_cond p
    have h2 := p.isLt
    unfold Int.bmod
    dsimp only
    split <;> split at h1 <;> omega
  · rw [(C20_i256_cmp c _ _).2.2.1, hS, hS]
    exact decide_eq_decide.2 ⟨BitVec.eq_of_toInt_eq, fun h => by rw [h]⟩
  · rw [(C20_i256_cmp c _ _).2.2.2.2.1, hS, hS]
  · rw [(C20_i256_cmp c _ _).1, hS, hS]

/-- C53: the narrower primitives go through the 128-bit ones: zero extension for the unsigned, sign extension for the signed
types. -/
theorem C53_narrow (c : Cfg) (t : PrimTy) (x : t.Val c) :
    (t ∈ [.u8, .u16, .u32, .u64, .u128] → U256.from_prim c t x = U256.from_prim c .u128 (BitVec.ofInt 128 (t.toInt x)))
    ∧ (t ≠ .u128 → I256.from_prim c t x = I256.from_prim c .i128 (BitVec.ofInt 128 (t.toInt x))) := by
  have h1 := t.toInt_ge x; have h2 := t.toInt_le x; have h3 := t.maxVal_lt (c := c)
  refine ⟨fun ht => ?_, fun ht => ?_⟩
  · have h := C23_u256_from_prim c t ht x
    apply U256.toNat_inj c
    rw [toNat_u128, BitVec.toNat_ofInt]
    omega
  · apply I256.toInt_inj c
    rw [C23_i256_from_prim, toInt_i128, BitVec.toInt_ofInt]
    have h4 : t.maxVal c < 2 ^ 127 ∧ -2 ^ 127 ≤ t.minVal c := by
      rcases c with ⟨_ | _, _ | _, _ | _, _ | _ | _, _ | _⟩ <;> cases t <;> first | exact absurd rfl ht | decide +kernel
    rw [Int.bmod_eq_of_le (by omega) (by omega)]

example : (U256.from_prim dbg .u128 (5 : BitVec 128)).mul dbg (U256.from_prim dbg .u128 (7 : BitVec 128))
      = .ok (U256.from_prim dbg .u128 (35 : BitVec 128))
    ∧ (I256.from_prim rel .i128 (-7 : BitVec 128)).rem rel (I256.from_prim rel .i128 (5 : BitVec 128))
      = .ok (I256.from_prim rel .i128 (-2 : BitVec 128))
    ∧ (I256.from_prim rel .i128 (-7 : BitVec 128)).bitand (I256.from_prim rel .i128 (-4 : BitVec 128))
      = I256.from_prim rel .i128 (-8 : BitVec 128)
    ∧ I256.from_prim dbg .i8 (-3 : BitVec 8) = I256.from_prim dbg .i128 (-3 : BitVec 128) := by decide +kernel

/-- C53: bit operations on `u128` numbers in `U256`: shifts by amounts that `u128` allows, the number of ones, and the length
`k` of the run of zeros at the top, which has 128 digits more in `U256`, and at the bottom. -/
theorem C53_u128_bits (c : Cfg) (p : BitVec 128) (n : U32) (k : Nat) :
    let U : BitVec 128 → U256 := fun x => U256.from_prim c .u128 x
    (n.toNat < 128 → (U p).shr c n = .ok (U (p >>> n.toNat)))
    ∧ (n.toNat < 128 → p.toNat * 2 ^ n.toNat < 2 ^ 128 → (U p).shl c n = .ok (U (p <<< n.toNat)))
    ∧ (U p).count_ones c = .ok (u32 ((List.range 128).countP fun i => p.getLsbD i))
    ∧ (k ≤ 128 → (∀ i < k, p.getLsbD (127 - i) = false) → (k < 128 → p.getLsbD (127 - k) = true) →
        (U p).leading_zeros c = .ok (u32 (128 + k)))
    ∧ (k < 128 → (∀ i < k, p.getLsbD i = false) → p.getLsbD k = true → (U p).trailing_zeros c = .ok (u32 k)) := by
  intro U
  have hU : ∀ x, (U x).toNat c = x.toNat := toNat_u128 c
  have hp := p.isLt
  have ext : ∀ {x : U256} {y : BitVec 128}, x.toNat c = y.toNat → x = U y := fun h => U256.toNat_inj c (by rw [hU]; exact h)
  have hv : (ShiftBy.prim (c := c) .u32 n).value = n.toNat := rfl
  have hb : ∀ i, (p.toNat).testBit i = p.getLsbD i := fun i => rfl
  have hbig : ∀ i, 128 ≤ i → p.getLsbD i = false := fun i hi => BitVec.getLsbD_of_ge p i hi
  have hw : ∀ (r : U32) (m : Nat), r.toNat = m → r = u32 m := fun r m e => by subst e; simp [u32]
  refine ⟨fun h => ?_, fun h h' => ?_, ?_, fun h1 h2 h3 => ?_, fun h1 h2 h3 => ?_⟩
  · have e := (C12_in_range c (U p) I256.ZERO (.prim .u32 n) (by rw [hv]; omega) (by rw [hv]; omega)).2.1
    rw [hv, Int.toNat_natCast, hU, (shlBy_u32 c (U p) I256.ZERO n).2.1] at e
    refine e.trans (congrArg _ (ext ?_))
    rw [U256.toNat_ofNat_of_lt c (lt_of_le_of_lt (Nat.div_le_self _ _) (by omega)), BitVec.toNat_ushiftRight,
      Nat.shiftRight_eq_div_pow]
  · have e := (C12_in_range c (U p) I256.ZERO (.prim .u32 n) (by rw [hv]; omega) (by rw [hv]; omega)).1
    rw [hv, Int.toNat_natCast, hU, (shlBy_u32 c (U p) I256.ZERO n).1] at e
    refine e.trans (congrArg _ (ext ?_))
    rw [U256.toNat_ofNat_of_lt c (by omega), BitVec.toNat_shiftLeft, Nat.shiftLeft_eq, Nat.mod_eq_of_lt h']
  · rw [(C14_count c (U p) I256.ZERO).1, hU]
    refine congrArg _ (congrArg _ ?_)
    unfold bitCount
    rw [countP_range_split]
    have z : (List.range 128).countP (fun i => (p.toNat).testBit (128 + i) == true) = 0 := by
      rw [List.countP_eq_zero]; intro i _; rw [hb, hbig _ (by omega)]; simp
    rw [z, Nat.add_zero]
    refine List.countP_congr fun i _ => ?_
    rw [hb]; simp
  · obtain ⟨r, e, hr⟩ := (C14_u256_runs c (U p)).1
    rw [e, hU] at *
    refine congrArg _ (hw _ _ ((C14_runs_unique false p.toNat r.toNat (128 + k)).1 hr ⟨by omega, fun i hi => ?_, fun hk => ?_⟩))
    · rw [hb]
      by_cases hi' : i < 128
      · exact hbig _ (by omega)
      · rw [show 255 - i = 127 - (i - 128) by omega]; exact h2 _ (by omega)
    · rw [hb, show 255 - (128 + k) = 127 - k by omega]; exact h3 (by omega)
  · obtain ⟨r, e, hr⟩ := (C14_u256_runs c (U p)).2.1
    rw [e, hU] at *
    exact congrArg _ (hw _ _ ((C14_runs_unique false p.toNat r.toNat k).2 hr ⟨by omega, h2, fun _ => h3⟩))

/-- C53: shifts of `i128` numbers in `I256`. -/
theorem C53_i128_shifts (c : Cfg) (p : BitVec 128) (n : U32) (hn : n.toNat < 128) :
    let S : BitVec 128 → I256 := fun x => I256.from_prim c .i128 x
    (S p).shr c n = .ok (S (p.sshiftRight n.toNat))
    ∧ (-2 ^ 127 ≤ p.toInt * 2 ^ n.toNat ∧ p.toInt * 2 ^ n.toNat < 2 ^ 127 → (S p).shl c n = .ok (S (p <<< n.toNat))) := by
  intro S
  have hS : ∀ x, (S x).toInt c = x.toInt := toInt_i128 c
  have ext : ∀ {x : I256} {y : BitVec 128}, x.toInt c = y.toInt → x = S y := fun h => I256.toInt_inj c (by rw [hS]; exact h)
  have hv : (ShiftBy.prim (c := c) .u32 n).value = n.toNat := rfl
  have hp : -2 ^ 127 ≤ p.toInt ∧ p.toInt < 2 ^ 127 :=
    ⟨by have := BitVec.le_toInt p; simpa using this, by have := BitVec.toInt_lt (x := p); simpa using this⟩
  obtain ⟨-, -, e1, e2⟩ := C12_in_range c U256.ZERO (S p) (.prim .u32 n) (by rw [hv]; omega) (by rw [hv]; omega)
  rw [hv, Int.toNat_natCast, hS] at e1 e2
  rw [(shlBy_u32 c U256.ZERO (S p) n).2.2.1] at e1
  rw [(shlBy_u32 c U256.ZERO (S p) n).2.2.2] at e2
  refine ⟨e2.trans (congrArg _ (ext ?_)), fun h => e1.trans (congrArg _ (ext ?_))⟩
  · rw [BitVec.toInt_sshiftRight, Int.shiftRight_eq_div_pow]
    refine I256.toInt_ofInt_of_in c ?_
    have hq : (0 : Int) < 2 ^ n.toNat := by positivity
    have l1 : p.toInt / 2 ^ n.toNat < 2 ^ 255 := by
      refine Int.ediv_lt_of_lt_mul hq ?_; nlinarith
    have l2 : -2 ^ 255 ≤ p.toInt / 2 ^ n.toNat := by
      refine Int.le_ediv_of_mul_le hq ?_; nlinarith
    exact ⟨l2, l1⟩
  · rw [I256.toInt_ofInt_of_in c ⟨by omega, by omega⟩, BitVec.toInt_shiftLeft, Nat.shiftLeft_eq]
    have e : (((p.toNat * 2 ^ n.toNat : Nat) : Int)).bmod (2 ^ 128) = (p.toInt * 2 ^ n.toNat).bmod (2 ^ 128) := by
      rw [BitVec.toInt_eq_toNat_bmod, Int.bmod_mul_bmod, Nat.cast_mul, Nat.cast_pow]; rfl
    rw [e, Int.bmod_eq_of_le (by omega) (by omega)]

example : (U256.from_prim dbg .u128 (40 : BitVec 128)).shr dbg 3 = .ok (U256.from_prim dbg .u128 (5 : BitVec 128))
    ∧ (U256.from_prim dbg .u128 (40 : BitVec 128)).leading_zeros dbg = .ok 250
    ∧ (U256.from_prim rel .u128 (40 : BitVec 128)).count_ones rel = .ok 2
    ∧ (U256.from_prim rel .u128 (40 : BitVec 128)).trailing_zeros rel = .ok 3
    ∧ (I256.from_prim rel .i128 (-40 : BitVec 128)).shr rel 4 = .ok (I256.from_prim rel .i128 (-3 : BitVec 128)) := by
  decide +kernel

end Ethnum
