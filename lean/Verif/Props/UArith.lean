import Verif.Proofs.Ops
import Verif.Proofs.IntApi
import Verif.Props.Repr

/-
C02 U256 addition/subtraction, C03 multiplication, C04 division, C05 the division primitive,
C10 shift methods, C19 absolute difference (U256).
-/

set_option linter.unusedSimpArgs false

namespace Ethnum

/-! ### C02 -/

/-- C02: the wrapping forms. -/
theorem C02_wrapping (c : Cfg) (a b : U256) :
    a.wrapping_add c b = U256.ofNat c (a.toNat c + b.toNat c)
    ∧ a.wrapping_sub c b = U256.ofInt c ((a.toNat c : Int) - b.toNat c)
    ∧ (a.wrapping_add c b).toNat c = (a.toNat c + b.toNat c) % 2 ^ 256
    ∧ ((a.wrapping_sub c b).toNat c : Int) = ((a.toNat c : Int) - b.toNat c) % 2 ^ 256 := by
  unfold U256.wrapping_add U256.wrapping_sub
  rw [Intr.add3_eq, Intr.sub3_eq]
  exact ⟨rfl, rfl, U256.toNat_ofNat c _, U256.toNat_ofInt c _⟩

example : (U256.MAX.wrapping_add rel (U256.new rel 6)).toNat rel = 5
    ∧ ((U256.new dbg 5).wrapping_sub dbg (U256.new dbg 6)) = U256.MAX := by decide

/-- C02: the overflowing forms; the flag is set exactly when the exact result is out of range. -/
theorem C02_overflowing (c : Cfg) (a b : U256) :
    a.overflowing_add c b = (U256.ofNat c (a.toNat c + b.toNat c), decide (2 ^ 256 ≤ a.toNat c + b.toNat c))
    ∧ a.overflowing_sub c b
      = (U256.ofInt c ((a.toNat c : Int) - b.toNat c), decide ((a.toNat c : Int) - b.toNat c < 0)) := by
  unfold U256.overflowing_add U256.overflowing_sub
  rw [Intr.uaddc_eq, Intr.usubc_eq]
  refine ⟨rfl, ?_⟩
  congr 1; rw [decide_eq_decide]; omega

example : U256.MAX.overflowing_add dbg (U256.ONE dbg) = (U256.ZERO, true)
    ∧ (U256.ZERO.overflowing_sub rel (U256.ONE rel)) = (U256.MAX, true) := by decide

/-- C02: the checked forms return the exact result, or `None` when there is none. -/
theorem C02_checked (c : Cfg) (a b : U256) :
    a.checked_add c b = (if a.toNat c + b.toNat c < 2 ^ 256 then some (U256.ofNat c (a.toNat c + b.toNat c)) else none)
    ∧ a.checked_sub c b = (if b.toNat c ≤ a.toNat c then some (U256.ofNat c (a.toNat c - b.toNat c)) else none) := by
  unfold U256.checked_add U256.checked_sub
  rw [(C02_overflowing c a b).1, (C02_overflowing c a b).2, checkedOf_mk, checkedOf_mk]
  constructor
  · by_cases h : a.toNat c + b.toNat c < 2 ^ 256
    · rw [if_neg (by omega), if_pos h]
    · rw [if_pos (by omega), if_neg h]
  · by_cases h : b.toNat c ≤ a.toNat c
    · rw [if_neg (by omega), if_pos h, ← U256.ofInt_natCast]; congr 2; omega
    · rw [if_pos (by omega), if_neg h]

example : (U256.new dbg 7).checked_sub dbg (U256.new dbg 3) = some (U256.new dbg 4)
    ∧ (U256.new dbg 3).checked_sub dbg (U256.new dbg 7) = none := by decide

/-- C02: the saturating forms clamp. -/
theorem C02_saturating (c : Cfg) (a b : U256) :
    (a.saturating_add c b).toNat c = min (a.toNat c + b.toNat c) (2 ^ 256 - 1)
    ∧ (a.saturating_sub c b).toNat c = a.toNat c - b.toNat c := by
  unfold U256.saturating_add U256.saturating_sub
  rw [(C02_checked c a b).1, (C02_checked c a b).2]
  have ha := U256.toNat_lt c a
  constructor
  · split
    · rename_i h; rw [Option.getD_some, U256.toNat_ofNat_of_lt c h]; omega
    · rw [Option.getD_none, U256.toNat_MAX]; omega
  · split
    · rw [Option.getD_some, U256.toNat_ofNat_of_lt c (by omega)]
    · rw [Option.getD_none, U256.toNat_MIN]; omega

example : U256.MAX.saturating_add dbg (U256.new dbg 2) = U256.MAX
    ∧ (U256.new rel 2).saturating_sub rel (U256.new rel 5) = U256.ZERO := by decide

theorem as_u256_toNat_cases (c : Cfg) (b : I256) :
    (b.as_u256.toNat c : Int) = b.toInt c + (if b.toInt c < 0 then 2 ^ 256 else 0) := by
  have := I256.toNat_toInt c b
  have h1 := I256.toInt_lt c b; have h2 := I256.le_toInt c b
  rw [I256.toNat_as_u256]
  split <;> omega

/-- C02: adding a signed value. -/
theorem C02_add_signed (c : Cfg) (a : U256) (b : I256) :
    a.wrapping_add_signed c b = U256.ofInt c ((a.toNat c : Int) + b.toInt c)
    ∧ a.overflowing_add_signed c b = (U256.ofInt c ((a.toNat c : Int) + b.toInt c),
        decide ((a.toNat c : Int) + b.toInt c < 0 ∨ 2 ^ 256 ≤ (a.toNat c : Int) + b.toInt c))
    ∧ a.checked_add_signed c b = (if 0 ≤ (a.toNat c : Int) + b.toInt c ∧ (a.toNat c : Int) + b.toInt c < 2 ^ 256
        then some (U256.ofInt c ((a.toNat c : Int) + b.toInt c)) else none)
    ∧ ((a.saturating_add_signed c b).toNat c : Int)
        = max 0 (min ((a.toNat c : Int) + b.toInt c) (2 ^ 256 - 1)) := by
  have hb := as_u256_toNat_cases c b
  have ha := U256.toNat_lt c a
  have h1 := I256.toInt_lt c b; have h2 := I256.le_toInt c b
  have hw : U256.ofNat c (a.toNat c + b.as_u256.toNat c) = U256.ofInt c ((a.toNat c : Int) + b.toInt c) := by
    apply U256.eq_ofInt; rw [U256.toNat_ofNat]; split at hb <;> omega
  have ho : a.overflowing_add_signed c b = (U256.ofInt c ((a.toNat c : Int) + b.toInt c),
        decide ((a.toNat c : Int) + b.toInt c < 0 ∨ 2 ^ 256 ≤ (a.toNat c : Int) + b.toInt c)) := by
    unfold U256.overflowing_add_signed
    rw [(C02_overflowing c a _).1, I256.lt_prim_eq, toInt_0, hw]
    simp only []
    congr 1
    by_cases h : b.toInt c < 0
    · rw [if_pos h] at hb
      rw [decide_eq_true h, Bool.xor_true, ← decide_not, decide_eq_decide]; omega
    · rw [if_neg h] at hb
      rw [decide_eq_false h, Bool.xor_false, decide_eq_decide]; omega
  refine ⟨?_, ho, ?_, ?_⟩
  · unfold U256.wrapping_add_signed; rw [(C02_wrapping c a _).1, hw]
  · unfold U256.checked_add_signed
    rw [ho, checkedOf_mk]
    by_cases h : 0 ≤ (a.toNat c : Int) + b.toInt c ∧ (a.toNat c : Int) + b.toInt c < 2 ^ 256
    · rw [if_neg (by omega), if_pos h]
    · rw [if_pos (by omega), if_neg h]
  · unfold U256.saturating_add_signed
    rw [(C02_overflowing c a _).1, I256.lt_prim_eq, toInt_0, hw]
    simp only []
    have hv := U256.toNat_ofInt c ((a.toNat c : Int) + b.toInt c)
    by_cases h : b.toInt c < 0
    · rw [if_pos h] at hb
      by_cases ho : 2 ^ 256 ≤ a.toNat c + b.as_u256.toNat c
      · simp only [h, ho, decide_true, beq_self_eq_true, if_true]; omega
      · simp only [h, ho, decide_true, decide_false, Bool.false_eq_true, if_false,
          show (false == true) = false from rfl, U256.toNat_ZERO]; omega
    · rw [if_neg h] at hb
      by_cases ho : 2 ^ 256 ≤ a.toNat c + b.as_u256.toNat c
      · simp only [h, ho, decide_true, decide_false, Bool.false_eq_true, if_false, if_true,
          show (true == false) = false from rfl, U256.toNat_MAX]; omega
      · simp only [h, ho, decide_false, beq_self_eq_true, if_true]; omega

example : (U256.new dbg 3).checked_add_signed dbg (I256.new dbg (-3)) = some U256.ZERO
    ∧ (U256.new dbg 3).checked_add_signed dbg (I256.new dbg (-4)) = none
    ∧ U256.MAX.saturating_add_signed dbg (I256.new dbg 1) = U256.MAX := by decide

/-- C02: negation modulo `2^256`. -/
theorem C02_neg (c : Cfg) (a : U256) :
    a.wrapping_neg c = U256.ofInt c (-(a.toNat c : Int))
    ∧ a.overflowing_neg c = (U256.ofInt c (-(a.toNat c : Int)), decide (a.toNat c ≠ 0))
    ∧ a.checked_neg c = (if a.toNat c = 0 then some U256.ZERO else none) := by
  have ha := U256.toNat_lt c a
  have ho : a.overflowing_neg c = (U256.ofInt c (-(a.toNat c : Int)), decide (a.toNat c ≠ 0)) := by
    unfold U256.overflowing_neg
    rw [(C02_wrapping c _ _).1, U256.ne_eq, U256.toNat_ZERO, U256.toNat_not, U256.toNat_ONE]
    congr 1
    apply U256.eq_ofInt; rw [U256.toNat_ofNat]; omega
  refine ⟨?_, ho, ?_⟩
  · unfold U256.wrapping_neg; rw [ho]
  · unfold U256.checked_neg; rw [ho, checkedOf_mk]
    by_cases h : a.toNat c = 0
    · rw [if_neg (by omega), if_pos h, h]; rw [U256.ZERO_eq c]; rfl
    · rw [if_pos h, if_neg h]

example : (U256.ONE rel).overflowing_neg rel = (U256.MAX, true) := by decide

/-! ### C03 -/

/-- C03: the multiplication family. -/
theorem C03_mul (c : Cfg) (a b : U256) :
    a.wrapping_mul c b = .ok (U256.ofNat c (a.toNat c * b.toNat c))
    ∧ a.overflowing_mul c b = .ok (U256.ofNat c (a.toNat c * b.toNat c), decide (2 ^ 256 ≤ a.toNat c * b.toNat c))
    ∧ a.checked_mul c b = .ok (if a.toNat c * b.toNat c < 2 ^ 256
        then some (U256.ofNat c (a.toNat c * b.toNat c)) else none)
    ∧ a.saturating_mul c b = .ok (U256.ofNat c (min (a.toNat c * b.toNat c) (2 ^ 256 - 1))) := by
  have ho : a.overflowing_mul c b
      = .ok (U256.ofNat c (a.toNat c * b.toNat c), decide (2 ^ 256 ≤ a.toNat c * b.toNat c)) :=
    Intr.umulc_eq c a b
  have hc : a.checked_mul c b = .ok (if a.toNat c * b.toNat c < 2 ^ 256
        then some (U256.ofNat c (a.toNat c * b.toNat c)) else none) := by
    unfold U256.checked_mul
    rw [ho, ok_bind, pure_eq_ok, checkedOf_mk]
    congr 1
    by_cases h : a.toNat c * b.toNat c < 2 ^ 256
    · rw [if_neg (by omega), if_pos h]
    · rw [if_pos (by omega), if_neg h]
  refine ⟨Intr.mul3_eq c a b, ho, hc, ?_⟩
  unfold U256.saturating_mul
  rw [hc, ok_bind, pure_eq_ok]
  congr 1
  split
  · rw [Option.getD_some]; congr 1; omega
  · rw [Option.getD_none, U256.MAX_eq c]; congr 1; omega

example : (U256.from_words dbg 1 0).overflowing_mul dbg (U256.from_words dbg 1 0) = .ok (U256.ZERO, true)
    ∧ (U256.from_words rel 0 (-1)).wrapping_mul rel (U256.from_words rel 0 (-1))
      = .ok (U256.from_words rel (-2) 1) := by decide

/-! ### C04 -/

/-- C04: `div_rem` and everything defined from `/` and `%`, for a non-zero divisor. -/
theorem C04_div (c : Cfg) (a b : U256) (hb : b.toNat c ≠ 0) :
    let q := U256.ofNat c (a.toNat c / b.toNat c)
    a.div c b = .ok q ∧ a.div_euclid c b = .ok q ∧ a.wrapping_div c b = .ok q
    ∧ a.wrapping_div_euclid c b = .ok q ∧ a.saturating_div c b = .ok q
    ∧ a.checked_div c b = .ok (some q) ∧ a.checked_div_euclid c b = .ok (some q)
    ∧ a.overflowing_div c b = .ok (q, false) ∧ a.overflowing_div_euclid c b = .ok (q, false) := by
  intro q
  have hd : a.div c b = .ok q := by rw [U256.div_eq, if_neg hb]
  have hz : b.eq c U256.ZERO = false := by rw [U256.eq_eq, U256.toNat_ZERO, decide_eq_false hb]
  refine ⟨hd, hd, hd, hd, hd, ?_, ?_, ?_, ?_⟩
  · unfold U256.checked_div; rw [hz, hd]; rfl
  · unfold U256.checked_div_euclid U256.div_euclid; rw [hz, hd]; rfl
  · unfold U256.overflowing_div; rw [hd]; rfl
  · unfold U256.overflowing_div_euclid; rw [hd]; rfl

example : (U256.MAX).div dbg (U256.from_words dbg 1 0) = .ok (U256.from_words dbg 0 (-1)) := by
  decide +kernel

theorem C04_rem (c : Cfg) (a b : U256) (hb : b.toNat c ≠ 0) :
    let r := U256.ofNat c (a.toNat c % b.toNat c)
    a.rem c b = .ok r ∧ a.rem_euclid c b = .ok r ∧ a.wrapping_rem c b = .ok r
    ∧ a.wrapping_rem_euclid c b = .ok r
    ∧ a.checked_rem c b = .ok (some r) ∧ a.checked_rem_euclid c b = .ok (some r)
    ∧ a.overflowing_rem c b = .ok (r, false) ∧ a.overflowing_rem_euclid c b = .ok (r, false) := by
  intro r
  have hd : a.rem c b = .ok r := by rw [U256.rem_eq, if_neg hb]
  have hz : b.eq c U256.ZERO = false := by rw [U256.eq_eq, U256.toNat_ZERO, decide_eq_false hb]
  refine ⟨hd, hd, hd, hd, ?_, ?_, ?_, ?_⟩
  · unfold U256.checked_rem; rw [hz, hd]; rfl
  · unfold U256.checked_rem_euclid U256.rem_euclid; rw [hz, hd]; rfl
  · unfold U256.overflowing_rem; rw [hd]; rfl
  · unfold U256.overflowing_rem_euclid; rw [hd]; rfl

example : (U256.new rel 100).rem rel (U256.new rel 7) = .ok (U256.new rel 2) := by decide +kernel

theorem C04_div_rem (c : Cfg) (a b : U256) (hb : b.toNat c ≠ 0) :
    let q := U256.ofNat c (a.toNat c / b.toNat c)
    let r := U256.ofNat c (a.toNat c % b.toNat c)
    a.div_rem c b = .ok (q, r) ∧ a.div_rem_euclid c b = .ok (q, r)
    ∧ a.checked_div_rem c b = .ok (some (q, r)) ∧ a.checked_div_rem_euclid c b = .ok (some (q, r))
    ∧ a.saturating_div_rem c b = .ok (q, r) ∧ a.saturating_div_rem_euclid c b = .ok (q, r)
    ∧ a.wrapping_div_rem c b = .ok (q, r) ∧ a.wrapping_div_rem_euclid c b = .ok (q, r)
    ∧ a.overflowing_div_rem c b = .ok (q, r, false) ∧ a.overflowing_div_rem_euclid c b = .ok (q, r, false) := by
  intro q r
  have ha := U256.toNat_lt c a
  have hbl := U256.toNat_lt c b
  have hq : q.toNat c = a.toNat c / b.toNat c :=
    U256.toNat_ofNat_of_lt c (Nat.lt_of_le_of_lt (Nat.div_le_self _ _) ha)
  have hr : r.toNat c = a.toNat c % b.toNat c :=
    U256.toNat_ofNat_of_lt c (Nat.lt_of_le_of_lt (Nat.mod_le _ _) ha)
  have hle : b.le_prim c 0 = false := by
    rw [U256.le_prim_eq, toNat_0, decide_eq_false_iff_not]; omega
  have hd : a.div_rem c b = .ok (q, r) := by
    unfold U256.div_rem
    rw [U256.eq_prim_eq, toNat_0, decide_eq_false hb]
    simp only [Bool.false_eq_true, if_false]
    rw [unreachableIf_ok hle, ok_bind, Intr.udivmod4_eq c _ hb]
    simp only [ok_bind, if_true, Intr.assumeInit]
    rw [unreachableIf_ok (by
        rw [U256.ge_eq, hr, decide_eq_false_iff_not]; have := Nat.mod_lt (a.toNat c) (Nat.pos_of_ne_zero hb); omega),
      ok_bind,
      unreachableIf_ok (by rw [U256.gt_eq, hr, decide_eq_false_iff_not]; have := Nat.mod_le (a.toNat c) (b.toNat c); omega),
      ok_bind,
      unreachableIf_ok (by rw [U256.gt_eq, hq, decide_eq_false_iff_not]; have := Nat.div_le_self (a.toNat c) (b.toNat c); omega)]
    rfl
  have hcd : a.checked_div_rem c b = .ok (some (q, r)) := by
    unfold U256.checked_div_rem
    rw [U256.eq_eq, U256.toNat_ZERO, decide_eq_false hb]
    simp only [Bool.false_eq_true, if_false]
    rw [unreachableIf_ok hle, ok_bind, hd]; rfl
  refine ⟨hd, hd, hcd, hcd, hd, hd, hd, hd, ?_, ?_⟩
  · unfold U256.overflowing_div_rem; rw [hd]; rfl
  · unfold U256.overflowing_div_rem_euclid; rw [hd]; rfl

example : (U256.from_words dbg 5 9).div_rem dbg (U256.from_words dbg 2 1)
    = .ok (U256.new dbg 2, U256.from_words dbg 1 7) := by decide +kernel

/-- C04: the quotient and remainder are the mathematical ones: `a = q*b + r`, `r < b`. -/
theorem C04_div_rem_spec (c : Cfg) (a b : U256) (hb : b.toNat c ≠ 0) :
    ∃ q r, a.div_rem c b = .ok (q, r) ∧ a.toNat c = q.toNat c * b.toNat c + r.toNat c
      ∧ r.toNat c < b.toNat c := by
  have ha := U256.toNat_lt c a
  refine ⟨_, _, (C04_div_rem c a b hb).1, ?_, ?_⟩
  · rw [U256.toNat_ofNat_of_lt c (Nat.lt_of_le_of_lt (Nat.div_le_self _ _) ha),
      U256.toNat_ofNat_of_lt c (Nat.lt_of_le_of_lt (Nat.mod_le _ _) ha)]
    have := Nat.div_add_mod (a.toNat c) (b.toNat c)
    rw [Nat.mul_comm] at this; exact this.symm
  · rw [U256.toNat_ofNat_of_lt c (Nat.lt_of_le_of_lt (Nat.mod_le _ _) ha)]
    exact Nat.mod_lt _ (Nat.pos_of_ne_zero hb)

example : (U256.ofNat dbg (2 ^ 200 + 7)).div_rem dbg (U256.ofNat dbg (2 ^ 130)) = .ok (U256.ofNat dbg (2 ^ 70), U256.ofNat dbg 7) := by
  decide +kernel

/-- C04: a zero divisor. The checked forms return `None`, every other form panics. -/
theorem C04_zero (c : Cfg) (a b : U256) (hb : b.toNat c = 0) :
    a.checked_div c b = .ok none ∧ a.checked_div_euclid c b = .ok none
    ∧ a.checked_rem c b = .ok none ∧ a.checked_rem_euclid c b = .ok none
    ∧ a.checked_div_rem c b = .ok none ∧ a.checked_div_rem_euclid c b = .ok none
    ∧ Panics (a.div c b) ∧ Panics (a.rem c b) ∧ Panics (a.div_euclid c b) ∧ Panics (a.rem_euclid c b)
    ∧ Panics (a.wrapping_div c b) ∧ Panics (a.wrapping_div_euclid c b) ∧ Panics (a.wrapping_rem c b)
    ∧ Panics (a.wrapping_rem_euclid c b) ∧ Panics (a.saturating_div c b)
    ∧ Panics (a.overflowing_div c b) ∧ Panics (a.overflowing_div_euclid c b)
    ∧ Panics (a.overflowing_rem c b) ∧ Panics (a.overflowing_rem_euclid c b)
    ∧ Panics (a.div_rem c b) ∧ Panics (a.div_rem_euclid c b) ∧ Panics (a.saturating_div_rem c b)
    ∧ Panics (a.saturating_div_rem_euclid c b) ∧ Panics (a.wrapping_div_rem c b)
    ∧ Panics (a.wrapping_div_rem_euclid c b) ∧ Panics (a.overflowing_div_rem c b)
    ∧ Panics (a.overflowing_div_rem_euclid c b) := by
  have hz : b.eq c U256.ZERO = true := by rw [U256.eq_eq, U256.toNat_ZERO, hb]; rfl
  have hg : b.gt_prim c 0 = false := by rw [U256.gt_prim_eq, toNat_0, hb]; rfl
  have hd : a.div c b = .error (.panic .divByZero) := by rw [U256.div_eq, if_pos hb]
  have hr : a.rem c b = .error (.panic .remByZero) := by rw [U256.rem_eq, if_pos hb]
  have hdr : a.div_rem c b = .error (.panic .divByZero) := by
    unfold U256.div_rem
    rw [U256.eq_prim_eq, toNat_0, hb]
    simp only [decide_true, if_true]
    rw [unreachableIf_ok hg]; rfl
  have hc : a.checked_div_rem c b = .ok none := by
    unfold U256.checked_div_rem; rw [hz, if_pos rfl, unreachableIf_ok hg]; rfl
  refine ⟨?_, ?_, ?_, ?_, hc, hc, ⟨_, hd⟩, ⟨_, hr⟩, ⟨_, hd⟩, ⟨_, hr⟩, ⟨_, hd⟩, ⟨_, hd⟩, ⟨_, hr⟩, ⟨_, hr⟩, ⟨_, hd⟩,
    ⟨.divByZero, ?_⟩, ⟨.divByZero, ?_⟩, ⟨.remByZero, ?_⟩, ⟨.remByZero, ?_⟩,
    ⟨_, hdr⟩, ⟨_, hdr⟩, ⟨_, hdr⟩, ⟨_, hdr⟩, ⟨_, hdr⟩, ⟨_, hdr⟩, ⟨.divByZero, ?_⟩, ⟨.divByZero, ?_⟩⟩
  · unfold U256.checked_div; rw [hz]; rfl
  · unfold U256.checked_div_euclid; rw [hz]; rfl
  · unfold U256.checked_rem; rw [hz]; rfl
  · unfold U256.checked_rem_euclid; rw [hz]; rfl
  · unfold U256.overflowing_div; rw [hd]; rfl
  · unfold U256.overflowing_div_euclid; rw [hd]; rfl
  · unfold U256.overflowing_rem; rw [hr]; rfl
  · unfold U256.overflowing_rem_euclid; rw [hr]; rfl
  · unfold U256.overflowing_div_rem; rw [hdr]; rfl
  · unfold U256.overflowing_div_rem_euclid; rw [hdr]; rfl

example : U256.ZERO.toNat dbg = 0 ∧ U256.MAX.checked_div dbg U256.ZERO = .ok none := by decide

/-! ### C05 -/

/-- C05: for `u1 < v` the 256-by-128 step returns the exact quotient and remainder in every build:
no overflow panic, no failed debug assertion, no undefined behaviour, and the two correction loops
end within the model's fuel of three entries (see `C05_corrections` for their number). -/
theorem C05_udiv256_by_128 (c : Cfg) (u1 u0 v : U128) (h : u1.toNat < v.toNat) :
    ∃ q r, Intr.udiv256_by_128_to_128 c u1 u0 v = .ok (q, r)
      ∧ q.toNat = (u1.toNat * 2 ^ 128 + u0.toNat) / v.toNat
      ∧ r.toNat = (u1.toNat * 2 ^ 128 + u0.toNat) % v.toNat :=
  Intr.udiv256_by_128_to_128_spec c h

example : Intr.udiv256_by_128_to_128 dbg 6 5 7
    = .ok (BitVec.ofNat 128 ((6 * 2 ^ 128 + 5) / 7), BitVec.ofNat 128 ((6 * 2 ^ 128 + 5) % 7)) := by
  decide +kernel

/-- C05: one quotient digit. With a normalised divisor `vn1 * 2^64 + vn0` (`vn1 ≥ 2^63`) and a
partial remainder below it, the digit is exact; `C05_corrections`
counts the corrections. -/
theorem C05_quotDigit (c : Cfg) (un un' vn1 vn0 : U128)
    (h1 : 2 ^ 63 ≤ vn1.toNat) (h1' : vn1.toNat < 2 ^ 64) (h0 : vn0.toNat < 2 ^ 64)
    (hu : un'.toNat < 2 ^ 64) (hU : un.toNat < vn1.toNat * 2 ^ 64 + vn0.toNat) :
    ∃ q, Intr.quotDigit c un un' vn1 vn0 = .ok q
      ∧ q.toNat = (un.toNat * 2 ^ 64 + un'.toNat) / (vn1.toNat * 2 ^ 64 + vn0.toNat) :=
  Intr.quotDigit_spec c h1 h1' h0 hu hU

theorem estimate_aux {B d d' u u' j : Nat} (hB : B ≤ 2 * d) (h0 : d' < B) (hj : j ≤ B)
    (hm : (2 + j) * d ≤ u) : j * (d * B + d') ≤ u * B + u' := by
  have a1 : j * d' ≤ B * d' := Nat.mul_le_mul_right _ hj
  have a2 : (2 + j) * d * B ≤ u * B := Nat.mul_le_mul_right _ hm
  have a4 : B * d' ≤ 2 * d * B := by
    rw [Nat.mul_comm]; exact Nat.mul_le_mul (by omega) (le_refl B)
  nlinarith

/-- C05: the number of corrections. Every pass through the correction loop takes one off the first
estimate `un / vn1`, so the distance between the estimate and the digit returned is the number of
corrections made: never more than two. -/
theorem C05_corrections (c : Cfg) (un un' vn1 vn0 : U128)
    (h1 : 2 ^ 63 ≤ vn1.toNat) (h1' : vn1.toNat < 2 ^ 64) (h0 : vn0.toNat < 2 ^ 64)
    (hu : un'.toNat < 2 ^ 64) (hU : un.toNat < vn1.toNat * 2 ^ 64 + vn0.toNat) :
    ∃ q, Intr.quotDigit c un un' vn1 vn0 = .ok q
      ∧ q.toNat ≤ un.toNat / vn1.toNat ∧ un.toNat / vn1.toNat ≤ q.toNat + 2 := by
  obtain ⟨q, e, hq⟩ := Intr.quotDigit_spec c h1 h1' h0 hu hU
  refine ⟨q, e, ?_, ?_⟩
  · rw [hq]
    generalize un.toNat = u at *; generalize un'.toNat = u' at *
    generalize vn1.toNat = d at *; generalize vn0.toNat = d' at *
    have hd : 0 < d := by omega
    rw [← Nat.lt_succ_iff, Nat.div_lt_iff_lt_mul (by omega), Nat.succ_eq_add_one]
    have h := Nat.lt_mul_div_succ u hd
    have h2 : u + 1 ≤ d * (u / d + 1) := h
    generalize u / d = k at *
    calc u * 2 ^ 64 + u' < (u + 1) * 2 ^ 64 := by omega
      _ ≤ d * (k + 1) * 2 ^ 64 := Nat.mul_le_mul_right _ h2
      _ = (k + 1) * (d * 2 ^ 64) := by ring
      _ ≤ (k + 1) * (d * 2 ^ 64 + d') := Nat.mul_le_mul_left _ (by omega)
  · rw [hq]
    generalize un.toNat = u at *; generalize un'.toNat = u' at *
    generalize vn1.toNat = d at *; generalize vn0.toNat = d' at *
    have hd : 0 < d := by omega
    have hk : u / d < 2 ^ 64 + 2 := by
      rw [Nat.div_lt_iff_lt_mul hd]; omega
    have hm : u / d * d ≤ u := Nat.div_mul_le_self u d
    generalize u / d = k at *
    rcases Nat.lt_or_ge k 2 with h | h
    · omega
    · obtain ⟨j, rfl⟩ := Nat.exists_eq_add_of_le h
      have : j ≤ (u * 2 ^ 64 + u') / (d * 2 ^ 64 + d') := by
        rw [Nat.le_div_iff_mul_le (by omega)]
        exact estimate_aux (B := 2 ^ 64) (by omega) (by omega) (by omega) hm
      omega

/-- Two corrections do happen, and so does one. -/
example : Intr.quotDigit dbg (BitVec.ofNat 128 (2 ^ 127)) 0 (BitVec.ofNat 128 (2 ^ 63))
      (BitVec.ofNat 128 (2 ^ 64 - 1)) = .ok (BitVec.ofNat 128 (2 ^ 127 / 2 ^ 63 - 2))
    ∧ Intr.quotDigit dbg (BitVec.ofNat 128 (2 ^ 127)) 0 (BitVec.ofNat 128 (2 ^ 63))
      (BitVec.ofNat 128 1) = .ok (BitVec.ofNat 128 (2 ^ 127 / 2 ^ 63 - 1)) := by decide +kernel

/-- A case in which the first estimate really is corrected. -/
example : Intr.quotDigit dbg (BitVec.ofNat 128 (2 ^ 127)) 0 (BitVec.ofNat 128 (2 ^ 63))
      (BitVec.ofNat 128 (2 ^ 64 - 1))
    = .ok (BitVec.ofNat 128 (2 ^ 127 * 2 ^ 64 / (2 ^ 63 * 2 ^ 64 + (2 ^ 64 - 1)))) := by decide +kernel

/-- C05: the estimate of the full two-word step, after its correction loop, is the quotient itself, and the loop body
is entered at most three times. So the multiply-and-subtract step leaves the estimate as it is: the add-back branch
(Knuth's step D6), the only one that changes it, is never taken. -/
theorem C05_knuth_estimate (c : Cfg) (u0 u1 u2 : U128) (v : U256) (hv : 2 ^ 255 ≤ v.toNat c)
    (hu : u2.toNat < v.toNat c / 2 ^ 128) :
    ∃ q r0 r1 r2, Intr.knuthQhat c u0 u1 u2 (v.high c) (v.low c) = .ok q
      ∧ q.toNat = (u2.toNat * 2 ^ 256 + u1.toNat * 2 ^ 128 + u0.toNat) / v.toNat c
      ∧ Intr.knuthSub c u0 u1 u2 v q = .ok (q, r0, r1, r2)
      ∧ r2.toNat * 2 ^ 256 + r1.toNat * 2 ^ 128 + r0.toNat
        = (u2.toNat * 2 ^ 256 + u1.toNat * 2 ^ 128 + u0.toNat) % v.toNat c := by
  have e : ∀ x y z : Nat, x * 2 ^ 256 + y * 2 ^ 128 + z = (x * 2 ^ 128 + y) * 2 ^ 128 + z := by intros; omega
  have hh : (v.high c).toNat = v.toNat c / 2 ^ 128 := U256.high_toNat c v
  obtain ⟨q, eq, vq⟩ := Intr.knuthQhat_spec c (u0 := u0) (u1 := u1) (u2 := u2) (v1 := v.high c) (v0 := v.low c)
    (by omega) (by omega)
  have hw := U256.toNat_eq c v
  rw [← hw] at vq
  obtain ⟨r0, r1, r2, er, vr⟩ := Intr.knuthSub_spec c (v := v) (q := q) (Nat.lt_of_lt_of_le (by decide) hv) vq
  refine ⟨q, r0, r1, r2, eq, by rw [e]; exact vq, er, ?_⟩
  rw [e, e]; exact vr

example : Intr.knuthQhat dbg 0 0 (2 ^ 127) (2 ^ 127 + 1) (2 ^ 128 - 1)
    = .ok (BitVec.ofNat 128 (2 ^ 127 * 2 ^ 256 / ((2 ^ 127 + 1) * 2 ^ 128 + (2 ^ 128 - 1)))) := by decide +kernel

/-- C05: the full two-word step (Knuth's algorithm D) is exact for any divisor of at least `2^128`. -/
theorem C05_knuth (c : Cfg) (u v : U256) (hv : 2 ^ 128 ≤ v.toNat c) (hu : 2 ^ 128 ≤ u.toNat c) :
    Intr.div_mod_knuth c u v
      = .ok (U256.ofNat c (u.toNat c / v.toNat c), U256.ofNat c (u.toNat c % v.toNat c)) :=
  Intr.div_mod_knuth_spec c hv hu

example : Intr.div_mod_knuth rel U256.MAX (U256.from_words rel 1 1)
    = .ok (U256.from_words rel 0 (-1), U256.ZERO) := by decide +kernel

/-! ### C10 -/

theorem toNat_and_0xff (n : U32) : (n &&& 0xff).toNat = n.toNat % 256 := by
  rw [BitVec.toNat_and]; exact Nat.and_two_pow_sub_one_eq_mod n.toNat 8

theorem u32_gt_255 (n : U32) : decide (n > 255) = decide (255 < n.toNat) := by
  rw [decide_eq_decide, gt_iff_lt, BitVec.lt_def]; rfl

/-- C10: shift methods of `U256`, for every shift amount. -/
theorem C10_shl (c : Cfg) (a : U256) (n : U32) :
    let r := U256.ofNat c (a.toNat c * 2 ^ (n.toNat % 256))
    a.wrapping_shl c n = .ok r
    ∧ a.overflowing_shl c n = .ok (r, decide (255 < n.toNat))
    ∧ a.checked_shl c n = .ok (if n.toNat ≤ 255 then some r else none) := by
  intro r
  have hw : a.wrapping_shl c n = .ok r := by
    unfold U256.wrapping_shl
    rw [Intr.shl3_eq c a _ (by rw [toNat_and_0xff]; omega), toNat_and_0xff]
  have ho : a.overflowing_shl c n = .ok (r, decide (255 < n.toNat)) := by
    unfold U256.overflowing_shl; rw [hw, ok_bind, u32_gt_255]; rfl
  refine ⟨hw, ho, ?_⟩
  unfold U256.checked_shl
  rw [ho, ok_bind, pure_eq_ok, checkedOf_mk]
  by_cases h : n.toNat ≤ 255
  · rw [if_neg (by omega), if_pos h]
  · rw [if_pos (by omega), if_neg h]

example : (U256.ONE dbg).overflowing_shl dbg 260 = .ok (U256.new dbg 16, true)
    ∧ (U256.ONE dbg).checked_shl dbg 128 = .ok (some (U256.from_words dbg 1 0)) := by decide

theorem C10_shr (c : Cfg) (a : U256) (n : U32) :
    let r := U256.ofNat c (a.toNat c / 2 ^ (n.toNat % 256))
    a.wrapping_shr c n = .ok r
    ∧ a.overflowing_shr c n = .ok (r, decide (255 < n.toNat))
    ∧ a.checked_shr c n = .ok (if n.toNat ≤ 255 then some r else none) := by
  intro r
  have hw : a.wrapping_shr c n = .ok r := by
    unfold U256.wrapping_shr
    rw [Intr.shr3_eq c a _ (by rw [toNat_and_0xff]; omega), toNat_and_0xff]
  have ho : a.overflowing_shr c n = .ok (r, decide (255 < n.toNat)) := by
    unfold U256.overflowing_shr; rw [hw, ok_bind, u32_gt_255]; rfl
  refine ⟨hw, ho, ?_⟩
  unfold U256.checked_shr
  rw [ho, ok_bind, pure_eq_ok, checkedOf_mk]
  by_cases h : n.toNat ≤ 255
  · rw [if_neg (by omega), if_pos h]
  · rw [if_pos (by omega), if_neg h]

example : U256.MAX.wrapping_shr rel 511 = .ok (U256.ONE rel)
    ∧ U256.MAX.checked_shr rel 256 = .ok none := by decide

/-! ### C19 (U256) -/

/-- C19: the absolute difference of two `U256`. -/
theorem C19_u256_abs_diff (c : Cfg) (a b : U256) :
    a.abs_diff c b = .ok (U256.ofNat c ((a.toNat c : Int) - b.toNat c).natAbs) := by
  unfold U256.abs_diff
  rw [U256.lt_eq]
  split
  · rename_i h
    rw [decide_eq_true_eq] at h
    rw [U256.sub_eq, if_neg (by omega), ← U256.ofInt_natCast]; congr 2; omega
  · rename_i h
    rw [decide_eq_true_eq] at h
    rw [U256.sub_eq, if_neg (by omega), ← U256.ofInt_natCast]; congr 2; omega

example : (U256.new dbg 3).abs_diff dbg U256.MAX = .ok (U256.ofNat dbg (2 ^ 256 - 4)) := by decide

end Ethnum
