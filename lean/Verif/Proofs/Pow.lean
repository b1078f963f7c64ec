import Verif.Props.UArith
import Verif.Props.IArith
import Mathlib.Tactic.Ring
import Mathlib.Data.Int.ModEq
import Mathlib.Tactic.Positivity

/-
The square-and-multiply loops: a pure loop over the integers, its meaning, and the equality of the model's
loops with it.
-/

set_option linter.unusedSimpArgs false

namespace Ethnum

theorem exp_gt_one (e : U32) : e > 1 ↔ 1 < e.toNat := by
  rw [gt_iff_lt, BitVec.lt_def]; rfl
theorem exp_and_one (e : U32) : e &&& 1 = 1 ↔ e.toNat % 2 = 1 := by
  have h : (e &&& 1).toNat = e.toNat % 2 := by
    rw [BitVec.toNat_and]; exact Nat.and_two_pow_sub_one_eq_mod e.toNat 1
  constructor
  · intro hh; rw [← h, hh]; rfl
  · intro hh; apply BitVec.eq_of_toNat_eq; rw [h, hh]; rfl
theorem exp_half (e : U32) : (e / 2).toNat = e.toNat / 2 := by
  rw [BitVec.toNat_udiv]; rfl
theorem exp_mod_two (e : U32) : e % 2 = 1 ↔ e.toNat % 2 = 1 := by
  have h : (e % 2).toNat = e.toNat % 2 := by rw [BitVec.toNat_umod]; rfl
  constructor
  · intro hh; rw [← h, hh]; rfl
  · intro hh; apply BitVec.eq_of_toNat_eq; rw [h, hh]; rfl

/-- Square-and-multiply over the integers, with results reduced by `wr` and overflow recorded. -/
def powLoop (wr : Int → Int) (In : Int → Prop) [DecidablePred In] :
    Nat → Nat → Int → Int → Bool → Int × Int × Bool
  | 0, _, base, acc, o => (base, acc, o)
  | f + 1, e, base, acc, o =>
    if 1 < e then
      powLoop wr In f (e / 2) (wr (base * base)) (if e % 2 = 1 then wr (acc * base) else acc)
        ((if e % 2 = 1 then o || decide (¬ In (acc * base)) else o) || decide (¬ In (base * base)))
    else (base, acc, o)

/-- The facts about a representable range that the loop needs. -/
structure PowDom (wr : Int → Int) (In : Int → Prop) : Prop where
  wr_modEq : ∀ z, wr z ≡ z [ZMOD 2 ^ 256]
  wr_in : ∀ z, In (wr z)
  wr_of_in : ∀ z, In z → wr z = z
  wr_congr : ∀ x y, x ≡ y [ZMOD 2 ^ 256] → wr x = wr y
  mul_out : ∀ A B : Int, ∀ k : Nat, In A → In B → ¬ In (A * B) → ¬ In (A * B * (B * B) ^ k)
  sq_out : ∀ A B : Int, ∀ k : Nat, In A → In B → ¬ In (B * B) → A ≠ 0 → 1 ≤ k → ¬ In (A * (B * B) ^ k)

section
variable (wr : Int → Int) (In : Int → Prop) [DecidablePred In]

theorem powLoop_true (f e : Nat) (b a : Int) : (powLoop wr In f e b a true).2.2 = true := by
  induction f generalizing e b a with
  | zero => rfl
  | succ f ih =>
    unfold powLoop
    split
    · simp only [Bool.true_or, ite_self]; exact ih _ _ _
    · rfl

theorem two_mul_half (e : Nat) : e = e % 2 + 2 * (e / 2) := (Nat.mod_add_div e 2).symm

theorem powLoop_spec {wr : Int → Int} {In : Int → Prop} [DecidablePred In] (D : PowDom wr In) (f e : Nat)
    (base acc : Int) (o : Bool) (hb : In base) (ha : In acc)
    (he : 1 ≤ e) (hf : e < 2 ^ f) (hz : o = true ∨ acc ≠ 0 ∨ base = 0) :
    wr ((powLoop wr In f e base acc o).2.1 * (powLoop wr In f e base acc o).1) = wr (acc * base ^ e)
    ∧ (((powLoop wr In f e base acc o).2.2 = true
        ∨ ¬ In ((powLoop wr In f e base acc o).2.1 * (powLoop wr In f e base acc o).1))
      ↔ (o = true ∨ ¬ In (acc * base ^ e))) := by
  induction f generalizing e base acc o with
  | zero => omega
  | succ f ih =>
    unfold powLoop
    by_cases h1 : 1 < e
    · rw [if_pos h1]
      have hpow : base ^ e = base ^ (e % 2) * (base * base) ^ (e / 2) := by
        conv_lhs => rw [two_mul_half e, pow_add, pow_mul, pow_two]
      have hk : 1 ≤ e / 2 := by omega
      have hkf : e / 2 < 2 ^ f := by rw [Nat.pow_succ] at hf; omega
      by_cases hodd : e % 2 = 1
      · rw [if_pos hodd, if_pos hodd]
        have hE : acc * base ^ e = acc * base * (base * base) ^ (e / 2) := by rw [hpow, hodd]; ring
        have hcong : wr (wr (acc * base) * wr (base * base) ^ (e / 2)) = wr (acc * base ^ e) := by
          rw [hE]; exact D.wr_congr _ _ ((D.wr_modEq _).mul ((D.wr_modEq _).pow _))
        by_cases hm : In (acc * base)
        · by_cases hs : In (base * base)
          · rw [decide_eq_false (not_not.2 hm), decide_eq_false (not_not.2 hs), Bool.or_false, Bool.or_false,
              D.wr_of_in _ hm, D.wr_of_in _ hs]
            rw [D.wr_of_in _ hm, D.wr_of_in _ hs] at hcong
            have := ih (e / 2) (base * base) (acc * base) o hs hm hk hkf (by
              rcases hz with h | h | h
              · exact .inl h
              · by_cases hb0 : base = 0
                · exact .inr (.inr (by rw [hb0]; rfl))
                · exact .inr (.inl (mul_ne_zero h hb0))
              · exact .inr (.inr (by rw [h]; rfl)))
            rw [← hE] at this
            exact this
          · have ho : ((o || decide (¬ In (acc * base))) || decide (¬ In (base * base))) = true := by
              rw [decide_eq_true hs, Bool.or_true]
            rw [ho]
            have h2 := ih (e / 2) (wr (base * base)) (wr (acc * base)) true (D.wr_in _) (D.wr_in _) hk hkf (.inl rfl)
            refine ⟨h2.1.trans hcong, ⟨fun _ => ?_, fun _ => .inl (powLoop_true wr In _ _ _ _)⟩⟩
            by_cases ho : o = true
            · exact .inl ho
            · right; rw [hE]
              have hb0 : base ≠ 0 := by
                rintro rfl; exact hs (by have := hb; simpa using this)
              apply D.sq_out _ _ _ hm hb hs _ hk
              rcases hz with h | h | h
              · exact absurd h ho
              · exact mul_ne_zero h hb0
              · exact absurd h hb0
        · have ho : ((o || decide (¬ In (acc * base))) || decide (¬ In (base * base))) = true := by
            rw [decide_eq_true hm, Bool.or_true, Bool.true_or]
          rw [ho]
          have h2 := ih (e / 2) (wr (base * base)) (wr (acc * base)) true (D.wr_in _) (D.wr_in _) hk hkf (.inl rfl)
          refine ⟨h2.1.trans hcong, ⟨fun _ => ?_, fun _ => .inl (powLoop_true wr In _ _ _ _)⟩⟩
          right; rw [hE]
          exact D.mul_out _ _ _ ha hb hm
      · rw [if_neg hodd, if_neg hodd]
        have hE : acc * base ^ e = acc * (base * base) ^ (e / 2) := by
          rw [hpow, show e % 2 = 0 by omega]; ring
        have hcong : wr (acc * wr (base * base) ^ (e / 2)) = wr (acc * base ^ e) := by
          rw [hE]; exact D.wr_congr _ _ (((D.wr_modEq _).pow _).mul_left _)
        by_cases hs : In (base * base)
        · rw [decide_eq_false (not_not.2 hs), Bool.or_false, D.wr_of_in _ hs]
          have := ih (e / 2) (base * base) acc o hs ha hk hkf (by
            rcases hz with h | h | h
            · exact .inl h
            · exact .inr (.inl h)
            · exact .inr (.inr (by rw [h]; rfl)))
          rw [← hE] at this
          exact this
        · rw [decide_eq_true hs, Bool.or_true]
          have h2 := ih (e / 2) (wr (base * base)) acc true (D.wr_in _) ha hk hkf (.inl rfl)
          refine ⟨h2.1.trans hcong, ⟨fun _ => ?_, fun _ => .inl (powLoop_true wr In _ _ _ _)⟩⟩
          by_cases ho : o = true
          · exact .inl ho
          · right; rw [hE]
            have hb0 : base ≠ 0 := by
              rintro rfl; exact hs (by have := hb; simpa using this)
            apply D.sq_out _ _ _ ha hb hs _ hk
            rcases hz with h | h | h
            · exact absurd h ho
            · exact h
            · exact absurd h hb0
    · have : e = 1 := by omega
      subst this
      rw [if_neg h1, pow_one]
      exact ⟨rfl, Iff.rfl⟩
end

theorem powLoop_in {wr : Int → Int} {In : Int → Prop} [DecidablePred In] (D : PowDom wr In) (f e : Nat)
    (base acc : Int) (o : Bool) (hb : In base) (ha : In acc) :
    In (powLoop wr In f e base acc o).1 ∧ In (powLoop wr In f e base acc o).2.1 := by
  induction f generalizing e base acc o with
  | zero => exact ⟨hb, ha⟩
  | succ f ih =>
    unfold powLoop
    by_cases h1 : 1 < e
    · rw [if_pos h1]
      apply ih
      · exact D.wr_in _
      · split
        · exact D.wr_in _
        · exact ha
    · rw [if_neg h1]; exact ⟨hb, ha⟩

/-! The unsigned range. -/


theorem one_le_sq_pow (B : Int) (hB : B ≠ 0) (k : Nat) : 1 ≤ (B * B) ^ k :=
  Int.add_one_le_of_lt (pow_pos (mul_self_pos.2 hB) k)

/-- Reduction into the range of `U256`. -/
def wrU256 (z : Int) : Int := z % 2 ^ 256
/-- Reduction into the range of `I256`. -/
def wrI256 (c : Cfg) (z : Int) : Int := (I256.ofInt c z).toInt c

theorem powDomU : PowDom wrU256 InU256 where
  wr_modEq z := Int.mod_modEq z _
  wr_in z := by
    unfold InU256 wrU256; omega
  wr_of_in z h := by unfold InU256 at h; unfold wrU256; omega
  wr_congr x y h := h
  mul_out A B k hA hB h := by
    have hAB : 0 ≤ A * B := mul_nonneg hA.1 hB.1
    have h2 : 2 ^ 256 ≤ A * B := by
      by_contra hn; exact h ⟨hAB, by omega⟩
    have hB0 : B ≠ 0 := by rintro rfl; simp at h2
    intro hh
    have := hh.2
    have := le_mul_of_one_le_right hAB (one_le_sq_pow B hB0 k)
    omega
  sq_out A B k hA hB h hA0 hk := by
    have hBB : 0 ≤ B * B := mul_self_nonneg B
    have h2 : 2 ^ 256 ≤ B * B := by
      by_contra hn; exact h ⟨hBB, by omega⟩
    have hB0 : B ≠ 0 := by rintro rfl; simp at h2
    obtain ⟨j, rfl⟩ : ∃ j, k = j + 1 := ⟨k - 1, by omega⟩
    intro hh
    have h3 := hh.2
    have h4 : 1 ≤ A * (B * B) ^ j := by
      have := one_le_sq_pow B hB0 j
      have h5 : 1 ≤ A := by have := hA.1; omega
      exact one_le_mul_of_one_le_of_one_le h5 this
    have h6 : A * (B * B) ^ (j + 1) = A * (B * B) ^ j * (B * B) := by ring
    rw [h6] at h3
    have := le_mul_of_one_le_left hBB h4
    omega

/-! The signed range. -/

theorem sq_ne (n : Int) : n * n ≠ 2 ^ 255 := by
  intro h
  have h2 : n.natAbs * n.natAbs = 2 ^ 255 := by
    have := Int.natAbs_mul_self (a := n); rw [h] at this; exact_mod_cast this
  generalize n.natAbs = m at h2
  rcases Nat.lt_or_ge m 240615969168004511545033772477625056928 with hl | hl
  · have := Nat.mul_le_mul (Nat.le_of_lt_succ hl) (Nat.le_of_lt_succ hl)
    rw [h2] at this; exact absurd this (by decide)
  · have := Nat.mul_le_mul hl hl
    rw [h2] at this; exact absurd this (by decide)

theorem powDomI (c : Cfg) : PowDom (wrI256 c) InI256 where
  wr_modEq z := by
    show (I256.ofInt c z).toInt c % 2 ^ 256 = z % 2 ^ 256
    rw [← I256.toNat_toInt, I256.toNat_ofInt]
  wr_in z := I256.toInt_in c _
  wr_of_in z h := I256.toInt_ofInt_of_in c h
  wr_congr x y h := congrArg (I256.toInt c) (I256.ofInt_congr c h)
  mul_out A B k hA hB h := by
    have hB0 : B ≠ 0 := by rintro rfl; exact h (by rw [mul_zero]; decide)
    have h1 := one_le_sq_pow B hB0 k
    intro hh
    unfold InI256 at h hh
    rcases le_or_gt 0 (A * B) with hs | hs
    · have := le_mul_of_one_le_right hs h1
      omega
    · have := le_mul_of_one_le_right (a := -(A * B)) (by omega) h1
      rw [neg_mul] at this
      omega
  sq_out A B k hA hB h hA0 hk := by
    have hBB : 0 ≤ B * B := mul_self_nonneg B
    have hB0 : B ≠ 0 := by rintro rfl; exact h (by rw [mul_zero]; decide)
    have hne := sq_ne B
    obtain ⟨j, rfl⟩ : ∃ j, k = j + 1 := ⟨k - 1, by omega⟩
    have h1 := one_le_sq_pow B hB0 j
    have h6 : A * (B * B) ^ (j + 1) = A * (B * B) ^ j * (B * B) := by ring
    rw [h6]
    intro hh
    unfold InI256 at h hh
    rcases lt_or_gt_of_ne hA0 with hs | hs
    · have h4 : 1 ≤ -A * (B * B) ^ j := one_le_mul_of_one_le_of_one_le (by omega) h1
      have := le_mul_of_one_le_left hBB h4
      have e : -A * (B * B) ^ j * (B * B) = -(A * (B * B) ^ j * (B * B)) := by ring
      rw [e] at this
      omega
    · have h4 : 1 ≤ A * (B * B) ^ j := one_le_mul_of_one_le_of_one_le (by omega) h1
      have := le_mul_of_one_le_left hBB h4
      omega

theorem exp_small {exp : U32} (h : ¬ exp > 1) : (if exp = 0 then (0 : U32) else 1) = exp := by
  have h1 : ¬ 1 < exp.toNat := fun hh => h ((exp_gt_one exp).2 hh)
  by_cases h0 : exp = 0
  · rw [if_pos h0, h0]
  · rw [if_neg h0]
    apply BitVec.eq_of_toNat_eq
    have : exp.toNat ≠ 0 := fun hh => h0 (BitVec.eq_of_toNat_eq hh)
    show 1 = exp.toNat
    omega

theorem exp_half_zero {exp : U32} (h : exp > 1) :
    (if exp / 2 = 0 then (0 : U32) else 1) = if exp = 0 then (0 : U32) else 1 := by
  have h1 := (exp_gt_one exp).1 h
  rw [if_neg, if_neg]
  · rintro rfl; simp at h1
  · intro hh
    have := exp_half exp
    rw [hh] at this
    have e0 : (0 : U32).toNat = 0 := rfl
    omega

theorem pure_ok {α : Type} (x : α) : (pure x : Res α) = .ok x := rfl

namespace U256
variable (c : Cfg)

theorem ovf_mul (a b : U256) : overflowing_mul c a b =
    .ok (ofInt c ((a.toNat c : Int) * b.toNat c), decide (¬ InU256 ((a.toNat c : Int) * b.toNat c))) := by
  rw [(C03_mul c a b).2.1, ← Int.natCast_mul, ofInt_natCast]
  have h : decide (2 ^ 256 ≤ a.toNat c * b.toNat c) = decide (¬ InU256 ((a.toNat c * b.toNat c : Nat) : Int)) :=
    decide_eq_decide.2 (by unfold InU256; omega)
  rw [h]
theorem wrap_mul (a b : U256) : wrapping_mul c a b = .ok (ofInt c ((a.toNat c : Int) * b.toNat c)) := by
  rw [(C03_mul c a b).1, ← Int.natCast_mul, ofInt_natCast]
theorem chk_mul (a b : U256) : checked_mul c a b =
    .ok (if InU256 ((a.toNat c : Int) * b.toNat c) then some (ofInt c ((a.toNat c : Int) * b.toNat c)) else none) := by
  rw [(C03_mul c a b).2.2.1, ← Int.natCast_mul, ofInt_natCast]
  by_cases h : a.toNat c * b.toNat c < 2 ^ 256
  · rw [if_pos h, if_pos (by unfold InU256; omega)]
  · rw [if_neg h, if_neg (by unfold InU256; omega)]
theorem op_mul (a b : U256) : mul c a b =
    if c.debugAssertions = true ∧ ¬ InU256 ((a.toNat c : Int) * b.toNat c) then .error (.panic .mulOverflow)
    else .ok (ofInt c ((a.toNat c : Int) * b.toNat c)) := by
  rw [mul_eq, ← Int.natCast_mul, ofInt_natCast]
  by_cases h : a.toNat c * b.toNat c < 2 ^ 256
  · rw [if_neg (fun x => by omega), if_neg (fun x => x.2 (by unfold InU256; omega))]
  · by_cases hd : c.debugAssertions = true
    · rw [if_pos ⟨hd, by omega⟩, if_pos ⟨hd, by unfold InU256; omega⟩]
    · rw [if_neg (fun x => hd x.1), if_neg (fun x => hd x.1)]
theorem val_mk (z : Int) : ((ofInt c z).toNat c : Int) = wrU256 z := toNat_ofInt c z
theorem mk_val (x : U256) : ofInt c (x.toNat c : Int) = x := by rw [ofInt_natCast, ofNat_toNat]
theorem ofInt_emod (z : Int) : ofInt c (z % 2 ^ 256) = ofInt c z := by
  unfold ofInt; rw [Int.emod_emod_of_dvd _ (Int.dvd_refl _)]

theorem overflowing_pow_loop_eq (f : Nat) (exp : U32) (base acc : U256) (o : Bool) (hf : exp.toNat < 2 ^ f) (hf1 : 1 ≤ f) :
    overflowing_pow_loop c f exp base acc o =
      .ok ((if exp = 0 then 0 else 1), ofInt c (powLoop wrU256 InU256 f exp.toNat (base.toNat c : Int) (acc.toNat c : Int) o).1, ofInt c (powLoop wrU256 InU256 f exp.toNat (base.toNat c : Int) (acc.toNat c : Int) o).2.1, (powLoop wrU256 InU256 f exp.toNat (base.toNat c : Int) (acc.toNat c : Int) o).2.2) := by
  induction f generalizing exp base acc o with
  | zero => omega
  | succ f ih =>
    by_cases h1 : exp > 1
    · have h1' := (exp_gt_one exp).1 h1
      have hf' : (exp / 2).toNat < 2 ^ f := by rw [exp_half]; rw [Nat.pow_succ] at hf; omega
      have hf1' : 1 ≤ f := by
        rcases Nat.eq_zero_or_pos f with h | h
        · subst h; simp at hf; omega
        · exact h
      unfold overflowing_pow_loop powLoop
      rw [if_pos h1, if_pos h1']
      by_cases hodd : exp.toNat % 2 = 1
      · rw [if_pos ((exp_and_one exp).2 hodd), if_pos hodd, if_pos hodd]
        simp only [ovf_mul, ok_bind, pure_ok]
        have hi := ih (exp / 2) (ofInt c ((base.toNat c : Int) * (base.toNat c : Int))) (ofInt c ((acc.toNat c : Int) * (base.toNat c : Int)))
          ((o || decide (¬ InU256 ((acc.toNat c : Int) * (base.toNat c : Int)))) || decide (¬ InU256 ((base.toNat c : Int) * (base.toNat c : Int)))) hf' hf1'
        simp only [val_mk, exp_half] at hi; rw [exp_half_zero h1] at hi; exact hi
      · rw [if_neg (fun h => hodd ((exp_and_one exp).1 h)), if_neg hodd, if_neg hodd]
        simp only [ovf_mul, ok_bind, pure_ok]
        have hi := ih (exp / 2) (ofInt c ((base.toNat c : Int) * (base.toNat c : Int))) acc (o || decide (¬ InU256 ((base.toNat c : Int) * (base.toNat c : Int)))) hf' hf1'
        simp only [val_mk, exp_half] at hi; rw [exp_half_zero h1] at hi; exact hi
    · unfold overflowing_pow_loop powLoop
      simp only [if_neg h1, if_neg (fun h => h1 ((exp_gt_one exp).2 h))]
      rw [exp_small h1]
      simp only [mk_val, pure_ok]

theorem wrapping_pow_loop_eq (f : Nat) (exp : U32) (base acc : U256) (o : Bool) (hf : exp.toNat < 2 ^ f) (hf1 : 1 ≤ f) :
    wrapping_pow_loop c f exp base acc =
      .ok ((if exp = 0 then 0 else 1), ofInt c (powLoop wrU256 InU256 f exp.toNat (base.toNat c : Int) (acc.toNat c : Int) o).1, ofInt c (powLoop wrU256 InU256 f exp.toNat (base.toNat c : Int) (acc.toNat c : Int) o).2.1) := by
  induction f generalizing exp base acc o with
  | zero => omega
  | succ f ih =>
    by_cases h1 : exp > 1
    · have h1' := (exp_gt_one exp).1 h1
      have hf' : (exp / 2).toNat < 2 ^ f := by rw [exp_half]; rw [Nat.pow_succ] at hf; omega
      have hf1' : 1 ≤ f := by
        rcases Nat.eq_zero_or_pos f with h | h
        · subst h; simp at hf; omega
        · exact h
      unfold wrapping_pow_loop powLoop
      rw [if_pos h1, if_pos h1']
      by_cases hodd : exp.toNat % 2 = 1
      · rw [if_pos ((exp_and_one exp).2 hodd), if_pos hodd, if_pos hodd]
        simp only [wrap_mul, ok_bind, pure_ok]
        have hi := ih (exp / 2) (ofInt c ((base.toNat c : Int) * (base.toNat c : Int))) (ofInt c ((acc.toNat c : Int) * (base.toNat c : Int)))
          ((o || decide (¬ InU256 ((acc.toNat c : Int) * (base.toNat c : Int)))) || decide (¬ InU256 ((base.toNat c : Int) * (base.toNat c : Int)))) hf' hf1'
        simp only [val_mk, exp_half] at hi; rw [exp_half_zero h1] at hi; exact hi
      · rw [if_neg (fun h => hodd ((exp_and_one exp).1 h)), if_neg hodd, if_neg hodd]
        simp only [wrap_mul, ok_bind, pure_ok]
        have hi := ih (exp / 2) (ofInt c ((base.toNat c : Int) * (base.toNat c : Int))) acc (o || decide (¬ InU256 ((base.toNat c : Int) * (base.toNat c : Int)))) hf' hf1'
        simp only [val_mk, exp_half] at hi; rw [exp_half_zero h1] at hi; exact hi
    · unfold wrapping_pow_loop powLoop
      simp only [if_neg h1, if_neg (fun h => h1 ((exp_gt_one exp).2 h))]
      rw [exp_small h1]
      simp only [mk_val, pure_ok]

theorem checked_pow_loop_eq (f : Nat) (exp : U32) (base acc : U256) (hf : exp.toNat < 2 ^ f) (hf1 : 1 ≤ f) :
    checked_pow_loop c f exp base acc = .ok (if (powLoop wrU256 InU256 f exp.toNat (base.toNat c : Int) (acc.toNat c : Int) false).2.2 = true then none
      else some ((if exp = 0 then 0 else 1), ofInt c (powLoop wrU256 InU256 f exp.toNat (base.toNat c : Int) (acc.toNat c : Int) false).1, ofInt c (powLoop wrU256 InU256 f exp.toNat (base.toNat c : Int) (acc.toNat c : Int) false).2.1)) := by
  induction f generalizing exp base acc with
  | zero => omega
  | succ f ih =>
    by_cases h1 : exp > 1
    · have h1' := (exp_gt_one exp).1 h1
      have hf' : (exp / 2).toNat < 2 ^ f := by rw [exp_half]; rw [Nat.pow_succ] at hf; omega
      have hf1' : 1 ≤ f := by
        rcases Nat.eq_zero_or_pos f with h | h
        · subst h; simp at hf; omega
        · exact h
      unfold checked_pow_loop powLoop
      rw [if_pos h1, if_pos h1']
      by_cases hodd : exp.toNat % 2 = 1
      · rw [if_pos ((exp_and_one exp).2 hodd), if_pos hodd, if_pos hodd, chk_mul, ok_bind, chk_mul]
        by_cases hm : InU256 ((acc.toNat c : Int) * (base.toNat c : Int))
        · rw [if_pos hm]
          dsimp only
          rw [ok_bind]
          by_cases hs : InU256 ((base.toNat c : Int) * (base.toNat c : Int))
          · rw [if_pos hs]
            dsimp only
            rw [decide_eq_false (not_not.2 hm), decide_eq_false (not_not.2 hs), Bool.or_false, Bool.or_false]
            have hi := ih (exp / 2) (ofInt c ((base.toNat c : Int) * (base.toNat c : Int))) (ofInt c ((acc.toNat c : Int) * (base.toNat c : Int))) hf' hf1'
            simp only [val_mk, exp_half] at hi; rw [exp_half_zero h1] at hi; exact hi
          · rw [if_neg hs]
            dsimp only
            rw [decide_eq_true hs, Bool.or_true, powLoop_true, if_pos rfl, pure_ok]
        · rw [if_neg hm]
          dsimp only
          rw [decide_eq_true hm, Bool.or_true, Bool.true_or, powLoop_true, if_pos rfl, pure_ok]
      · rw [if_neg (fun h => hodd ((exp_and_one exp).1 h)), if_neg hodd, if_neg hodd, pure_ok, ok_bind]
        dsimp only
        rw [chk_mul, ok_bind]
        by_cases hs : InU256 ((base.toNat c : Int) * (base.toNat c : Int))
        · rw [if_pos hs]
          dsimp only
          rw [decide_eq_false (not_not.2 hs), Bool.or_false]
          have hi := ih (exp / 2) (ofInt c ((base.toNat c : Int) * (base.toNat c : Int))) acc hf' hf1'
          simp only [val_mk, exp_half] at hi; rw [exp_half_zero h1] at hi; exact hi
        · rw [if_neg hs]
          dsimp only
          rw [decide_eq_true hs, Bool.or_true, powLoop_true, if_pos rfl, pure_ok]
    · unfold checked_pow_loop powLoop
      simp only [if_neg h1, if_neg (fun h => h1 ((exp_gt_one exp).2 h))]
      rw [exp_small h1]
      simp only [mk_val, pure_ok, Bool.false_eq_true, if_false]

theorem pow_loop_eq (f : Nat) (exp : U32) (base acc : U256) (o : Bool) (ho : c.debugAssertions = true → o = false) (hf : exp.toNat < 2 ^ f) (hf1 : 1 ≤ f) :
    pow_loop c f exp base acc = if c.debugAssertions = true ∧ (powLoop wrU256 InU256 f exp.toNat (base.toNat c : Int) (acc.toNat c : Int) o).2.2 = true then .error (.panic .mulOverflow)
      else .ok ((if exp = 0 then 0 else 1), ofInt c (powLoop wrU256 InU256 f exp.toNat (base.toNat c : Int) (acc.toNat c : Int) o).1, ofInt c (powLoop wrU256 InU256 f exp.toNat (base.toNat c : Int) (acc.toNat c : Int) o).2.1) := by
  induction f generalizing exp base acc o with
  | zero => omega
  | succ f ih =>
    by_cases h1 : exp > 1
    · have h1' := (exp_gt_one exp).1 h1
      have hf' : (exp / 2).toNat < 2 ^ f := by rw [exp_half]; rw [Nat.pow_succ] at hf; omega
      have hf1' : 1 ≤ f := by
        rcases Nat.eq_zero_or_pos f with h | h
        · subst h; simp at hf; omega
        · exact h
      unfold pow_loop powLoop
      rw [if_pos h1, if_pos h1']
      by_cases hodd : exp.toNat % 2 = 1
      · rw [if_pos ((exp_and_one exp).2 hodd), if_pos hodd, if_pos hodd]
        simp only [mul_assign_eq, op_mul, pure_ok]
        by_cases hm : c.debugAssertions = true ∧ ¬ InU256 ((acc.toNat c : Int) * (base.toNat c : Int))
        · rw [if_pos hm, decide_eq_true hm.2, Bool.or_true, Bool.true_or, powLoop_true, error_bind]
          exact (if_pos ⟨hm.1, rfl⟩).symm
        · rw [if_neg hm, ok_bind]
          by_cases hs : c.debugAssertions = true ∧ ¬ InU256 ((base.toNat c : Int) * (base.toNat c : Int))
          · rw [if_pos hs, decide_eq_true hs.2, Bool.or_true, powLoop_true, error_bind]
            exact (if_pos ⟨hs.1, rfl⟩).symm
          · rw [if_neg hs, ok_bind]
            have hi := ih (exp / 2) (ofInt c ((base.toNat c : Int) * (base.toNat c : Int))) (ofInt c ((acc.toNat c : Int) * (base.toNat c : Int)))
              ((o || decide (¬ InU256 ((acc.toNat c : Int) * (base.toNat c : Int)))) || decide (¬ InU256 ((base.toNat c : Int) * (base.toNat c : Int)))) (fun hd => by
                rw [ho hd, decide_eq_false (fun h => hm ⟨hd, h⟩), decide_eq_false (fun h => hs ⟨hd, h⟩)]; rfl) hf' hf1'
            simp only [val_mk, exp_half] at hi; rw [exp_half_zero h1] at hi; exact hi
      · rw [if_neg (fun h => hodd ((exp_and_one exp).1 h)), if_neg hodd, if_neg hodd]
        simp only [mul_assign_eq, op_mul, pure_ok, ok_bind]
        by_cases hs : c.debugAssertions = true ∧ ¬ InU256 ((base.toNat c : Int) * (base.toNat c : Int))
        · rw [if_pos hs, decide_eq_true hs.2, Bool.or_true, powLoop_true, error_bind]
          exact (if_pos ⟨hs.1, rfl⟩).symm
        · rw [if_neg hs, ok_bind]
          have hi := ih (exp / 2) (ofInt c ((base.toNat c : Int) * (base.toNat c : Int))) acc
            (o || decide (¬ InU256 ((base.toNat c : Int) * (base.toNat c : Int)))) (fun hd => by
              rw [ho hd, decide_eq_false (fun h => hs ⟨hd, h⟩)]; rfl) hf' hf1'
          simp only [val_mk, exp_half] at hi; rw [exp_half_zero h1] at hi; exact hi
    · unfold pow_loop powLoop
      simp only [if_neg h1, if_neg (fun h => h1 ((exp_gt_one exp).2 h))]
      rw [exp_small h1]
      simp only [mk_val]
      rw [if_neg (fun h => by rw [ho h.1] at h; exact absurd h.2 (by decide)), pure_ok]

end U256

namespace I256
variable (c : Cfg)

theorem ovf_mul (a b : I256) : overflowing_mul c a b =
    .ok (ofInt c (a.toInt c * b.toInt c), decide (¬ InI256 (a.toInt c * b.toInt c))) := (C07_mul c a b).2.1
theorem wrap_mul (a b : I256) : wrapping_mul c a b = .ok (ofInt c (a.toInt c * b.toInt c)) := (C07_mul c a b).1
theorem chk_mul (a b : I256) : checked_mul c a b =
    .ok (if InI256 (a.toInt c * b.toInt c) then some (ofInt c (a.toInt c * b.toInt c)) else none) := (C07_mul c a b).2.2.1
theorem op_mul (a b : I256) : mul c a b =
    if c.debugAssertions = true ∧ ¬ InI256 (a.toInt c * b.toInt c) then .error (.panic .mulOverflow)
    else .ok (ofInt c (a.toInt c * b.toInt c)) := mul_eq c a b
theorem val_mk (z : Int) : (ofInt c z).toInt c = wrI256 c z := rfl
theorem mk_val (x : I256) : ofInt c (x.toInt c) = x := ofInt_toInt c x

theorem overflowing_pow_loop_eq (f : Nat) (exp : U32) (base acc : I256) (o : Bool) (hf : exp.toNat < 2 ^ f) (hf1 : 1 ≤ f) :
    overflowing_pow_loop c f exp base acc o =
      .ok (ofInt c (powLoop (wrI256 c) InI256 f exp.toNat (base.toInt c) (acc.toInt c) o).1, ofInt c (powLoop (wrI256 c) InI256 f exp.toNat (base.toInt c) (acc.toInt c) o).2.1, (powLoop (wrI256 c) InI256 f exp.toNat (base.toInt c) (acc.toInt c) o).2.2) := by
  induction f generalizing exp base acc o with
  | zero => omega
  | succ f ih =>
    by_cases h1 : exp > 1
    · have h1' := (exp_gt_one exp).1 h1
      have hf' : (exp / 2).toNat < 2 ^ f := by rw [exp_half]; rw [Nat.pow_succ] at hf; omega
      have hf1' : 1 ≤ f := by
        rcases Nat.eq_zero_or_pos f with h | h
        · subst h; simp at hf; omega
        · exact h
      unfold overflowing_pow_loop powLoop
      rw [if_pos h1, if_pos h1']
      by_cases hodd : exp.toNat % 2 = 1
      · rw [if_pos ((exp_and_one exp).2 hodd), if_pos hodd, if_pos hodd]
        simp only [ovf_mul, ok_bind, pure_ok]
        have hi := ih (exp / 2) (ofInt c ((base.toInt c) * (base.toInt c))) (ofInt c ((acc.toInt c) * (base.toInt c)))
          ((o || decide (¬ InI256 ((acc.toInt c) * (base.toInt c)))) || decide (¬ InI256 ((base.toInt c) * (base.toInt c)))) hf' hf1'
        simp only [val_mk, exp_half] at hi; exact hi
      · rw [if_neg (fun h => hodd ((exp_and_one exp).1 h)), if_neg hodd, if_neg hodd]
        simp only [ovf_mul, ok_bind, pure_ok]
        have hi := ih (exp / 2) (ofInt c ((base.toInt c) * (base.toInt c))) acc (o || decide (¬ InI256 ((base.toInt c) * (base.toInt c)))) hf' hf1'
        simp only [val_mk, exp_half] at hi; exact hi
    · unfold overflowing_pow_loop powLoop
      simp only [if_neg h1, if_neg (fun h => h1 ((exp_gt_one exp).2 h))]
      simp only [mk_val, pure_ok]

theorem wrapping_pow_loop_eq (f : Nat) (exp : U32) (base acc : I256) (o : Bool) (hf : exp.toNat < 2 ^ f) (hf1 : 1 ≤ f) :
    wrapping_pow_loop c f exp base acc =
      .ok (ofInt c (powLoop (wrI256 c) InI256 f exp.toNat (base.toInt c) (acc.toInt c) o).1, ofInt c (powLoop (wrI256 c) InI256 f exp.toNat (base.toInt c) (acc.toInt c) o).2.1) := by
  induction f generalizing exp base acc o with
  | zero => omega
  | succ f ih =>
    by_cases h1 : exp > 1
    · have h1' := (exp_gt_one exp).1 h1
      have hf' : (exp / 2).toNat < 2 ^ f := by rw [exp_half]; rw [Nat.pow_succ] at hf; omega
      have hf1' : 1 ≤ f := by
        rcases Nat.eq_zero_or_pos f with h | h
        · subst h; simp at hf; omega
        · exact h
      unfold wrapping_pow_loop powLoop
      rw [if_pos h1, if_pos h1']
      by_cases hodd : exp.toNat % 2 = 1
      · rw [if_pos ((exp_and_one exp).2 hodd), if_pos hodd, if_pos hodd]
        simp only [wrap_mul, ok_bind, pure_ok]
        have hi := ih (exp / 2) (ofInt c ((base.toInt c) * (base.toInt c))) (ofInt c ((acc.toInt c) * (base.toInt c)))
          ((o || decide (¬ InI256 ((acc.toInt c) * (base.toInt c)))) || decide (¬ InI256 ((base.toInt c) * (base.toInt c)))) hf' hf1'
        simp only [val_mk, exp_half] at hi; exact hi
      · rw [if_neg (fun h => hodd ((exp_and_one exp).1 h)), if_neg hodd, if_neg hodd]
        simp only [wrap_mul, ok_bind, pure_ok]
        have hi := ih (exp / 2) (ofInt c ((base.toInt c) * (base.toInt c))) acc (o || decide (¬ InI256 ((base.toInt c) * (base.toInt c)))) hf' hf1'
        simp only [val_mk, exp_half] at hi; exact hi
    · unfold wrapping_pow_loop powLoop
      simp only [if_neg h1, if_neg (fun h => h1 ((exp_gt_one exp).2 h))]
      simp only [mk_val, pure_ok]

theorem checked_pow_loop_eq (f : Nat) (exp : U32) (base acc : I256) (hf : exp.toNat < 2 ^ f) (hf1 : 1 ≤ f) :
    checked_pow_loop c f exp base acc = .ok (if (powLoop (wrI256 c) InI256 f exp.toNat (base.toInt c) (acc.toInt c) false).2.2 = true then none
      else some (ofInt c (powLoop (wrI256 c) InI256 f exp.toNat (base.toInt c) (acc.toInt c) false).1, ofInt c (powLoop (wrI256 c) InI256 f exp.toNat (base.toInt c) (acc.toInt c) false).2.1)) := by
  induction f generalizing exp base acc with
  | zero => omega
  | succ f ih =>
    by_cases h1 : exp > 1
    · have h1' := (exp_gt_one exp).1 h1
      have hf' : (exp / 2).toNat < 2 ^ f := by rw [exp_half]; rw [Nat.pow_succ] at hf; omega
      have hf1' : 1 ≤ f := by
        rcases Nat.eq_zero_or_pos f with h | h
        · subst h; simp at hf; omega
        · exact h
      unfold checked_pow_loop powLoop
      rw [if_pos h1, if_pos h1']
      by_cases hodd : exp.toNat % 2 = 1
      · rw [if_pos ((exp_and_one exp).2 hodd), if_pos hodd, if_pos hodd, chk_mul, ok_bind, chk_mul]
        by_cases hm : InI256 ((acc.toInt c) * (base.toInt c))
        · rw [if_pos hm]
          dsimp only
          rw [ok_bind]
          by_cases hs : InI256 ((base.toInt c) * (base.toInt c))
          · rw [if_pos hs]
            dsimp only
            rw [decide_eq_false (not_not.2 hm), decide_eq_false (not_not.2 hs), Bool.or_false, Bool.or_false]
            have hi := ih (exp / 2) (ofInt c ((base.toInt c) * (base.toInt c))) (ofInt c ((acc.toInt c) * (base.toInt c))) hf' hf1'
            simp only [val_mk, exp_half] at hi; exact hi
          · rw [if_neg hs]
            dsimp only
            rw [decide_eq_true hs, Bool.or_true, powLoop_true, if_pos rfl, pure_ok]
        · rw [if_neg hm]
          dsimp only
          rw [decide_eq_true hm, Bool.or_true, Bool.true_or, powLoop_true, if_pos rfl, pure_ok]
      · rw [if_neg (fun h => hodd ((exp_and_one exp).1 h)), if_neg hodd, if_neg hodd, pure_ok, ok_bind]
        dsimp only
        rw [chk_mul, ok_bind]
        by_cases hs : InI256 ((base.toInt c) * (base.toInt c))
        · rw [if_pos hs]
          dsimp only
          rw [decide_eq_false (not_not.2 hs), Bool.or_false]
          have hi := ih (exp / 2) (ofInt c ((base.toInt c) * (base.toInt c))) acc hf' hf1'
          simp only [val_mk, exp_half] at hi; exact hi
        · rw [if_neg hs]
          dsimp only
          rw [decide_eq_true hs, Bool.or_true, powLoop_true, if_pos rfl, pure_ok]
    · unfold checked_pow_loop powLoop
      simp only [if_neg h1, if_neg (fun h => h1 ((exp_gt_one exp).2 h))]
      simp only [mk_val, pure_ok, Bool.false_eq_true, if_false]

theorem pow_loop_eq (f : Nat) (exp : U32) (base acc : I256) (o : Bool) (ho : c.debugAssertions = true → o = false) (hf : exp.toNat < 2 ^ f) (hf1 : 1 ≤ f) :
    pow_loop c f exp base acc = if c.debugAssertions = true ∧ (powLoop (wrI256 c) InI256 f exp.toNat (base.toInt c) (acc.toInt c) o).2.2 = true then .error (.panic .mulOverflow)
      else .ok (ofInt c (powLoop (wrI256 c) InI256 f exp.toNat (base.toInt c) (acc.toInt c) o).1, ofInt c (powLoop (wrI256 c) InI256 f exp.toNat (base.toInt c) (acc.toInt c) o).2.1) := by
  induction f generalizing exp base acc o with
  | zero => omega
  | succ f ih =>
    by_cases h1 : exp > 1
    · have h1' := (exp_gt_one exp).1 h1
      have hf' : (exp / 2).toNat < 2 ^ f := by rw [exp_half]; rw [Nat.pow_succ] at hf; omega
      have hf1' : 1 ≤ f := by
        rcases Nat.eq_zero_or_pos f with h | h
        · subst h; simp at hf; omega
        · exact h
      unfold pow_loop powLoop
      rw [if_pos h1, if_pos h1']
      by_cases hodd : exp.toNat % 2 = 1
      · rw [if_pos ((exp_and_one exp).2 hodd), if_pos hodd, if_pos hodd]
        simp only [mul_assign_eq, op_mul, pure_ok]
        by_cases hm : c.debugAssertions = true ∧ ¬ InI256 ((acc.toInt c) * (base.toInt c))
        · rw [if_pos hm, decide_eq_true hm.2, Bool.or_true, Bool.true_or, powLoop_true, error_bind]
          exact (if_pos ⟨hm.1, rfl⟩).symm
        · rw [if_neg hm, ok_bind]
          by_cases hs : c.debugAssertions = true ∧ ¬ InI256 ((base.toInt c) * (base.toInt c))
          · rw [if_pos hs, decide_eq_true hs.2, Bool.or_true, powLoop_true, error_bind]
            exact (if_pos ⟨hs.1, rfl⟩).symm
          · rw [if_neg hs, ok_bind]
            have hi := ih (exp / 2) (ofInt c ((base.toInt c) * (base.toInt c))) (ofInt c ((acc.toInt c) * (base.toInt c)))
              ((o || decide (¬ InI256 ((acc.toInt c) * (base.toInt c)))) || decide (¬ InI256 ((base.toInt c) * (base.toInt c)))) (fun hd => by
                rw [ho hd, decide_eq_false (fun h => hm ⟨hd, h⟩), decide_eq_false (fun h => hs ⟨hd, h⟩)]; rfl) hf' hf1'
            simp only [val_mk, exp_half] at hi; exact hi
      · rw [if_neg (fun h => hodd ((exp_and_one exp).1 h)), if_neg hodd, if_neg hodd]
        simp only [mul_assign_eq, op_mul, pure_ok, ok_bind]
        by_cases hs : c.debugAssertions = true ∧ ¬ InI256 ((base.toInt c) * (base.toInt c))
        · rw [if_pos hs, decide_eq_true hs.2, Bool.or_true, powLoop_true, error_bind]
          exact (if_pos ⟨hs.1, rfl⟩).symm
        · rw [if_neg hs, ok_bind]
          have hi := ih (exp / 2) (ofInt c ((base.toInt c) * (base.toInt c))) acc
            (o || decide (¬ InI256 ((base.toInt c) * (base.toInt c)))) (fun hd => by
              rw [ho hd, decide_eq_false (fun h => hs ⟨hd, h⟩)]; rfl) hf' hf1'
          simp only [val_mk, exp_half] at hi; exact hi
    · unfold pow_loop powLoop
      simp only [if_neg h1, if_neg (fun h => h1 ((exp_gt_one exp).2 h))]
      simp only [mk_val]
      rw [if_neg (fun h => by rw [ho h.1] at h; exact absurd h.2 (by decide)), pure_ok]

end I256

namespace U256
variable (c : Cfg)

theorem pow_facts (a : U256) (e : U32) (he : e ≠ 0) :
    InU256 (powLoop wrU256 InU256 32 e.toNat ((a.toNat c : Int)) 1 false).1 ∧ InU256 (powLoop wrU256 InU256 32 e.toNat ((a.toNat c : Int)) 1 false).2.1
    ∧ ofInt c ((powLoop wrU256 InU256 32 e.toNat ((a.toNat c : Int)) 1 false).2.1 * (powLoop wrU256 InU256 32 e.toNat ((a.toNat c : Int)) 1 false).1) = ofInt c ((a.toNat c : Int) ^ e.toNat)
    ∧ (((powLoop wrU256 InU256 32 e.toNat ((a.toNat c : Int)) 1 false).2.2 = true ∨ ¬ InU256 ((powLoop wrU256 InU256 32 e.toNat ((a.toNat c : Int)) 1 false).2.1 * (powLoop wrU256 InU256 32 e.toNat ((a.toNat c : Int)) 1 false).1)) ↔ ¬ InU256 ((a.toNat c : Int) ^ e.toNat))
    ∧ ((ofInt c (powLoop wrU256 InU256 32 e.toNat ((a.toNat c : Int)) 1 false).1).toNat c : Int) = (powLoop wrU256 InU256 32 e.toNat ((a.toNat c : Int)) 1 false).1 ∧ ((ofInt c (powLoop wrU256 InU256 32 e.toNat ((a.toNat c : Int)) 1 false).2.1).toNat c : Int) = (powLoop wrU256 InU256 32 e.toNat ((a.toNat c : Int)) 1 false).2.1 := by
  have hone : InU256 1 := by decide
  have hin := powLoop_in powDomU 32 e.toNat ((a.toNat c : Int)) 1 false (by unfold InU256; have := U256.toNat_lt c a; omega) hone
  have he' : 1 ≤ e.toNat := by
    have : e.toNat ≠ 0 := fun h => he (BitVec.eq_of_toNat_eq h)
    omega
  have hs := powLoop_spec powDomU 32 e.toNat ((a.toNat c : Int)) 1 false (by unfold InU256; have := U256.toNat_lt c a; omega) hone he' e.isLt (.inr (.inl (by decide)))
  rw [one_mul] at hs
  refine ⟨hin.1, hin.2, ?_, ?_, ?_, ?_⟩
  · have := hs.1
    rw [← ofInt_emod c, ← ofInt_emod c (_ ^ _)]; exact congrArg (ofInt c) this
  · rw [hs.2]; simp
  · rw [val_mk]; exact powDomU.wr_of_in _ hin.1
  · rw [val_mk]; exact powDomU.wr_of_in _ hin.2

theorem wrapping_pow_eq (a : U256) (e : U32) : wrapping_pow c a e = .ok (ofInt c ((a.toNat c : Int) ^ e.toNat)) := by
  have hone : InU256 1 := by decide
  by_cases he : e = 0
  · subst he
    have hv : (a.toNat c : Int) ^ (0 : U32).toNat = 1 := pow_zero _
    rw [hv]
    have h1 : ofInt c 1 = ONE c := by rw [ONE_eq, ← ofInt_natCast]; rfl
    have hb : ¬ ((0 : U32) > 1) := by decide
    rw [h1]
    unfold wrapping_pow
    unfold wrapping_pow_loop
    rw [if_neg hb]
    rfl
  · obtain ⟨h1, h2, h3, h4, h5, h6⟩ := pow_facts c a e he
    unfold wrapping_pow
    rw [wrapping_pow_loop_eq c 32 e a (ONE c) false e.isLt (by decide), toNat_ONE, Nat.cast_one]
    rw [if_neg he]
    generalize (powLoop wrU256 InU256 32 e.toNat ((a.toNat c : Int)) 1 false) = P at *
    obtain ⟨b', a', o'⟩ := P
    dsimp only at *
    rw [ok_bind]
    dsimp only
    rw [if_pos rfl]
    rw [wrap_mul, h5, h6, h3]

theorem overflowing_pow_eq (a : U256) (e : U32) : overflowing_pow c a e = .ok (ofInt c ((a.toNat c : Int) ^ e.toNat), decide (¬ InU256 ((a.toNat c : Int) ^ e.toNat))) := by
  have hone : InU256 1 := by decide
  by_cases he : e = 0
  · subst he
    have hv : (a.toNat c : Int) ^ (0 : U32).toNat = 1 := pow_zero _
    rw [hv]
    have h1 : ofInt c 1 = ONE c := by rw [ONE_eq, ← ofInt_natCast]; rfl
    have hb : ¬ ((0 : U32) > 1) := by decide
    rw [h1]
    rw [decide_eq_false (not_not.2 hone)]
    unfold overflowing_pow
    unfold overflowing_pow_loop
    rw [if_neg hb]
    rfl
  · obtain ⟨h1, h2, h3, h4, h5, h6⟩ := pow_facts c a e he
    unfold overflowing_pow
    rw [overflowing_pow_loop_eq c 32 e a (ONE c) false e.isLt (by decide), toNat_ONE, Nat.cast_one]
    rw [if_neg he]
    generalize (powLoop wrU256 InU256 32 e.toNat ((a.toNat c : Int)) 1 false) = P at *
    obtain ⟨b', a', o'⟩ := P
    dsimp only at *
    rw [ok_bind]
    dsimp only
    rw [if_pos rfl]
    rw [ovf_mul, h5, h6, h3, ok_bind]
    dsimp only
    have hd : (o' || decide (¬ InU256 (a' * b'))) = decide (¬ InU256 ((a.toNat c : Int) ^ e.toNat)) := by
      rw [Bool.eq_iff_iff, Bool.or_eq_true, decide_eq_true_eq, decide_eq_true_eq]; exact h4
    rw [hd, pure_ok]

theorem checked_pow_eq (a : U256) (e : U32) : checked_pow c a e = .ok (if InU256 ((a.toNat c : Int) ^ e.toNat) then some (ofInt c ((a.toNat c : Int) ^ e.toNat)) else none) := by
  have hone : InU256 1 := by decide
  by_cases he : e = 0
  · subst he
    have hv : (a.toNat c : Int) ^ (0 : U32).toNat = 1 := pow_zero _
    rw [hv]
    have h1 : ofInt c 1 = ONE c := by rw [ONE_eq, ← ofInt_natCast]; rfl
    have hb : ¬ ((0 : U32) > 1) := by decide
    rw [h1]
    rw [if_pos hone]
    unfold checked_pow
    unfold checked_pow_loop
    rw [if_neg hb]
    rfl
  · obtain ⟨h1, h2, h3, h4, h5, h6⟩ := pow_facts c a e he
    unfold checked_pow
    rw [checked_pow_loop_eq c 32 e a (ONE c) e.isLt (by decide), toNat_ONE, Nat.cast_one]
    rw [if_neg he]
    generalize (powLoop wrU256 InU256 32 e.toNat ((a.toNat c : Int)) 1 false) = P at *
    obtain ⟨b', a', o'⟩ := P
    dsimp only at *
    rw [ok_bind]
    by_cases ho : o' = true
    · rw [if_pos ho, if_neg (h4.1 (.inl ho))]; rfl
    · rw [if_neg ho]
      dsimp only
      rw [if_pos rfl]
      rw [chk_mul, h5, h6, h3]
      by_cases hm : InU256 (a' * b')
      · rw [if_pos hm, if_pos]
        by_contra hn
        rcases h4.2 hn with h | h
        · exact ho h
        · exact h hm
      · rw [if_neg hm, if_neg (h4.1 (.inr hm))]

theorem pow_eq (a : U256) (e : U32) : pow c a e = if c.debugAssertions = true ∧ ¬ InU256 ((a.toNat c : Int) ^ e.toNat) then .error (.panic .mulOverflow) else .ok (ofInt c ((a.toNat c : Int) ^ e.toNat)) := by
  have hone : InU256 1 := by decide
  by_cases he : e = 0
  · subst he
    have hv : (a.toNat c : Int) ^ (0 : U32).toNat = 1 := pow_zero _
    rw [hv]
    have h1 : ofInt c 1 = ONE c := by rw [ONE_eq, ← ofInt_natCast]; rfl
    have hb : ¬ ((0 : U32) > 1) := by decide
    rw [h1]
    rw [if_neg (fun h => h.2 hone)]
    unfold pow
    unfold pow_loop
    rw [if_neg hb]
    rfl
  · obtain ⟨h1, h2, h3, h4, h5, h6⟩ := pow_facts c a e he
    unfold pow
    rw [pow_loop_eq c 32 e a (ONE c) false (fun _ => rfl) e.isLt (by decide), toNat_ONE, Nat.cast_one]
    rw [if_neg he]
    generalize (powLoop wrU256 InU256 32 e.toNat ((a.toNat c : Int)) 1 false) = P at *
    obtain ⟨b', a', o'⟩ := P
    dsimp only at *
    by_cases hd : c.debugAssertions = true
    · by_cases ho : o' = true
      · rw [if_pos ⟨hd, ho⟩, if_pos ⟨hd, h4.1 (.inl ho)⟩, error_bind]
      · rw [if_neg (fun h => ho h.2), ok_bind]
        dsimp only
        rw [if_pos rfl]
        rw [mul_assign_eq, op_mul, h5, h6, h3]
        by_cases hm : InU256 (a' * b')
        · rw [if_neg (fun h => h.2 hm), if_neg]
          rintro ⟨-, hn⟩
          rcases h4.2 hn with h | h
          · exact ho h
          · exact h hm
        · rw [if_pos ⟨hd, hm⟩, if_pos ⟨hd, h4.1 (.inr hm)⟩]
    · rw [if_neg (fun h => hd h.1), if_neg (fun h => hd h.1), ok_bind]
      dsimp only
      rw [if_pos rfl]
      rw [mul_assign_eq, op_mul, h5, h6, h3, if_neg (fun h => hd h.1)]

end U256

namespace I256
variable (c : Cfg)

theorem pow_facts (a : I256) (e : U32) (he : e ≠ 0) :
    InI256 (powLoop (wrI256 c) InI256 32 e.toNat (a.toInt c) 1 false).1 ∧ InI256 (powLoop (wrI256 c) InI256 32 e.toNat (a.toInt c) 1 false).2.1
    ∧ ofInt c ((powLoop (wrI256 c) InI256 32 e.toNat (a.toInt c) 1 false).2.1 * (powLoop (wrI256 c) InI256 32 e.toNat (a.toInt c) 1 false).1) = ofInt c (a.toInt c ^ e.toNat)
    ∧ (((powLoop (wrI256 c) InI256 32 e.toNat (a.toInt c) 1 false).2.2 = true ∨ ¬ InI256 ((powLoop (wrI256 c) InI256 32 e.toNat (a.toInt c) 1 false).2.1 * (powLoop (wrI256 c) InI256 32 e.toNat (a.toInt c) 1 false).1)) ↔ ¬ InI256 (a.toInt c ^ e.toNat))
    ∧ (ofInt c (powLoop (wrI256 c) InI256 32 e.toNat (a.toInt c) 1 false).1).toInt c = (powLoop (wrI256 c) InI256 32 e.toNat (a.toInt c) 1 false).1 ∧ (ofInt c (powLoop (wrI256 c) InI256 32 e.toNat (a.toInt c) 1 false).2.1).toInt c = (powLoop (wrI256 c) InI256 32 e.toNat (a.toInt c) 1 false).2.1 := by
  have hone : InI256 1 := by decide
  have hin := powLoop_in (powDomI c) 32 e.toNat (a.toInt c) 1 false (I256.toInt_in c a) hone
  have he' : 1 ≤ e.toNat := by
    have : e.toNat ≠ 0 := fun h => he (BitVec.eq_of_toNat_eq h)
    omega
  have hs := powLoop_spec (powDomI c) 32 e.toNat (a.toInt c) 1 false (I256.toInt_in c a) hone he' e.isLt (.inr (.inl (by decide)))
  rw [one_mul] at hs
  refine ⟨hin.1, hin.2, ?_, ?_, ?_, ?_⟩
  · have := hs.1
    exact toInt_inj c this
  · rw [hs.2]; simp
  · rw [val_mk]; exact (powDomI c).wr_of_in _ hin.1
  · rw [val_mk]; exact (powDomI c).wr_of_in _ hin.2

theorem wrapping_pow_eq (a : I256) (e : U32) : wrapping_pow c a e = .ok (ofInt c (a.toInt c ^ e.toNat)) := by
  have hone : InI256 1 := by decide
  by_cases he : e = 0
  · subst he
    have hv : a.toInt c ^ (0 : U32).toNat = 1 := pow_zero _
    rw [hv]
    have h1 : ofInt c 1 = ONE c := by rw [ONE_eq]
    have hb : ¬ ((0 : U32) > 1) := by decide
    rw [h1]
    unfold wrapping_pow
    rw [if_pos rfl]
    rfl
  · obtain ⟨h1, h2, h3, h4, h5, h6⟩ := pow_facts c a e he
    unfold wrapping_pow
    rw [if_neg he, wrapping_pow_loop_eq c 32 e a (ONE c) false e.isLt (by decide), toInt_ONE]
    generalize (powLoop (wrI256 c) InI256 32 e.toNat (a.toInt c) 1 false) = P at *
    obtain ⟨b', a', o'⟩ := P
    dsimp only at *
    rw [ok_bind]
    dsimp only
    rw [wrap_mul, h5, h6, h3]

theorem overflowing_pow_eq (a : I256) (e : U32) : overflowing_pow c a e = .ok (ofInt c (a.toInt c ^ e.toNat), decide (¬ InI256 (a.toInt c ^ e.toNat))) := by
  have hone : InI256 1 := by decide
  by_cases he : e = 0
  · subst he
    have hv : a.toInt c ^ (0 : U32).toNat = 1 := pow_zero _
    rw [hv]
    have h1 : ofInt c 1 = ONE c := by rw [ONE_eq]
    have hb : ¬ ((0 : U32) > 1) := by decide
    rw [h1]
    rw [decide_eq_false (not_not.2 hone)]
    unfold overflowing_pow
    rw [if_pos rfl]
    rfl
  · obtain ⟨h1, h2, h3, h4, h5, h6⟩ := pow_facts c a e he
    unfold overflowing_pow
    rw [if_neg he, overflowing_pow_loop_eq c 32 e a (ONE c) false e.isLt (by decide), toInt_ONE]
    generalize (powLoop (wrI256 c) InI256 32 e.toNat (a.toInt c) 1 false) = P at *
    obtain ⟨b', a', o'⟩ := P
    dsimp only at *
    rw [ok_bind]
    dsimp only
    rw [ovf_mul, h5, h6, h3, ok_bind]
    dsimp only
    have hd : (o' || decide (¬ InI256 (a' * b'))) = decide (¬ InI256 (a.toInt c ^ e.toNat)) := by
      rw [Bool.eq_iff_iff, Bool.or_eq_true, decide_eq_true_eq, decide_eq_true_eq]; exact h4
    rw [Bool.or_comm, hd, pure_ok]

theorem checked_pow_eq (a : I256) (e : U32) : checked_pow c a e = .ok (if InI256 (a.toInt c ^ e.toNat) then some (ofInt c (a.toInt c ^ e.toNat)) else none) := by
  have hone : InI256 1 := by decide
  by_cases he : e = 0
  · subst he
    have hv : a.toInt c ^ (0 : U32).toNat = 1 := pow_zero _
    rw [hv]
    have h1 : ofInt c 1 = ONE c := by rw [ONE_eq]
    have hb : ¬ ((0 : U32) > 1) := by decide
    rw [h1]
    rw [if_pos hone]
    unfold checked_pow
    rw [if_pos rfl]
    rfl
  · obtain ⟨h1, h2, h3, h4, h5, h6⟩ := pow_facts c a e he
    unfold checked_pow
    rw [if_neg he, checked_pow_loop_eq c 32 e a (ONE c) e.isLt (by decide), toInt_ONE]
    generalize (powLoop (wrI256 c) InI256 32 e.toNat (a.toInt c) 1 false) = P at *
    obtain ⟨b', a', o'⟩ := P
    dsimp only at *
    rw [ok_bind]
    by_cases ho : o' = true
    · rw [if_pos ho, if_neg (h4.1 (.inl ho))]; rfl
    · rw [if_neg ho]
      dsimp only
      rw [chk_mul, h5, h6, h3]
      by_cases hm : InI256 (a' * b')
      · rw [if_pos hm, if_pos]
        by_contra hn
        rcases h4.2 hn with h | h
        · exact ho h
        · exact h hm
      · rw [if_neg hm, if_neg (h4.1 (.inr hm))]

theorem pow_eq (a : I256) (e : U32) : pow c a e = if c.debugAssertions = true ∧ ¬ InI256 (a.toInt c ^ e.toNat) then .error (.panic .mulOverflow) else .ok (ofInt c (a.toInt c ^ e.toNat)) := by
  have hone : InI256 1 := by decide
  by_cases he : e = 0
  · subst he
    have hv : a.toInt c ^ (0 : U32).toNat = 1 := pow_zero _
    rw [hv]
    have h1 : ofInt c 1 = ONE c := by rw [ONE_eq]
    have hb : ¬ ((0 : U32) > 1) := by decide
    rw [h1]
    rw [if_neg (fun h => h.2 hone)]
    unfold pow
    rw [if_pos rfl]
    rfl
  · obtain ⟨h1, h2, h3, h4, h5, h6⟩ := pow_facts c a e he
    unfold pow
    rw [if_neg he, pow_loop_eq c 32 e a (ONE c) false (fun _ => rfl) e.isLt (by decide), toInt_ONE]
    generalize (powLoop (wrI256 c) InI256 32 e.toNat (a.toInt c) 1 false) = P at *
    obtain ⟨b', a', o'⟩ := P
    dsimp only at *
    by_cases hd : c.debugAssertions = true
    · by_cases ho : o' = true
      · rw [if_pos ⟨hd, ho⟩, if_pos ⟨hd, h4.1 (.inl ho)⟩, error_bind]
      · rw [if_neg (fun h => ho h.2), ok_bind]
        dsimp only
        rw [op_mul, h5, h6, h3]
        by_cases hm : InI256 (a' * b')
        · rw [if_neg (fun h => h.2 hm), if_neg]
          rintro ⟨-, hn⟩
          rcases h4.2 hn with h | h
          · exact ho h
          · exact h hm
        · rw [if_pos ⟨hd, hm⟩, if_pos ⟨hd, h4.1 (.inr hm)⟩]
    · rw [if_neg (fun h => hd h.1), if_neg (fun h => hd h.1), ok_bind]
      dsimp only
      rw [op_mul, h5, h6, h3, if_neg (fun h => hd h.1)]

end I256

end Ethnum
