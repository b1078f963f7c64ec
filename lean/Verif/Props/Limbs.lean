import Verif.SpecLimbs
import Verif.Props.Operators
import Verif.Props.UArith
import Verif.Props.Convert

/-
C62 numbers of any length, computed with `U256` as the digit and as the double word (Verif/SpecLimbs.lean).
-/

namespace Ethnum
open Limbs

private theorem pow256_succ (k : Nat) : 2 ^ (256 * (k + 1)) = 2 ^ (256 * k) * 2 ^ 256 := by
  rw [Nat.mul_add, Nat.pow_add, Nat.mul_one]

private theorem pow128_succ (k : Nat) : 2 ^ (128 * (k + 1)) = 2 ^ (128 * k) * 2 ^ 128 := by
  rw [Nat.mul_add, Nat.pow_add, Nat.mul_one]

theorem limbs256_lt (c : Cfg) (xs : List U256) : limbs256 c xs < 2 ^ (256 * xs.length) := by
  induction xs with
  | nil => simp [limbs256]
  | cons x xs ih =>
    simp only [limbs256, List.length_cons, pow256_succ]
    have := x.toNat_lt c
    generalize 2 ^ (256 * xs.length) = B at *
    omega

theorem limbs128_lt (xs : List (BitVec 128)) : limbs128 xs < 2 ^ (128 * xs.length) := by
  induction xs with
  | nil => simp [limbs128]
  | cons x xs ih =>
    rw [limbs128, List.length_cons, pow128_succ]
    have := x.isLt
    generalize 2 ^ (128 * xs.length) = B at *
    omega

/-! ### `U256` as the digit -/

/-- C62: the carry chain adds, for any number of digits. -/
theorem C62_add (c : Cfg) (carry : Bool) (xs ys : List U256) (h : xs.length = ys.length) :
    (addLimbs c carry xs ys).1.length = xs.length
    ∧ limbs256 c (addLimbs c carry xs ys).1 + 2 ^ (256 * xs.length) * (addLimbs c carry xs ys).2.toNat
      = limbs256 c xs + limbs256 c ys + carry.toNat := by
  induction xs generalizing ys carry with
  | nil => cases ys with
    | nil => simp [addLimbs, limbs256]
    | cons y ys => simp at h
  | cons x xs ih => cases ys with
    | nil => simp at h
    | cons y ys =>
      have hx := x.toNat_lt c
      have hy := y.toNat_lt c
      have hb : (U256.of_bool c carry).toNat c = carry.toNat := by rw [(C23_from_bool c carry).1]; cases carry <;> rfl
      have e1 : (x.overflowing_add c y).1.toNat c + 2 ^ 256 * (x.overflowing_add c y).2.toNat = x.toNat c + y.toNat c := by
        rw [(C02_overflowing c x y).1]
        simp only [U256.toNat_ofNat]
        by_cases ho : 2 ^ 256 ≤ x.toNat c + y.toNat c <;> simp only [ho, decide_true, decide_false, Bool.toNat_true, Bool.toNat_false] <;> omega
      have hs := (x.overflowing_add c y).1.toNat_lt c
      generalize hs1 : x.overflowing_add c y = p at *
      have e2 : (p.1.overflowing_add c (U256.of_bool c carry)).1.toNat c
          + 2 ^ 256 * (p.1.overflowing_add c (U256.of_bool c carry)).2.toNat = p.1.toNat c + carry.toNat := by
        rw [(C02_overflowing c p.1 _).1, hb]
        simp only [U256.toNat_ofNat]
        have : carry.toNat ≤ 1 := by cases carry <;> simp
        by_cases ho : 2 ^ 256 ≤ p.1.toNat c + carry.toNat <;> simp only [ho, decide_true, decide_false, Bool.toNat_true, Bool.toNat_false] <;> omega
      have hs2 := (p.1.overflowing_add c (U256.of_bool c carry)).1.toNat_lt c
      generalize hq : p.1.overflowing_add c (U256.of_bool c carry) = q at *
      have hcc : (p.2 || q.2).toNat = p.2.toNat + q.2.toNat := by
        have : carry.toNat ≤ 1 := by cases carry <;> simp
        cases hp2 : p.2 <;> cases hq2 : q.2 <;> simp [hp2, hq2] at e1 e2 ⊢
        omega
      obtain ⟨l, v⟩ := ih (p.2 || q.2) ys (by simpa using h)
      have ea : addLimbs c carry (x :: xs) (y :: ys)
          = (q.1 :: (addLimbs c (p.2 || q.2) xs ys).1, (addLimbs c (p.2 || q.2) xs ys).2) := by
        simp only [addLimbs, hs1, hq]
      rw [ea]
      refine ⟨by simp [l], ?_⟩
      simp only [limbs256, List.length_cons, pow256_succ]
      rw [hcc] at v
      generalize limbs256 c (addLimbs c (p.2 || q.2) xs ys).1 = L at *
      generalize (addLimbs c (p.2 || q.2) xs ys).2.toNat = o at *
      generalize 2 ^ (256 * xs.length) = B at *
      have : B * 2 ^ 256 * o = 2 ^ 256 * (B * o) := by ring
      generalize B * o = Bo at *
      omega

/-- C62: so the carry out says exactly that the sum does not fit. -/
theorem C62_add_carry (c : Cfg) (carry : Bool) (xs ys : List U256) (h : xs.length = ys.length) :
    (addLimbs c carry xs ys).2 = decide (2 ^ (256 * xs.length) ≤ limbs256 c xs + limbs256 c ys + carry.toNat)
    ∧ limbs256 c (addLimbs c carry xs ys).1 = (limbs256 c xs + limbs256 c ys + carry.toNat) % 2 ^ (256 * xs.length) := by
  obtain ⟨l, v⟩ := C62_add c carry xs ys h
  have hl := limbs256_lt c (addLimbs c carry xs ys).1
  rw [l] at hl
  rw [← v]
  refine ⟨?_, ?_⟩
  · cases (addLimbs c carry xs ys).2 <;> simp; omega
  · rw [Nat.add_mul_mod_self_left, Nat.mod_eq_of_lt hl]

/-- Three digits: the carry runs through a digit of ones and out of the last digit. -/
example : addLimbs dbg false [U256.MAX, U256.MAX, U256.from_words dbg 5 0] [U256.ONE dbg, U256.ZERO, U256.MAX]
      = ([U256.ZERO, U256.ZERO, U256.from_words dbg 5 0], true)
    ∧ addLimbs rel true [U256.ZERO, U256.MAX] [U256.MAX, U256.from_words rel 0 7]
      = ([U256.ZERO, U256.from_words rel 0 7], true) := by decide +kernel

/-- C62: the borrow chain subtracts, for any number of digits. -/
theorem C62_sub (c : Cfg) (borrow : Bool) (xs ys : List U256) (h : xs.length = ys.length) :
    (subLimbs c borrow xs ys).1.length = xs.length
    ∧ limbs256 c xs + 2 ^ (256 * xs.length) * (subLimbs c borrow xs ys).2.toNat
      = limbs256 c (subLimbs c borrow xs ys).1 + limbs256 c ys + borrow.toNat := by
  induction xs generalizing ys borrow with
  | nil => cases ys with
    | nil => simp [subLimbs, limbs256]
    | cons y ys => simp at h
  | cons x xs ih => cases ys with
    | nil => simp at h
    | cons y ys =>
      have key : ∀ a b : U256, a.toNat c + 2 ^ 256 * (a.overflowing_sub c b).2.toNat
          = (a.overflowing_sub c b).1.toNat c + b.toNat c := by
        intro a b
        have ha := a.toNat_lt c
        have hb := b.toNat_lt c
        rw [(C02_overflowing c a b).2]
        by_cases ho : (a.toNat c : Int) - b.toNat c < 0
        · simp only [ho, decide_true, Bool.toNat_true]
          have : U256.ofInt c ((a.toNat c : Int) - b.toNat c) = U256.ofNat c (a.toNat c + 2 ^ 256 - b.toNat c) := by
            unfold U256.ofInt
            congr 1
            omega
          rw [this, U256.toNat_ofNat_of_lt c (by omega)]; omega
        · simp only [ho, decide_false, Bool.toNat_false]
          have := U256.toNat_ofInt_of_range c (z := (a.toNat c : Int) - b.toNat c) (by omega) (by omega)
          omega
      have hb : (U256.of_bool c borrow).toNat c = borrow.toNat := by rw [(C23_from_bool c borrow).1]; cases borrow <;> rfl
      have e1 := key x y
      generalize hs1 : x.overflowing_sub c y = p at *
      have e2 := key p.1 (U256.of_bool c borrow)
      rw [hb] at e2
      generalize hq : p.1.overflowing_sub c (U256.of_bool c borrow) = q at *
      have hx := x.toNat_lt c
      have hy := y.toNat_lt c
      have hp := p.1.toNat_lt c
      have hqq := q.1.toNat_lt c
      have hcc : (p.2 || q.2).toNat = p.2.toNat + q.2.toNat := by
        have : borrow.toNat ≤ 1 := by cases borrow <;> simp
        cases hp2 : p.2 <;> cases hq2 : q.2 <;> simp [hp2, hq2] at e1 e2 ⊢
        omega
      obtain ⟨l, v⟩ := ih (p.2 || q.2) ys (by simpa using h)
      have ea : subLimbs c borrow (x :: xs) (y :: ys)
          = (q.1 :: (subLimbs c (p.2 || q.2) xs ys).1, (subLimbs c (p.2 || q.2) xs ys).2) := by
        simp only [subLimbs, hs1, hq]
      rw [ea]
      refine ⟨by simp [l], ?_⟩
      simp only [limbs256, List.length_cons, pow256_succ]
      rw [hcc] at v
      generalize limbs256 c (subLimbs c (p.2 || q.2) xs ys).1 = L at *
      generalize (subLimbs c (p.2 || q.2) xs ys).2.toNat = o at *
      generalize 2 ^ (256 * xs.length) = B at *
      have : B * 2 ^ 256 * o = 2 ^ 256 * (B * o) := by ring
      generalize B * o = Bo at *
      omega

/-- C62: so the borrow out compares the two numbers. -/
theorem C62_sub_borrow (c : Cfg) (xs ys : List U256) (h : xs.length = ys.length) :
    (subLimbs c false xs ys).2 = decide (limbs256 c xs < limbs256 c ys)
    ∧ (limbs256 c ys ≤ limbs256 c xs → limbs256 c (subLimbs c false xs ys).1 = limbs256 c xs - limbs256 c ys) := by
  obtain ⟨l, v⟩ := C62_sub c false xs ys h
  have hl := limbs256_lt c (subLimbs c false xs ys).1
  have hy := limbs256_lt c xs
  rw [l] at hl
  cases hb : (subLimbs c false xs ys).2 <;> rw [hb] at v <;> simp at v ⊢ <;> omega

example : subLimbs dbg false [U256.ZERO, U256.ZERO, U256.ONE dbg] [U256.ONE dbg, U256.ZERO, U256.ZERO]
      = ([U256.MAX, U256.MAX, U256.ZERO], false)
    ∧ subLimbs rll false [U256.ZERO, U256.ONE rll] [U256.ONE rll, U256.ONE rll] = ([U256.MAX, U256.MAX], true) := by
  decide +kernel

theorem ShiftBy.value_u32 (c : Cfg) (n : BitVec 32) : (ShiftBy.prim (c := c) .u32 n).value = n.toNat := rfl

/-- C62: a left shift across digits, for any number of digits. -/
theorem C62_shl (c : Cfg) (n : BitVec 32) (h0 : 0 < n.toNat) (h1 : n.toNat < 256) (carry : U256)
    (hc : carry.toNat c < 2 ^ n.toNat) (xs : List U256) :
    ∃ ys last, shlLimbs c n carry xs = .ok (ys, last) ∧ ys.length = xs.length ∧ last.toNat c < 2 ^ n.toNat
      ∧ limbs256 c ys + 2 ^ (256 * xs.length) * last.toNat c = limbs256 c xs * 2 ^ n.toNat + carry.toNat c := by
  induction xs generalizing carry with
  | nil => exact ⟨[], carry, rfl, rfl, hc, by simp [limbs256]⟩
  | cons x xs ih =>
    have hx := x.toNat_lt c
    have e1 := (C12_in_range c x ⟨0, 0⟩ (.prim .u32 n) (by rw [ShiftBy.value_u32]; omega) (by rw [ShiftBy.value_u32]; omega)).1
    have hsub : (256 - n : BitVec 32).toNat = 256 - n.toNat := by
      rw [BitVec.toNat_sub]; simp; omega
    have e2 := (C12_in_range c x ⟨0, 0⟩ (.prim .u32 (256 - n : BitVec 32)) (by rw [ShiftBy.value_u32]; omega)
      (by rw [ShiftBy.value_u32, hsub]; omega)).2.1
    rw [ShiftBy.value_u32] at e1 e2
    rw [hsub] at e2
    simp only [Int.toNat_natCast] at e1 e2
    have hP : 2 ^ 256 = 2 ^ n.toNat * 2 ^ (256 - n.toNat) := by rw [← Nat.pow_add]; congr 1; omega
    have hq : x.toNat c / 2 ^ (256 - n.toNat) < 2 ^ n.toNat := Nat.div_lt_of_lt_mul (by rw [Nat.mul_comm, ← hP]; exact hx)
    have hn : 2 ^ n.toNat ≤ 2 ^ 256 := Nat.pow_le_pow_right (by decide) (by omega)
    have ev : (U256.ofNat c (x.toNat c / 2 ^ (256 - n.toNat))).toNat c = x.toNat c / 2 ^ (256 - n.toNat) :=
      U256.toNat_ofNat_of_lt c (by omega)
    obtain ⟨ys, last, r, l, hl, v⟩ := ih (U256.ofNat c (x.toNat c / 2 ^ (256 - n.toNat))) (by rw [ev]; exact hq)
    refine ⟨(U256.ofNat c (x.toNat c * 2 ^ n.toNat)).bitor carry :: ys, last, ?_, by simp [l], hl, ?_⟩
    · simp only [shlLimbs, e1, e2, ok_bind, r]
    · simp only [limbs256, List.length_cons, pow256_succ]
      have e3 : ((U256.ofNat c (x.toNat c * 2 ^ n.toNat)).bitor carry).toNat c
          = x.toNat c * 2 ^ n.toNat % 2 ^ 256 + carry.toNat c := by
        rw [(C21_u256_bitwise c _ _).2.1, U256.toNat_ofNat]
        have : x.toNat c * 2 ^ n.toNat % 2 ^ 256 = (x.toNat c % 2 ^ (256 - n.toNat)) * 2 ^ n.toNat := by
          rw [hP, Nat.mul_comm (x.toNat c), Nat.mul_mod_mul_left, Nat.mul_comm]
        rw [this, ← Nat.shiftLeft_eq, Nat.shiftLeft_add_eq_or_of_lt hc]
      rw [e3]
      rw [ev] at v
      have e4 : x.toNat c * 2 ^ n.toNat / 2 ^ 256 = x.toNat c / 2 ^ (256 - n.toNat) := by
        rw [hP, Nat.mul_comm (x.toNat c), Nat.mul_div_mul_left _ _ (by positivity)]
      have e5 := Nat.div_add_mod (x.toNat c * 2 ^ n.toNat) (2 ^ 256)
      rw [e4] at e5
      have e6 : 2 ^ (256 * xs.length) * 2 ^ 256 * last.toNat c = 2 ^ 256 * (2 ^ (256 * xs.length) * last.toNat c) := by ring
      have e7 : (x.toNat c + 2 ^ 256 * limbs256 c xs) * 2 ^ n.toNat
          = x.toNat c * 2 ^ n.toNat + 2 ^ 256 * (limbs256 c xs * 2 ^ n.toNat) := by ring
      rw [e6, e7]
      generalize 2 ^ (256 * xs.length) * last.toNat c = u at *
      generalize limbs256 c xs * 2 ^ n.toNat = w at *
      generalize x.toNat c * 2 ^ n.toNat = y at *
      generalize x.toNat c / 2 ^ (256 - n.toNat) = z at *
      omega

example : shlLimbs dbg 4 U256.ZERO [U256.MAX, U256.from_words dbg 0xa 0]
      = .ok ([U256.from_words dbg (2 ^ 128 - 1) (2 ^ 128 - 16), U256.from_words dbg 0xa0 0xf], U256.ZERO)
    ∧ shlLimbs rll 252 U256.ZERO [U256.MAX] = .ok ([U256.from_words rll (15 * 2 ^ 124) 0],
        U256.from_words rll (2 ^ 124 - 1) (2 ^ 128 - 1)) := by decide +kernel

/-! ### `U256` as the double word of `u128` -/

private theorem from_u128 (c : Cfg) (x : BitVec 128) : (U256.from_prim c .u128 x).toNat c = x.toNat := by
  have := C23_u256_from_prim c .u128 (by simp) x
  have e : PrimTy.toInt (c := c) .u128 x = (x.toNat : Int) := rfl
  rw [e] at this
  exact_mod_cast this

/-- C62: the product of two `u128` and two more `u128` always fit in a `U256`; no build panics. -/
theorem C62_mul_add (c : Cfg) (a b p q : BitVec 128) :
    ∃ hi lo, mulAdd c a b p q = .ok (hi, lo)
      ∧ hi.toNat * 2 ^ 128 + lo.toNat = a.toNat * b.toNat + p.toNat + q.toNat := by
  have ha := a.isLt
  have hb := b.isLt
  have hp := p.isLt
  have hq := q.isLt
  have hab : a.toNat * b.toNat ≤ (2 ^ 128 - 1) * (2 ^ 128 - 1) := Nat.mul_le_mul (by omega) (by omega)
  have e1 : (U256.from_prim c .u128 a).mul c (U256.from_prim c .u128 b) = .ok (U256.ofNat c (a.toNat * b.toNat)) := by
    rw [(C25_u256 c _ _).2.2, from_u128, from_u128, if_neg (by omega)]
  have e2 : (U256.ofNat c (a.toNat * b.toNat)).add c (U256.from_prim c .u128 p)
      = .ok (U256.ofNat c (a.toNat * b.toNat + p.toNat)) := by
    rw [(C25_u256 c _ _).1, from_u128, U256.toNat_ofNat_of_lt c (by omega), if_neg (by omega)]
  have e3 : (U256.ofNat c (a.toNat * b.toNat + p.toNat)).add c (U256.from_prim c .u128 q)
      = .ok (U256.ofNat c (a.toNat * b.toNat + p.toNat + q.toNat)) := by
    rw [(C25_u256 c _ _).1, from_u128, U256.toNat_ofNat_of_lt c (by omega), if_neg (by omega)]
  refine ⟨(U256.ofNat c (a.toNat * b.toNat + p.toNat + q.toNat)).high c,
    (U256.ofNat c (a.toNat * b.toNat + p.toNat + q.toNat)).low c, ?_, ?_⟩
  · unfold mulAdd
    rw [e1, ok_bind, e2, ok_bind, e3, ok_bind, (C01_words_rebuild c _ ⟨0, 0⟩).2.1]
  · rw [← U256.toNat_eq, U256.toNat_ofNat_of_lt c (by omega)]

/-- The largest case is `2^256 - 1`. -/
example : mulAdd dbg (2 ^ 128 - 1) (2 ^ 128 - 1) (2 ^ 128 - 1) (2 ^ 128 - 1) = .ok (2 ^ 128 - 1, 2 ^ 128 - 1)
    ∧ mulAdd rll (2 ^ 64) (2 ^ 64 + 1) 3 4 = .ok (1, 2 ^ 64 + 7) := by decide +kernel

/-- C62: one row of the schoolbook product. -/
theorem C62_mul_row (c : Cfg) (m carry : BitVec 128) (acc xs : List (BitVec 128)) (h : xs.length ≤ acc.length) :
    ∃ zs, mulRow c m carry acc xs = .ok zs ∧ zs.length = acc.length
      ∧ limbs128 zs = (limbs128 acc + m.toNat * limbs128 xs + carry.toNat) % 2 ^ (128 * acc.length) := by
  induction acc generalizing xs carry with
  | nil =>
    cases xs with
    | nil => exact ⟨[], rfl, rfl, by simp [limbs128, Nat.mod_one]⟩
    | cons x xs => simp at h
  | cons a acc ih =>
    have step : ∀ (x : BitVec 128) (xs : List (BitVec 128)), xs.length ≤ acc.length →
        ∃ zs, (do let (hi, lo) ← mulAdd c x m a carry
                  let zs ← mulRow c m hi acc xs
                  .ok (lo :: zs) : Res _) = .ok zs ∧ zs.length = acc.length + 1
          ∧ limbs128 zs = (limbs128 (a :: acc) + m.toNat * limbs128 (x :: xs) + carry.toNat)
            % 2 ^ (128 * (acc.length + 1)) := by
      intro x xs hx
      obtain ⟨hi, lo, e, v⟩ := C62_mul_add c x m a carry
      obtain ⟨zs, r, l, w⟩ := ih hi xs hx
      refine ⟨lo :: zs, by simp only [e, ok_bind, r], by simp [l], ?_⟩
      have hlo := lo.isLt
      rw [limbs128, limbs128, limbs128, w, pow128_succ, Nat.mul_comm (2 ^ (128 * acc.length))]
      have e1 : a.toNat + 2 ^ 128 * limbs128 acc + m.toNat * (x.toNat + 2 ^ 128 * limbs128 xs) + carry.toNat
          = lo.toNat + 2 ^ 128 * (limbs128 acc + m.toNat * limbs128 xs + hi.toNat) := by
        have : x.toNat * m.toNat + a.toNat + carry.toNat = hi.toNat * 2 ^ 128 + lo.toNat := v.symm
        calc _ = (x.toNat * m.toNat + a.toNat + carry.toNat) + 2 ^ 128 * (limbs128 acc + m.toNat * limbs128 xs) := by ring
          _ = _ := by rw [this]; ring
      rw [e1, Nat.mod_mul, Nat.add_mul_mod_self_left, Nat.mod_eq_of_lt hlo, Nat.add_mul_div_left _ _ (by positivity),
        Nat.div_eq_of_lt hlo, Nat.zero_add]
    cases xs with
    | nil =>
      obtain ⟨zs, r, l, v⟩ := step 0 [] (by simp)
      refine ⟨zs, by rw [mulRow]; exact r, by simp [l], ?_⟩
      rw [v]; simp [limbs128]
    | cons x xs =>
      obtain ⟨zs, r, l, v⟩ := step x xs (by simpa using h)
      exact ⟨zs, by rw [mulRow]; exact r, by simp [l], v⟩

/-- C62: the schoolbook product of numbers of any length is exact and panics in no build. -/
theorem C62_mul (c : Cfg) (xs ys : List (BitVec 128)) :
    ∃ zs, mulLimbs c xs ys = .ok zs ∧ zs.length = xs.length + ys.length
      ∧ limbs128 zs = limbs128 xs * limbs128 ys := by
  induction ys with
  | nil =>
    refine ⟨_, rfl, by simp, ?_⟩
    simp only [limbs128, Nat.mul_zero]
    induction xs with
    | nil => rfl
    | cons x xs ih => rw [List.map_cons, limbs128, ih]; rfl
  | cons y ys ih =>
    obtain ⟨zs, r, l, v⟩ := ih
    obtain ⟨ws, r', l', v'⟩ := C62_mul_row c y 0 (0 :: zs) xs (by simp; omega)
    refine ⟨ws, by rw [mulLimbs, r, ok_bind, r'], by simp [l', l]; omega, ?_⟩
    rw [v', List.length_cons, l]
    have e : limbs128 (0 :: zs) + y.toNat * limbs128 xs + (0 : BitVec 128).toNat = limbs128 xs * limbs128 (y :: ys) := by
      rw [limbs128, limbs128, v]
      show 0 + 2 ^ 128 * (limbs128 xs * limbs128 ys) + y.toNat * limbs128 xs + 0 = _
      ring
    rw [e]
    refine Nat.mod_eq_of_lt (lt_of_lt_of_le (Nat.mul_lt_mul'' (limbs128_lt xs) (limbs128_lt (y :: ys))) ?_)
    rw [← Nat.pow_add]
    refine Nat.pow_le_pow_right (by decide) ?_
    simp; omega

example : mulLimbs dbg [2 ^ 128 - 1, 2 ^ 128 - 1] [2 ^ 128 - 1, 2 ^ 128 - 1] = .ok [1, 0, 2 ^ 128 - 2, 2 ^ 128 - 1]
    ∧ mulLimbs rll [3, 5, 7] [2 ^ 127] = .ok [2 ^ 127, 2 ^ 127 + 1, 2 ^ 127 + 2, 3] := by decide +kernel

/-- C62: division of a number of any length by one digit. -/
theorem C62_div (c : Cfg) (d : BitVec 128) (hd : d ≠ 0) (xs : List (BitVec 128)) :
    ∃ qs r, divLimb c d xs = .ok (qs, r) ∧ qs.length = xs.length
      ∧ limbs128 qs = limbs128 xs / d.toNat ∧ r.toNat = limbs128 xs % d.toNat := by
  have hd0 : 0 < d.toNat := by
    rcases Nat.eq_zero_or_pos d.toNat with h | h
    · exact absurd (BitVec.eq_of_toNat_eq (by simpa using h)) hd
    · exact h
  suffices H : ∃ qs r, divLimb c d xs = .ok (qs, r) ∧ qs.length = xs.length
      ∧ limbs128 xs = d.toNat * limbs128 qs + r.toNat ∧ r.toNat < d.toNat by
    obtain ⟨qs, r, e, l, v, hr⟩ := H
    refine ⟨qs, r, e, l, ?_, ?_⟩
    · rw [v, Nat.mul_add_div hd0, Nat.div_eq_of_lt hr, Nat.add_zero]
    · rw [v, Nat.mul_add_mod, Nat.mod_eq_of_lt hr]
  induction xs with
  | nil => exact ⟨[], 0, rfl, rfl, by simp [limbs128], hd0⟩
  | cons x xs ih =>
    obtain ⟨qs, r, e, l, v, hr⟩ := ih
    obtain ⟨q', r', e', v', hr'⟩ := C04_div_rem_spec c (U256.from_words c r x) (U256.from_prim c .u128 d)
      (by rw [from_u128]; omega)
    rw [from_u128] at v' hr'
    rw [C01_u256_from_words] at v'
    have hx := x.isLt
    have hdl := d.isLt
    have hqlt : q'.toNat c < 2 ^ 128 := by
      by_contra hh
      have : 2 ^ 128 * d.toNat ≤ q'.toNat c * d.toNat := Nat.mul_le_mul_right _ (by omega)
      omega
    have lowq : ∀ w : U256, w.toNat c < 2 ^ 128 → (w.low c).toNat = w.toNat c := by
      intro w hw
      have := U256.toNat_eq c w
      have hl := (w.low c).isLt
      omega
    refine ⟨q'.low c :: qs, r'.low c, by simp only [divLimb, e, ok_bind, e'], by simp [l], ?_, ?_⟩
    · rw [limbs128, limbs128, lowq q' hqlt, lowq r' (by omega), v]
      calc x.toNat + 2 ^ 128 * (d.toNat * limbs128 qs + r.toNat)
          = (r.toNat * 2 ^ 128 + x.toNat) + 2 ^ 128 * (d.toNat * limbs128 qs) := by ring
        _ = _ := by rw [v']; ring
    · rw [lowq r' (by omega)]; exact hr'

example : divLimb dbg 10 [7, 0, 1] = .ok ([204169420152563078078024764459060926874, 34028236692093846346337460743176821145, 0], 3)
    ∧ divLimb rll (2 ^ 128 - 1) [5, 2 ^ 128 - 1] = .ok ([0, 1], 5) := by decide +kernel

/-! ### Modular arithmetic -/

/-- C62: modular addition, for any modulus. -/
theorem C62_add_mod (c : Cfg) (m a b : U256) (ha : a.toNat c < m.toNat c) (hb : b.toNat c < m.toNat c) :
    (addMod c m a b).toNat c = (a.toNat c + b.toNat c) % m.toNat c := by
  have hm := m.toNat_lt c
  unfold addMod
  rw [(C02_overflowing c a b).1]
  simp only [(C20_u256_cmp c _ _).2.2.2.2.2.2.2, U256.toNat_ofNat]
  by_cases ho : 2 ^ 256 ≤ a.toNat c + b.toNat c
  · simp only [ho, decide_true, Bool.true_or, if_true]
    have e := (C02_wrapping c (U256.ofNat c (a.toNat c + b.toNat c)) m).2.2.2
    rw [U256.toNat_ofNat] at e
    have : (a.toNat c + b.toNat c) % m.toNat c = a.toNat c + b.toNat c - m.toNat c := by
      rw [Nat.mod_eq_sub_mod (by omega), Nat.mod_eq_of_lt (by omega)]
    omega
  · rw [Nat.mod_eq_of_lt (by omega : a.toNat c + b.toNat c < 2 ^ 256)]
    by_cases hg : a.toNat c + b.toNat c ≥ m.toNat c
    · simp only [ho, hg, decide_false, decide_true, Bool.false_or, if_true]
      have e := (C02_wrapping c (U256.ofNat c (a.toNat c + b.toNat c)) m).2.2.2
      rw [U256.toNat_ofNat] at e
      have : (a.toNat c + b.toNat c) % m.toNat c = a.toNat c + b.toNat c - m.toNat c := by
        rw [Nat.mod_eq_sub_mod (by omega), Nat.mod_eq_of_lt (by omega)]
      omega
    · simp only [ho, hg, decide_false, Bool.false_or]
      rw [if_neg (by simp), U256.toNat_ofNat_of_lt c (by omega), Nat.mod_eq_of_lt (by omega)]

example : (addMod dbg U256.MAX (U256.ofNat dbg (2 ^ 256 - 2)) (U256.ofNat dbg (2 ^ 256 - 3))).toNat dbg = 2 ^ 256 - 4
    ∧ (addMod rll (U256.new rll 10) (U256.new rll 7) (U256.new rll 5)).toNat rll = 2 := by decide +kernel

private theorem odd_test (c : Cfg) (b : U256) :
    (b.bitand (U256.ONE c)).eq c (U256.ONE c) = decide (b.toNat c % 2 = 1) := by
  rw [(C20_u256_cmp c _ _).2.2.1, (C21_u256_bitwise c _ _).1, U256.toNat_ONE, Nat.and_one_is_mod]

private theorem shr_one (c : Cfg) (b : U256) :
    ∃ b', b.shrBy c (.prim .u32 1) = .ok b' ∧ b'.toNat c = b.toNat c / 2 := by
  have hb := b.toNat_lt c
  refine ⟨_, (C12_in_range c b ⟨0, 0⟩ (.prim .u32 (1 : BitVec 32)) (by rw [ShiftBy.value_u32]; omega)
    (by rw [ShiftBy.value_u32]; decide)).2.1, ?_⟩
  rw [ShiftBy.value_u32]
  show (U256.ofNat c (b.toNat c / 2 ^ 1)).toNat c = _
  rw [U256.toNat_ofNat_of_lt c (by omega), Nat.pow_one]

private theorem mulMod_loop (c : Cfg) (m : U256) (k : Nat) (acc a b : U256) (hb : b.toNat c < 2 ^ k)
    (hacc : acc.toNat c < m.toNat c) (ha : a.toNat c < m.toNat c) :
    ∃ z, mulModLoop c m k acc a b = .ok z ∧ z.toNat c = (acc.toNat c + a.toNat c * b.toNat c) % m.toNat c := by
  induction k generalizing acc a b with
  | zero =>
    have : b.toNat c = 0 := by simpa using hb
    exact ⟨acc, rfl, by rw [this, Nat.mul_zero, Nat.add_zero, Nat.mod_eq_of_lt hacc]⟩
  | succ k ih =>
    obtain ⟨b', e, hb'⟩ := shr_one c b
    have ea := C62_add_mod c m a a ha ha
    have hlt : ∀ n, n % m.toNat c < m.toNat c := fun n => Nat.mod_lt _ (by omega)
    have hacc' : ∃ acc', (if (b.bitand (U256.ONE c)).eq c (U256.ONE c) then addMod c m acc a else acc) = acc'
        ∧ acc'.toNat c = (acc.toNat c + a.toNat c * (b.toNat c % 2)) % m.toNat c := by
      refine ⟨_, rfl, ?_⟩
      rw [odd_test]
      rcases Nat.mod_two_eq_zero_or_one (b.toNat c) with h | h
      · rw [h, Nat.mul_zero, Nat.add_zero, Nat.mod_eq_of_lt hacc]; simp
      · rw [h, Nat.mul_one, ← C62_add_mod c m acc a hacc ha]; simp
    obtain ⟨acc', e1, v1⟩ := hacc'
    obtain ⟨z, ez, vz⟩ := ih acc' (addMod c m a a) b' (by rw [hb']; rw [Nat.pow_succ] at hb; omega)
      (by rw [v1]; exact hlt _) (by rw [ea]; exact hlt _)
    refine ⟨z, by simp only [mulModLoop, e, ok_bind, e1, ez], ?_⟩
    rw [vz, v1, ea, hb']
    have e2 : acc.toNat c + a.toNat c * b.toNat c
        = (acc.toNat c + a.toNat c * (b.toNat c % 2)) + (a.toNat c + a.toNat c) * (b.toNat c / 2) := by
      conv_lhs => rw [← Nat.div_add_mod (b.toNat c) 2]
      ring
    rw [e2]
    exact Nat.ModEq.add (Nat.mod_modEq _ _) (Nat.ModEq.mul (Nat.mod_modEq _ _) rfl)

/-- C62: modular multiplication, for any modulus and any operands, although the product needs 512 bits. -/
theorem C62_mul_mod (c : Cfg) (m a b : U256) (hm : m.toNat c ≠ 0) :
    ∃ z, mulMod c m a b = .ok z ∧ z.toNat c = a.toNat c * b.toNat c % m.toNat c := by
  have ha : (U256.ofNat c (a.toNat c % m.toNat c)).toNat c = a.toNat c % m.toNat c :=
    U256.toNat_ofNat_of_lt c (lt_of_le_of_lt (Nat.mod_le _ _) (a.toNat_lt c))
  obtain ⟨z, e, v⟩ := mulMod_loop c m 256 U256.ZERO (U256.ofNat c (a.toNat c % m.toNat c)) b (b.toNat_lt c)
    (by rw [U256.toNat_ZERO]; omega) (by rw [ha]; exact Nat.mod_lt _ (by omega))
  refine ⟨z, by rw [mulMod, (C04_rem c a m hm).1, ok_bind, e], ?_⟩
  rw [v, U256.toNat_ZERO, ha, Nat.zero_add]
  exact Nat.ModEq.mul (Nat.mod_modEq _ _) rfl

example : (mulMod dbg (U256.ofNat dbg (2 ^ 256 - 189)) (U256.ofNat dbg (2 ^ 256 - 190)) (U256.ofNat dbg (2 ^ 256 - 191))).map (·.toNat dbg)
      = .ok 2
    ∧ (mulMod rll (U256.new rll 1000) U256.MAX (U256.new rll 3)).map (·.toNat rll) = .ok (3 * (2 ^ 256 - 1) % 1000) := by
  decide +kernel

private theorem powMod_loop (c : Cfg) (m : U256) (hm : m.toNat c ≠ 0) (k : Nat) (acc b e : U256) (he : e.toNat c < 2 ^ k)
    (hacc : acc.toNat c < m.toNat c) :
    ∃ z, powModLoop c m k acc b e = .ok z ∧ z.toNat c = acc.toNat c * b.toNat c ^ e.toNat c % m.toNat c := by
  induction k generalizing acc b e with
  | zero =>
    have : e.toNat c = 0 := by simpa using he
    exact ⟨acc, rfl, by rw [this, Nat.pow_zero, Nat.mul_one, Nat.mod_eq_of_lt hacc]⟩
  | succ k ih =>
    obtain ⟨e', r, he'⟩ := shr_one c e
    obtain ⟨b', rb, vb⟩ := C62_mul_mod c m b b hm
    have hacc' : ∃ acc', (if (e.bitand (U256.ONE c)).eq c (U256.ONE c) then mulMod c m acc b else .ok acc) = .ok acc'
        ∧ acc'.toNat c = acc.toNat c * b.toNat c ^ (e.toNat c % 2) % m.toNat c := by
      rw [odd_test]
      rcases Nat.mod_two_eq_zero_or_one (e.toNat c) with h | h
      · refine ⟨acc, by simp [h], ?_⟩
        rw [h, Nat.pow_zero, Nat.mul_one, Nat.mod_eq_of_lt hacc]
      · obtain ⟨z, r, v⟩ := C62_mul_mod c m acc b hm
        exact ⟨z, by simp [h, r], by rw [h, Nat.pow_one]; exact v⟩
    obtain ⟨acc', ra, va⟩ := hacc'
    obtain ⟨z, ez, vz⟩ := ih acc' b' e' (by rw [he']; rw [Nat.pow_succ] at he; omega)
      (by rw [va]; exact Nat.mod_lt _ (by omega))
    refine ⟨z, ?_, ?_⟩
    · simp only [powModLoop, rb, r, ok_bind]
      split at ra
      · rw [if_pos (by assumption), ra, ok_bind, ez]
      · rw [if_neg (by assumption)]; cases ra; exact ez
    rw [vz, va, vb, he']
    have e2 : acc.toNat c * b.toNat c ^ e.toNat c
        = acc.toNat c * b.toNat c ^ (e.toNat c % 2) * (b.toNat c * b.toNat c) ^ (e.toNat c / 2) := by
      conv_lhs => rw [← Nat.div_add_mod (e.toNat c) 2, Nat.pow_add, Nat.pow_mul, Nat.pow_two]
      rw [Nat.mul_assoc, Nat.mul_comm (_ ^ (e.toNat c % 2))]
    rw [e2]
    exact Nat.ModEq.mul (Nat.mod_modEq _ _) ((Nat.mod_modEq _ _).pow _)

/-- C62: modular exponentiation, for any modulus, base and exponent. -/
theorem C62_pow_mod (c : Cfg) (m b e : U256) (hm : m.toNat c ≠ 0) :
    ∃ z, powMod c m b e = .ok z ∧ z.toNat c = b.toNat c ^ e.toNat c % m.toNat c := by
  have h1 : (U256.ofNat c (1 % m.toNat c)).toNat c = 1 % m.toNat c :=
    U256.toNat_ofNat_of_lt c (lt_of_le_of_lt (Nat.mod_le _ _) (by decide))
  obtain ⟨z, r, v⟩ := powMod_loop c m hm 256 (U256.ofNat c (1 % m.toNat c)) b e (e.toNat_lt c)
    (by rw [h1]; exact Nat.mod_lt _ (by omega))
  refine ⟨z, by rw [powMod, (C04_rem c _ m hm).1, U256.toNat_ONE, ok_bind, r], ?_⟩
  rw [v, h1]
  conv_rhs => rw [← Nat.one_mul (_ ^ _)]
  exact Nat.ModEq.mul (Nat.mod_modEq _ _) rfl

example : ∃ z, powMod rel (U256.new rel 1000) (U256.new rel 3) (U256.new rel 6) = .ok z ∧ z.toNat rel = 729 :=
  C62_pow_mod rel _ _ _ (by decide)

/-- C62: a zero modulus or digit is the only panic, in every build. -/
theorem C62_zero (c : Cfg) (m a b : U256) (hm : m.toNat c = 0) (x : BitVec 128) (xs : List (BitVec 128)) :
    Panics (mulMod c m a b) ∧ Panics (powMod c m a b) ∧ Panics (divLimb c 0 (x :: xs)) := by
  have hr : ∀ a : U256, Panics (a.rem c m) := fun a => (C04_zero c a m hm).2.2.2.2.2.2.2.1
  refine ⟨?_, ?_, ?_⟩
  · obtain ⟨p, e⟩ := hr a
    exact ⟨p, by rw [mulMod, e]; rfl⟩
  · obtain ⟨p, e⟩ := hr (U256.ONE c)
    exact ⟨p, by rw [powMod, e]; rfl⟩
  · induction xs generalizing x with
    | nil =>
      obtain ⟨p, e⟩ := (C04_zero c (U256.from_words c 0 x) (U256.from_prim c .u128 (0 : BitVec 128)) (by rw [from_u128]; rfl)).2.2.2.2.2.2.2.2.2.2.2.2.2.2.2.2.2.2.2.1
      exact ⟨p, by rw [divLimb, divLimb, ok_bind]; simp only [e]; rfl⟩
    | cons y ys ih =>
      obtain ⟨p, e⟩ := ih y
      exact ⟨p, by rw [divLimb, e]; rfl⟩

example : Panics (divLimb rel 0 [1, 2]) := (C62_zero rel U256.ZERO U256.ZERO U256.ZERO rfl 1 [2]).2.2

end Ethnum
