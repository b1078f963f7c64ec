import Verif.SpecTricks
import Verif.Props.Repr
import Verif.Props.Bits
import Verif.Props.UArith
import Verif.Props.IArith
import Verif.Props.Operators
import Verif.Props.Convert
import Mathlib.Data.Nat.Factorization.Basic

/-
C79 bit manipulations: what the well known idioms of unsigned and signed words compute at 256 bits.
-/

namespace Ethnum
open Tricks

/-! ### Lemmas -/

private theorem add_eq (a b : ℕ) : a + b = 2 * (a &&& b) + (a ^^^ b) ∧ (a ||| b) = (a &&& b) + (a ^^^ b) := by
  induction a using Nat.strong_induction_on generalizing b with
  | _ a ih =>
    by_cases h : a = 0
    · subst h; simp
    · obtain ⟨h1, h2⟩ := ih (a / 2) (by omega) (b / 2)
      rw [← Nat.and_div_two, ← Nat.xor_div_two] at h1 h2
      rw [← Nat.or_div_two] at h2
      have e1 := @Nat.and_mod_two_eq_one a b
      have e2 := @Nat.xor_mod_two_eq_one a b
      have e3 := @Nat.or_mod_two_eq_one a b
      generalize a &&& b = A at *
      generalize a ^^^ b = X at *
      generalize a ||| b = O at *
      omega

private theorem shr_by (c : Cfg) (x : U256) (k : U32) (h : 0 ≤ k.toInt ∧ k.toInt < 256) :
    ∃ y, x.shrBy c (.prim .i32 k) = .ok y ∧ y.toNat c = x.toNat c / 2 ^ k.toInt.toNat := by
  refine ⟨_, (C12_in_range c x (I256.ONE c) (.prim .i32 k) h.1 h.2).2.1, ?_⟩
  exact U256.toNat_ofNat_of_lt c (lt_of_le_of_lt (Nat.div_le_self _ _) (U256.toNat_lt c x))

private theorem sub_one (c : Cfg) (x : U256) (h : x.toNat c ≠ 0) :
    ∃ y, U256.withPrim c U256.sub x 1 = .ok y ∧ y.toNat c = x.toNat c - 1 := by
  have h1 : (1 : U128).toNat = 1 := rfl
  have h2 : (U256.ofNat c 1).toNat c = 1 := U256.toNat_ofNat_of_lt c (by decide)
  have := U256.toNat_lt c x
  rw [(C25_prim c U256.sub (fun _ _ _ => .ok x) x (I256.ONE c) 1).1, h1, (C25_u256 c _ _).2.1, h2, if_neg (by omega)]
  refine ⟨_, rfl, ?_⟩
  have e := U256.toNat_ofInt c ((x.toNat c : ℤ) - (1 : ℕ))
  omega

private theorem split (x : ℕ) (h : x ≠ 0) : ∃ k m, x = 2 ^ (k + 1) * m + 2 ^ k := by
  obtain ⟨k, y, ⟨m, hm⟩, e⟩ := Nat.exists_eq_two_pow_mul_odd h
  exact ⟨k, m, by rw [e, hm, pow_succ, mul_add, mul_one, ← mul_assoc]⟩

private theorem bit_split (k m r j : ℕ) (hr : r < 2 ^ (k + 1)) :
    (2 ^ (k + 1) * m + r).testBit j = if j < k + 1 then r.testBit j else m.testBit (j - (k + 1)) :=
  Nat.testBit_two_pow_mul_add m hr j

private theorem pow_lt_succ (k : ℕ) : 2 ^ k < 2 ^ (k + 1) := Nat.pow_lt_pow_right (by decide) (by omega)

/-- `x` and its successor differ in the digits up to the lowest digit 0 -/
private theorem xor_succ (x : ℕ) : ∃ k, x ^^^ (x + 1) = 2 ^ (k + 1) - 1 ∧ 2 ^ k ≤ x + 1 := by
  obtain ⟨k, m, e⟩ := split (x + 1) (by omega)
  have hp : 0 < 2 ^ k := Nat.pow_pos (by decide)
  refine ⟨k, ?_, by omega⟩
  have e' : x = 2 ^ (k + 1) * m + (2 ^ k - 1) := by omega
  have hl := pow_lt_succ k
  apply Nat.eq_of_testBit_eq
  intro j
  rw [Nat.testBit_xor, e, e', bit_split _ _ _ _ (by omega), bit_split _ _ _ _ hl, Nat.testBit_two_pow_sub_one]
  split
  · rw [Nat.testBit_two_pow_sub_one, Nat.testBit_two_pow]
    by_cases h : j < k
    · simp [h, show ¬ k = j by omega, show j < k + 1 by omega]
    · simp [show k = j by omega]
  · rename_i h; simp [h]

private theorem low (n x : ℕ) (h0 : x ≠ 0) (h : x < 2 ^ n) :
    ∃ k m, x = 2 ^ (k + 1) * m + 2 ^ k ∧ x &&& (2 ^ n - x) = 2 ^ k := by
  obtain ⟨k, m, e⟩ := split x h0
  refine ⟨k, m, e, ?_⟩
  have hp : 0 < 2 ^ k := Nat.pow_pos (by decide)
  have hl := pow_lt_succ k
  have hx : 2 ^ n - x = 2 ^ n - ((x - 1) + 1) := by omega
  have e' : x - 1 = 2 ^ (k + 1) * m + (2 ^ k - 1) := by omega
  have hk : k < n := by
    by_contra hc
    have : 2 ^ n ≤ 2 ^ k := Nat.pow_le_pow_right (by decide) (by omega)
    omega
  apply Nat.eq_of_testBit_eq
  intro j
  rw [Nat.testBit_and, hx, Nat.testBit_two_pow_sub_succ (by omega), e', bit_split _ _ _ _ (by omega)]
  rw [e, bit_split _ _ _ _ hl, Nat.testBit_two_pow]
  split
  · rw [Nat.testBit_two_pow_sub_one]
    by_cases h : j < k
    · simp [h, show ¬ k = j by omega]
    · simp [show k = j by omega, show j < n by omega]
  · rename_i h
    simp only [show ¬ k = j by omega, decide_false]
    cases m.testBit (j - (k + 1)) <;> simp

/-- `x ^ (x >> k)` on numbers -/
private def T (k x : ℕ) : ℕ := x ^^^ x / 2 ^ k

private theorem T_bit (k x j : ℕ) : (T k x).testBit j = (x.testBit j ^^ x.testBit (j + k)) := by
  unfold T
  rw [Nat.testBit_xor, Nat.testBit_div_two_pow]

private theorem T_twice (k x : ℕ) : T k (T k x) = T (k + k) x := by
  apply Nat.eq_of_testBit_eq
  intro j
  simp only [T_bit, Nat.add_assoc]
  cases x.testBit j <;> cases x.testBit (j + k) <;> simp

private theorem T_comm (k l x : ℕ) : T k (T l x) = T l (T k x) := by
  apply Nat.eq_of_testBit_eq
  intro j
  simp only [T_bit, Nat.add_assoc, Nat.add_comm l k]
  cases x.testBit j <;> cases x.testBit (j + k) <;> cases x.testBit (j + l) <;> simp

private theorem T_xor (k x y : ℕ) : T k (x ^^^ y) = T k x ^^^ T k y := by
  apply Nat.eq_of_testBit_eq
  intro j
  simp only [T_bit, Nat.testBit_xor]
  cases x.testBit j <;> cases x.testBit (j + k) <;> cases y.testBit j <;> simp

private theorem T_ones (k : ℕ) : T 1 (2 ^ (k + 1) - 1) = 2 ^ k := by
  apply Nat.eq_of_testBit_eq
  intro j
  rw [T_bit, Nat.testBit_two_pow_sub_one, Nat.testBit_two_pow_sub_one, Nat.testBit_two_pow]
  by_cases h : j < k
  · simp [h, show ¬ k = j by omega, show j < k + 1 by omega]
  · by_cases h' : j = k
    · subst h'; simp
    · simp [h, show ¬ k = j by omega, show ¬ j < k + 1 by omega]

private theorem T_top {x : ℕ} (h : x < 2 ^ 256) : T 256 x = x := by
  unfold T; rw [Nat.div_eq_of_lt h, Nat.xor_zero]

private theorem fold_eq (c : Cfg) (k : U32) (x : U256) (h : 0 ≤ k.toInt ∧ k.toInt < 256) :
    ∃ y, fold c k x = .ok y ∧ y.toNat c = T k.toInt.toNat (x.toNat c) := by
  obtain ⟨s, hs, es⟩ := shr_by c x k h
  refine ⟨_, by unfold fold; rw [hs]; rfl, ?_⟩
  rw [(C21_u256_bitwise c _ _).2.2.1, es]; rfl

private theorem gray_eq (c : Cfg) (x : U256) : ∃ y, gray c x = .ok y ∧ y.toNat c = T 1 (x.toNat c) :=
  fold_eq c 1 x (by decide)

private def unT (x : ℕ) : ℕ := T 128 (T 64 (T 32 (T 16 (T 8 (T 4 (T 2 (T 1 x)))))))

private theorem ungray_eq (c : Cfg) (x : U256) : ∃ y, ungray c x = .ok y ∧ y.toNat c = unT (x.toNat c) := by
  obtain ⟨y1, h1, e1⟩ := fold_eq c 1 x (by decide)
  obtain ⟨y2, h2, e2⟩ := fold_eq c 2 y1 (by decide)
  obtain ⟨y3, h3, e3⟩ := fold_eq c 4 y2 (by decide)
  obtain ⟨y4, h4, e4⟩ := fold_eq c 8 y3 (by decide)
  obtain ⟨y5, h5, e5⟩ := fold_eq c 16 y4 (by decide)
  obtain ⟨y6, h6, e6⟩ := fold_eq c 32 y5 (by decide)
  obtain ⟨y7, h7, e7⟩ := fold_eq c 64 y6 (by decide)
  obtain ⟨y8, h8, e8⟩ := fold_eq c 128 y7 (by decide)
  refine ⟨y8, ?_, ?_⟩
  · unfold ungray
    rw [h1]; dsimp only [Bind.bind, Except.bind]
    rw [h2]; dsimp only
    rw [h3]; dsimp only
    rw [h4]; dsimp only
    rw [h5]; dsimp only
    rw [h6]; dsimp only
    rw [h7]; dsimp only
    rw [h8]
  · rw [e8, e7, e6, e5, e4, e3, e2, e1]; rfl

private theorem unT_T {x : ℕ} (h : x < 2 ^ 256) : unT (T 1 x) = x := by
  unfold unT
  rw [T_twice 1, T_twice 2, T_twice 4, T_twice 8, T_twice 16, T_twice 32, T_twice 64, T_twice 128]
  exact T_top h

private theorem T_unT {x : ℕ} (h : x < 2 ^ 256) : T 1 (unT x) = x := by
  have : T 1 (unT x) = unT (T 1 x) := by
    unfold unT
    rw [T_comm 1 128, T_comm 1 64, T_comm 1 32, T_comm 1 16, T_comm 1 8, T_comm 1 4, T_comm 1 2]
  rw [this, unT_T h]

private theorem clear_low (n y k : ℕ) (hk : k ≤ n) (hy : y < 2 ^ n) :
    y &&& (2 ^ n - 1 - (2 ^ k - 1)) = 2 ^ k * (y / 2 ^ k) := by
  have hp : 0 < 2 ^ k := Nat.pow_pos (by decide)
  have hle : 2 ^ k ≤ 2 ^ n := Nat.pow_le_pow_right (by decide) hk
  have e : 2 ^ n - 1 - (2 ^ k - 1) = 2 ^ n - ((2 ^ k - 1) + 1) := by omega
  apply Nat.eq_of_testBit_eq
  intro j
  rw [Nat.testBit_and, e, Nat.testBit_two_pow_sub_succ (by omega), Nat.testBit_two_pow_sub_one, Nat.testBit_two_pow_mul,
    Nat.testBit_div_two_pow]
  by_cases h : j < k
  · simp [h, show ¬ j ≥ k by omega]
  · by_cases hn : j < n
    · simp [h, hn, show j ≥ k by omega]
    · have : y.testBit j = false := Nat.testBit_lt_two_pow (lt_of_lt_of_le hy (Nat.pow_le_pow_right (by decide) (by omega)))
      simp [hn, show j ≥ k by omega, this]

/-! ### The property -/

/-- C79: `(a & b) + ((a ^ b) >> 1)` is the mean of `a` and `b` rounded down, and `(a | b) - ((a ^ b) >> 1)` the mean rounded up, for
all `a` and `b`, also where `a + b` does not fit; neither panics in any build. -/
theorem C79_mean (c : Cfg) (a b : U256) :
    (∃ m, mean c a b = .ok m ∧ m.toNat c = (a.toNat c + b.toNat c) / 2)
    ∧ ∃ m, meanUp c a b = .ok m ∧ m.toNat c = (a.toNat c + b.toNat c + 1) / 2 := by
  obtain ⟨s, hs, es⟩ := shr_by c (a.bitxor b) 1 (by decide)
  replace hs : (a.bitxor b).shrBy c (.prim .i32 (1 : PrimTy.Val c .i32)) = .ok s := hs
  have es' : s.toNat c = (a.toNat c ^^^ b.toNat c) / 2 := by rw [es, (C21_u256_bitwise c a b).2.2.1]; rfl
  obtain ⟨h1, h2⟩ := add_eq (a.toNat c) (b.toNat c)
  have ha := U256.toNat_lt c a
  have hb := U256.toNat_lt c b
  have f1 := (C21_u256_bitwise c a b).1
  have f2 := (C21_u256_bitwise c a b).2.1
  constructor
  · unfold mean
    rw [hs]
    dsimp only [Bind.bind, Except.bind]
    rw [(C25_u256 c _ _).1, if_neg (by omega)]
    refine ⟨_, rfl, ?_⟩
    rw [U256.toNat_ofNat_of_lt c (by omega)]
    omega
  · unfold meanUp
    rw [hs]
    dsimp only [Bind.bind, Except.bind]
    rw [(C25_u256 c _ _).2.1, if_neg (by omega)]
    refine ⟨_, rfl, ?_⟩
    have e := U256.toNat_ofInt c (((a.bitor b).toNat c : ℤ) - s.toNat c)
    omega

example : mean rel U256.MAX U256.MAX = .ok U256.MAX ∧ mean dbg (U256.new dbg 7) (U256.new dbg 10) = .ok (U256.new dbg 8)
    ∧ meanUp dbg (U256.new dbg 7) (U256.new dbg 10) = .ok (U256.new dbg 9) := by decide +kernel

/-- C79: `x & x.wrapping_neg()` is the greatest power of two that divides `x`, and 0 for 0. -/
theorem C79_lowest (c : Cfg) (x : U256) :
    (x.toNat c = 0 → (lowest c x).toNat c = 0)
    ∧ (x.toNat c ≠ 0 → ∃ k, (lowest c x).toNat c = 2 ^ k ∧ 2 ^ k ∣ x.toNat c ∧ ¬ 2 ^ (k + 1) ∣ x.toNat c) := by
  have hx := U256.toNat_lt c x
  have e : (x.wrapping_neg c).toNat c = (2 ^ 256 - x.toNat c) % 2 ^ 256 := by
    rw [(C02_neg c x).1]
    have e := U256.toNat_ofInt c (-(x.toNat c : ℤ))
    omega
  unfold lowest
  rw [(C21_u256_bitwise c _ _).1, e]
  constructor
  · intro h; rw [h, Nat.zero_and]
  · intro h
    rw [Nat.mod_eq_of_lt (by omega)]
    obtain ⟨k, m, e1, e2⟩ := low 256 (x.toNat c) h hx
    have hp : 0 < 2 ^ k := Nat.pow_pos (by decide)
    refine ⟨k, e2, ?_, ?_⟩
    · rw [e1]; exact Nat.dvd_add ((pow_dvd_pow 2 (by omega)).mul_right m) (dvd_refl _)
    · rw [e1, Nat.dvd_add_right (Dvd.intro m rfl)]
      exact Nat.not_dvd_of_pos_of_lt hp (pow_lt_succ k)

example : lowest dbg (U256.new dbg 40) = U256.new dbg 8 ∧ lowest rel ((U256.ofNat rel (3 * 2 ^ 200))) = U256.ofNat rel (2 ^ 200)
    ∧ lowest rel U256.ZERO = U256.ZERO := by decide +kernel

/-- C79: `x != 0 && x & (x - 1) == 0` holds exactly of the powers of two, and never panics. -/
theorem C79_power (c : Cfg) (x : U256) :
    ∃ b, isPower c x = .ok b ∧ (b = true ↔ ∃ k, x.toNat c = 2 ^ k) := by
  have hx := U256.toNat_lt c x
  unfold isPower
  rw [U256.eq_prim_eq]
  by_cases h : x.toNat c = 0
  · rw [if_neg (by simp [h])]
    refine ⟨false, rfl, fun h' => (by cases h'), ?_⟩
    rintro ⟨k, e⟩
    have : 0 < 2 ^ k := Nat.pow_pos (by decide)
    omega
  · rw [if_pos (by simpa using h)]
    obtain ⟨y, hy, ey⟩ := sub_one c x h
    rw [hy]
    dsimp only [Bind.bind, Except.bind, Pure.pure, Except.pure]
    rw [U256.eq_prim_eq, (C21_u256_bitwise c _ _).1, ey]
    refine ⟨_, rfl, ?_⟩
    rw [decide_eq_true_iff]
    obtain ⟨k, m, e⟩ := split _ h
    have hp : 0 < 2 ^ k := Nat.pow_pos (by decide)
    have hl := pow_lt_succ k
    have e' : x.toNat c - 1 = 2 ^ (k + 1) * m + (2 ^ k - 1) := by omega
    have ea : x.toNat c &&& (x.toNat c - 1) = 2 ^ (k + 1) * m := by
      apply Nat.eq_of_testBit_eq
      intro j
      rw [Nat.testBit_and, e', e, bit_split _ _ _ _ hl, bit_split _ _ _ _ (by omega), Nat.testBit_two_pow_mul,
        Nat.testBit_two_pow, Nat.testBit_two_pow_sub_one]
      split
      · rename_i hj
        have : ¬ j ≥ k + 1 := by omega
        by_cases hk : j = k
        · subst hk; simp
        · simp [show ¬ k = j by omega, this]
      · rename_i hj
        simp [show j ≥ k + 1 by omega]
    rw [ea]
    constructor
    · intro hz
      have hz' : 2 ^ (k + 1) * m = 0 := by simpa using hz
      exact ⟨k, by omega⟩
    · rintro ⟨i, hi⟩
      by_contra hz
      have hm : m ≠ 0 := by rintro rfl; exact hz (by simp)
      have hd : 2 ^ k ∣ 2 ^ i := by
        rw [← hi, e]; exact Nat.dvd_add ((pow_dvd_pow 2 (by omega)).mul_right m) (dvd_refl _)
      have hnd : ¬ 2 ^ (k + 1) ∣ 2 ^ i := by
        rw [← hi, e, Nat.dvd_add_right (Dvd.intro m rfl)]
        exact Nat.not_dvd_of_pos_of_lt hp hl
      have h1 : k ≤ i := (Nat.pow_dvd_pow_iff_le_right (by decide)).1 hd
      have h2 : ¬ k + 1 ≤ i := fun hle => hnd (pow_dvd_pow 2 hle)
      have hik : i = k := by omega
      subst hik
      have : 0 < 2 ^ (i + 1) * m := Nat.mul_pos (Nat.pow_pos (by decide)) (Nat.pos_of_ne_zero hm)
      omega

example : isPower dbg (U256.ofNat dbg (2 ^ 255)) = .ok true ∧ isPower dbg (U256.new dbg 6) = .ok false
    ∧ isPower dbg U256.ZERO = .ok false := by decide +kernel

/-- C79: with a power of two `m`, `(x + (m - 1)) & !(m - 1)` is the least multiple of `m` that is at least `x`, provided the sum fits, and
`x & (m - 1)` is `x % m`; neither panics. -/
theorem C79_align (c : Cfg) (x m : U256) (k : ℕ) (hm : m.toNat c = 2 ^ k) :
    (x.toNat c + (m.toNat c - 1) < 2 ^ 256 → ∃ r, alignUp c x m = .ok r ∧ m.toNat c ∣ r.toNat c ∧ x.toNat c ≤ r.toNat c
      ∧ ∀ n, m.toNat c ∣ n → x.toNat c ≤ n → r.toNat c ≤ n)
    ∧ ∃ r, maskOff c x m = .ok r ∧ r.toNat c = x.toNat c % m.toNat c := by
  have hp : 0 < 2 ^ k := Nat.pow_pos (by decide)
  have hml := U256.toNat_lt c m
  have hk : k ≤ 256 := by
    by_contra hc
    have : 2 ^ 256 ≤ 2 ^ k := Nat.pow_le_pow_right (by decide) (by omega)
    omega
  obtain ⟨y, hy, ey⟩ := sub_one c m (by omega)
  constructor
  · intro h
    unfold alignUp
    rw [hy]
    dsimp only [Bind.bind, Except.bind, Pure.pure, Except.pure]
    rw [(C25_u256 c _ _).1, if_neg (by omega)]
    refine ⟨_, rfl, ?_⟩
    rw [(C21_u256_bitwise c _ _).1, (C21_u256_bitwise c y y).2.2.2.1, ey, U256.toNat_ofNat_of_lt c (by omega), hm,
      clear_low 256 _ k hk (by omega)]
    have h1 := Nat.div_add_mod (x.toNat c + (2 ^ k - 1)) (2 ^ k)
    have h2 := Nat.mod_lt (x.toNat c + (2 ^ k - 1)) hp
    refine ⟨Dvd.intro _ rfl, by omega, ?_⟩
    rintro n ⟨q, rfl⟩ hn
    apply Nat.mul_le_mul_left
    rw [← Nat.lt_succ_iff, Nat.div_lt_iff_lt_mul hp, Nat.succ_mul, Nat.mul_comm q]
    omega
  · unfold maskOff
    rw [hy]
    refine ⟨_, rfl, ?_⟩
    rw [(C21_u256_bitwise c _ _).1, ey, hm, Nat.and_two_pow_sub_one_eq_mod]

example : alignUp dbg (U256.new dbg 33) (U256.new dbg 32) = .ok (U256.new dbg 64)
    ∧ alignUp dbg (U256.new dbg 64) (U256.new dbg 32) = .ok (U256.new dbg 64)
    ∧ maskOff dbg (U256.new dbg 67) (U256.new dbg 32) = .ok (U256.new dbg 3)
    ∧ (U256.new dbg 32).toNat dbg = 2 ^ 5 := by decide +kernel

/-- C79: the Gray code `x ^ (x >> 1)`. Eight steps `g ^= g >> 1`, `g ^= g >> 2` up to `g ^= g >> 128` undo it, and it undoes them, so that it
is a bijection. -/
theorem C79_gray_inverse (c : Cfg) (x : U256) :
    (∃ g, gray c x = .ok g ∧ ungray c g = .ok x) ∧ ∃ y, ungray c x = .ok y ∧ gray c y = .ok x := by
  have hx := U256.toNat_lt c x
  constructor
  · obtain ⟨g, hg, eg⟩ := gray_eq c x
    obtain ⟨y, hy, ey⟩ := ungray_eq c g
    refine ⟨g, hg, ?_⟩
    rw [hy]
    congr 1
    apply U256.toNat_inj c
    rw [ey, eg, unT_T hx]
  · obtain ⟨g, hg, eg⟩ := ungray_eq c x
    obtain ⟨y, hy, ey⟩ := gray_eq c g
    refine ⟨g, hg, ?_⟩
    rw [hy]
    congr 1
    apply U256.toNat_inj c
    rw [ey, eg, T_unT hx]

/-- C79: the Gray codes of neighbours, and those of `MAX` and 0, differ in exactly one digit. -/
theorem C79_gray_step (c : Cfg) (x y g h : U256) (hy : y.toNat c = (x.toNat c + 1) % 2 ^ 256)
    (hg : gray c x = .ok g) (hh : gray c y = .ok h) :
    (∃ k < 256, ∀ j < 256, (g.toNat c).testBit j = ((h.toNat c).testBit j ^^ decide (j = k)))
    ∧ (g.bitxor h).count_ones c = .ok 1 := by
  have hx := U256.toNat_lt c x
  obtain ⟨g', hg', eg⟩ := gray_eq c x
  obtain ⟨h', hh', eh⟩ := gray_eq c y
  rw [hg] at hg'; rw [hh] at hh'
  injection hg' with hg'; injection hh' with hh'
  subst hg' hh'
  have key : ∃ k < 256, g.toNat c ^^^ h.toNat c = 2 ^ k := by
    rw [eg, eh, ← T_xor, hy]
    by_cases hw : x.toNat c + 1 < 2 ^ 256
    · obtain ⟨k, e, hk⟩ := xor_succ (x.toNat c)
      rw [Nat.mod_eq_of_lt hw, e, T_ones]
      refine ⟨k, ?_, rfl⟩
      by_contra hc
      have : 2 ^ 256 ≤ 2 ^ k := Nat.pow_le_pow_right (by decide) (by omega)
      omega
    · have : x.toNat c = 2 ^ (255 + 1) - 1 := by omega
      rw [this, show (2 ^ (255 + 1) - 1 + 1) % 2 ^ 256 = 0 by decide, Nat.xor_zero, T_ones]
      exact ⟨255, by decide, rfl⟩
  obtain ⟨k, hk, e⟩ := key
  constructor
  · refine ⟨k, hk, fun j _ => ?_⟩
    have := congrArg (fun n => n.testBit j) e
    simp only [Nat.testBit_xor, Nat.testBit_two_pow] at this
    rw [show decide (j = k) = decide (k = j) from decide_eq_decide.2 eq_comm, ← this]
    cases (g.toNat c).testBit j <;> cases (h.toNat c).testBit j <;> rfl
  · rw [(C14_count c (g.bitxor h) (I256.ONE c)).1, (C21_u256_bitwise c _ _).2.2.1]
    have : bitCount true (g.toNat c ^^^ h.toNat c) = 1 :=
      (bitCount_one_iff _ (by rw [e]; exact Nat.pow_lt_pow_right (by decide) hk)).2 ⟨k, e⟩
    rw [this]; rfl

example : gray dbg (U256.new dbg 5) = .ok (U256.new dbg 7) ∧ gray dbg (U256.new dbg 6) = .ok (U256.new dbg 5)
    ∧ gray dbg U256.MAX = .ok (U256.ofNat dbg (2 ^ 255)) ∧ ungray dbg (U256.new dbg 7) = .ok (U256.new dbg 5) := by decide +kernel

/-- C79: `let m = s >> 255; (s ^ m).wrapping_sub(m).as_u256()` is the absolute value of `s`, also for `MIN`. -/
theorem C79_absolute (c : Cfg) (s : I256) : ∃ r, absolute c s = .ok r ∧ r.toNat c = (s.toInt c).natAbs := by
  have h := (C12_in_range c U256.ZERO s (.prim .i32 255) (show (0 : ℤ) ≤ (255 : U32).toInt by decide)
    (show (255 : U32).toInt < 256 by decide)).2.2.2
  unfold absolute
  rw [h]
  refine ⟨_, rfl, ?_⟩
  have hv : (ShiftBy.prim (c := c) .i32 255).value.toNat = 255 := rfl
  have h1 := I256.toInt_lt c s
  have h2 := I256.le_toInt c s
  have hn := I256.toNat_toInt c s
  rw [(C06_sub c _ _).1, I256.toNat_as_u256]
  by_cases h0 : 0 ≤ s.toInt c
  · have e : s.toInt c / 2 ^ (ShiftBy.prim (c := c) .i32 255).value.toNat = 0 := by rw [hv]; omega
    rw [e]
    have ez : (I256.ofInt c 0).toInt c = 0 := I256.toInt_ofInt_of_in c (by decide)
    have ez' : (I256.ofInt c 0).toNat c = 0 := by have := I256.toNat_ofInt c 0; omega
    have ex : s.bitxor (I256.ofInt c 0) = s := by
      apply I256.toNat_inj c
      rw [(C21_i256_bitwise c _ _).2.2.1, ez', Nat.xor_zero]
    rw [ex, ez, Int.sub_zero, I256.ofInt_toInt]
    omega
  · have e : s.toInt c / 2 ^ (ShiftBy.prim (c := c) .i32 255).value.toNat = -1 := by rw [hv]; omega
    rw [e]
    have ez : (I256.ofInt c (-1)).toInt c = -1 := I256.toInt_ofInt_of_in c (by decide)
    have ez' : (I256.ofInt c (-1)).toNat c = 2 ^ 256 - 1 := by have := I256.toNat_ofInt c (-1); omega
    have ex : (s.bitxor (I256.ofInt c (-1))).toInt c = -s.toInt c - 1 := by
      rw [← (C21_i256_bitwise c s s).2.2.2.1]
      congr 1
      apply I256.toNat_inj c
      have hnot : (s.not).toNat c = 2 ^ 256 - 1 - s.toNat c := (C21_u256_bitwise c s.as_u256 s.as_u256).2.2.2.1
      have hs := I256.toNat_lt c s
      rw [(C21_i256_bitwise c _ _).2.2.1, ez', hnot]
      have e : 2 ^ 256 - 1 - s.toNat c = 2 ^ 256 - (s.toNat c + 1) := by omega
      rw [e]
      apply Nat.eq_of_testBit_eq
      intro j
      rw [Nat.testBit_two_pow_sub_succ hs, Nat.testBit_xor, Nat.testBit_two_pow_sub_one]
      by_cases hj : j < 256
      · simp [hj]
      · rw [Nat.testBit_lt_two_pow (lt_of_lt_of_le hs (Nat.pow_le_pow_right (by decide) (by omega)))]
        simp [hj]
    rw [ex, ez]
    have := I256.toNat_ofInt c (-s.toInt c - 1 - -1)
    omega

example : absolute dbg (I256.new dbg (-5)) = .ok (U256.new dbg 5) ∧ absolute dbg (I256.MIN dbg) = .ok (U256.ofNat dbg (2 ^ 255)) := by
  decide +kernel

/-- C79: `a ^= b; b ^= a; a ^= b;` exchanges `a` and `b`. -/
theorem C79_swap (c : Cfg) (a b : U256) :
    ((swap a b).1.toNat c = b.toNat c) ∧ (swap a b).2.toNat c = a.toNat c := by
  have hx : ∀ a b : U256, (a.bitxor_assign b).toNat c = a.toNat c ^^^ b.toNat c := fun a b => by
    rw [(C21_u256_bitwise c a b).2.2.2.2.2.2, (C21_u256_bitwise c a b).2.2.1]
  unfold swap
  dsimp only
  simp only [hx]
  constructor <;> apply Nat.eq_of_testBit_eq <;> intro j <;> simp only [Nat.testBit_xor] <;>
    cases (a.toNat c).testBit j <;> cases (b.toNat c).testBit j <;> rfl

example : swap (U256.new dbg 5) U256.MAX = (U256.MAX, U256.new dbg 5) := by decide

end Ethnum
