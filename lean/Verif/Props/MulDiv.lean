import Verif.Props.Limbs
import Verif.Props.Bits
import Mathlib.Data.Int.ModEq

/-
C65 multiplication and division with full precision on `U256` (Verif/SpecLimbs.lean).
-/

namespace Ethnum
open Limbs

/-- The high word of a product, from the product modulo `M - 1` and modulo `M`. -/
private theorem high_word {M p mm lo : Nat} (hM : 3 ≤ M) (hp : p ≤ (M - 1) * (M - 1)) (hmm : mm = p % (M - 1))
    (hlo : lo = p % M) (x : Nat)
    (hv : (x : Int) = ((mm : Int) - lo - if mm < lo then 1 else 0) % M) : x * M + lo = p := by
  have hlt : p / M < M - 1 := by
    apply Nat.div_lt_of_lt_mul
    calc p ≤ (M - 1) * (M - 1) := hp
      _ < M * (M - 1) := Nat.mul_lt_mul_of_pos_right (by omega) (by omega)
  have hdm := Nat.div_add_mod p M
  rw [← hlo] at hdm
  have hll : lo < M := by rw [hlo]; exact Nat.mod_lt _ (by omega)
  generalize hh : p / M = h at *
  have hm : mm = (h + lo) % (M - 1) := by
    rw [hmm, ← hdm]
    have : M * h + lo = (h + lo) + (M - 1) * h := by
      have : M * h = (M - 1) * h + h := by
        conv_lhs => rw [show M = (M - 1) + 1 by omega]
        ring
      omega
    rw [this, Nat.add_mul_mod_self_left]
  have hxh : x = h := by
    by_cases hc : h + lo < M - 1
    · rw [Nat.mod_eq_of_lt hc] at hm
      rw [if_neg (by omega)] at hv
      rw [Int.emod_eq_of_lt (by omega) (by omega)] at hv
      omega
    · rw [Nat.mod_eq_sub_mod (by omega), Nat.mod_eq_of_lt (by omega)] at hm
      rw [if_pos (by omega)] at hv
      have : (mm : Int) - lo - 1 = h - M := by omega
      rw [this, Int.sub_emod_right, Int.emod_eq_of_lt (by omega) (by omega)] at hv
      omega
  rw [hxh, Nat.mul_comm]; exact hdm

/-- C65: the two words of the product. -/
theorem C65_full_mul (c : Cfg) (a b : U256) :
    ∃ hi lo, fullMul c a b = .ok (hi, lo) ∧ hi.toNat c * 2 ^ 256 + lo.toNat c = a.toNat c * b.toNat c := by
  have ha := a.toNat_lt c
  have hb := b.toNat_lt c
  have hM : (U256.MAX).toNat c = 2 ^ 256 - 1 := U256.toNat_MAX c
  obtain ⟨mm, em, vm⟩ := C62_mul_mod c U256.MAX a b (by rw [hM]; decide)
  have hlo : (U256.ofNat c (a.toNat c * b.toNat c)).toNat c = a.toNat c * b.toNat c % 2 ^ 256 := U256.toNat_ofNat ..
  have hp : a.toNat c * b.toNat c ≤ (2 ^ 256 - 1) * (2 ^ 256 - 1) := Nat.mul_le_mul (by omega) (by omega)
  rw [hM] at vm
  have key := fun x hv => high_word (M := 2 ^ 256) (by decide) hp vm hlo x hv
  have e1 := (C02_wrapping c mm (U256.ofNat c (a.toNat c * b.toNat c))).2.2.2
  refine ⟨_, _, by rw [fullMul, em, ok_bind, (C03_mul c a b).1, ok_bind], ?_⟩
  apply key
  rw [(C20_u256_cmp c _ _).2.2.2.2.1]
  by_cases hlt : mm.toNat c < (U256.ofNat c (a.toNat c * b.toNat c)).toNat c
  · simp only [hlt, decide_true, if_true]
    rw [(C02_wrapping c _ _).2.2.2, e1, U256.toNat_ONE, Int.emod_sub_emod]
    rfl
  · simp only [hlt, decide_false, if_false, Bool.false_eq_true, Int.sub_zero]
    exact e1

example : fullMul dbg U256.MAX U256.MAX = .ok (U256.ofNat dbg (2 ^ 256 - 2), U256.ONE dbg)
    ∧ fullMul rll (U256.ofNat rll (2 ^ 200)) (U256.ofNat rll (5 * 2 ^ 100 + 3))
      = .ok (U256.ofNat rll (5 * 2 ^ 44), U256.ofNat rll (3 * 2 ^ 200)) := by decide +kernel

private theorem seed {d : Nat} (h : d % 2 = 1) : d * (3 * d % 2 ^ 256 ^^^ 2) % 2 ^ 4 = 1 := by
  have table : ∀ e < 16, e % 2 = 1 → e * (3 * e % 16 ^^^ 2) % 16 = 1 := by decide
  have e1 : (3 * d % 2 ^ 256 ^^^ 2) % 2 ^ 4 = 3 * (d % 16) % 16 ^^^ 2 := by
    rw [Nat.xor_mod_two_pow, Nat.mod_mod_of_dvd _ (Nat.pow_dvd_pow 2 (by decide : 4 ≤ 256))]
    show 3 * d % 16 ^^^ 2 = _
    rw [Nat.mul_mod 3 d 16, Nat.mul_mod 3 (d % 16) 16, Nat.mod_mod]
  rw [Nat.mul_mod, e1]
  exact table (d % 16) (Nat.mod_lt _ (by decide)) (by omega)

private theorem newton_step {d x y k : Int} {n : Nat} (hn : 2 * n ≤ 256) (h : (2 : Int) ^ n ∣ d * x - 1)
    (hy : (2 : Int) ^ 256 ∣ y - x * (2 - d * x + 2 ^ 256 * k)) : (2 : Int) ^ (2 * n) ∣ d * y - 1 := by
  obtain ⟨u, hu⟩ := h
  obtain ⟨v, hv⟩ := hy
  obtain ⟨w, hw⟩ : (2 : Int) ^ (2 * n) ∣ 2 ^ 256 := pow_dvd_pow 2 hn
  have h2 : (2 : Int) ^ (2 * n) = 2 ^ n * 2 ^ n := by rw [two_mul, pow_add]
  refine ⟨d * w * v + d * x * w * k - u * u, ?_⟩
  have e : y = x * (2 - d * x + 2 ^ 256 * k) + 2 ^ 256 * v := by linarith
  have e2 : d * x = 1 + 2 ^ n * u := by linarith
  rw [e, hw]
  calc d * (x * (2 - d * x + 2 ^ (2 * n) * w * k) + 2 ^ (2 * n) * w * v) - 1
      = (d * x) * (2 - d * x) - 1 + 2 ^ (2 * n) * (d * w * v + d * x * w * k) := by ring
    _ = _ := by rw [h2, e2]; ring

private theorem newton_eq (c : Cfg) (d : U256) (k n : Nat) (x : U256) (hn : 2 ^ k * n ≤ 256)
    (h : (2 : Int) ^ n ∣ (d.toNat c : Int) * x.toNat c - 1) :
    ∃ z, newton c d k x = .ok z ∧ (2 : Int) ^ (2 ^ k * n) ∣ (d.toNat c : Int) * z.toNat c - 1 := by
  induction k generalizing n x with
  | zero => exact ⟨x, rfl, by simpa using h⟩
  | succ k ih =>
    have e0 := (C03_mul c d x).1
    generalize hp : U256.ofNat c (d.toNat c * x.toNat c) = p at e0
    have vp : p.toNat c = d.toNat c * x.toNat c % 2 ^ 256 := by rw [← hp, U256.toNat_ofNat]
    have e1 := (C02_wrapping c (U256.new c 2) p).2.2.2
    generalize hsub : (U256.new c 2).wrapping_sub c p = s at *
    have e2 := (C03_mul c x s).1
    generalize hy : U256.ofNat c (x.toNat c * s.toNat c) = y at e2
    have vy : y.toNat c = x.toNat c * s.toNat c % 2 ^ 256 := by rw [← hy, U256.toNat_ofNat]
    have h2 : (U256.new c 2).toNat c = 2 := by rw [U256.toNat_new]; rfl
    rw [h2, vp] at e1
    have hk : ∃ k : Int, (s.toNat c : Int) = 2 - d.toNat c * x.toNat c + 2 ^ 256 * k := by
      refine ⟨((s.toNat c : Int) - (2 - d.toNat c * x.toNat c)) / 2 ^ 256, ?_⟩
      have : (2 : Int) ^ 256 ∣ (s.toNat c : Int) - (2 - d.toNat c * x.toNat c) := by
        push_cast at e1
        generalize (d.toNat c : Int) * x.toNat c = q at *
        omega
      rw [Int.mul_ediv_cancel' this]; ring
    obtain ⟨k', hk'⟩ := hk
    have hn' : 2 ^ k * (2 * n) ≤ 256 := by rw [← Nat.mul_assoc, ← Nat.pow_succ]; exact hn
    have hn2 : 2 * n ≤ 256 := le_trans (Nat.le_mul_of_pos_left _ (by positivity)) hn'
    have hstep : (2 : Int) ^ (2 * n) ∣ (d.toNat c : Int) * y.toNat c - 1 := by
      refine newton_step (k := k') hn2 h ?_
      rw [← hk', vy]
      push_cast
      generalize (x.toNat c : Int) * s.toNat c = q
      omega
    obtain ⟨z, ez, vz⟩ := ih (2 * n) y hn' hstep
    refine ⟨z, by simp only [newton, e0, hsub, e2, ok_bind, ez], ?_⟩
    rw [Nat.pow_succ, Nat.mul_assoc]
    exact vz

/-- C65: the inverse of an odd number modulo `2^256`. -/
theorem C65_inverse (c : Cfg) (d : U256) (h : d.toNat c % 2 = 1) :
    ∃ z, inverse c d = .ok z ∧ d.toNat c * z.toNat c % 2 ^ 256 = 1 := by
  have e := (C03_mul c (U256.new c 3) d).1
  generalize hs : U256.ofNat c ((U256.new c 3).toNat c * d.toNat c) = s at e
  have vs : s.toNat c = 3 * d.toNat c % 2 ^ 256 := by
    rw [← hs, U256.toNat_ofNat, U256.toNat_new]; rfl
  have vx : (s.bitxor (U256.new c 2)).toNat c = 3 * d.toNat c % 2 ^ 256 ^^^ 2 := by
    rw [(C21_u256_bitwise c _ _).2.2.1, vs, U256.toNat_new]; rfl
  have hseed := seed h
  rw [← vx] at hseed
  obtain ⟨z, ez, vz⟩ := newton_eq c d 6 4 (s.bitxor (U256.new c 2)) (by decide) (by
    have : ((d.toNat c * (s.bitxor (U256.new c 2)).toNat c : Nat) : Int) % 2 ^ 4 = 1 := by exact_mod_cast hseed
    push_cast at this
    generalize (d.toNat c : Int) * (s.bitxor (U256.new c 2)).toNat c = q at *
    omega)
  refine ⟨z, by rw [inverse, e, ok_bind, ez], ?_⟩
  have : (2 : Int) ^ 256 ∣ ((d.toNat c * z.toNat c : Nat) : Int) - 1 := by push_cast; exact vz
  generalize d.toNat c * z.toNat c = q at *
  omega

example : (inverse dbg (U256.ofNat dbg 3)).map (·.toNat dbg) = .ok ((2 ^ 257 + 1) / 3)
    ∧ inverse rll U256.MAX = .ok U256.MAX := by decide +kernel

private theorem trailing_run {x r : Nat} (hx : x < 2 ^ 256) (h0 : x ≠ 0) (h : IsTrailingRun false x r) :
    r < 256 ∧ x = 2 ^ r * (x / 2 ^ r) ∧ x / 2 ^ r % 2 = 1 := by
  obtain ⟨h1, h2, h3⟩ := h
  have hm : x % 2 ^ r = 0 := by
    apply Nat.eq_of_testBit_eq
    intro i
    rw [Nat.testBit_mod_two_pow, Nat.zero_testBit]
    by_cases hi : i < r
    · rw [h2 i hi, Bool.and_false]
    · simp [hi]
  have hr : r < 256 := by
    by_contra hge
    have : r = 256 := by omega
    subst this
    rw [Nat.mod_eq_of_lt hx] at hm
    exact h0 hm
  refine ⟨hr, ?_, ?_⟩
  · have := Nat.div_add_mod x (2 ^ r)
    omega
  · have := h3 hr
    rw [Nat.testBit_eq_decide_div_mod_eq] at this
    simpa using this

private theorem shl_u32 (c : Cfg) (b : U256) (n : BitVec 32) (h : n.toNat < 256) :
    ∃ z, b.shlBy c (.prim .u32 n) = .ok z ∧ z.toNat c = b.toNat c * 2 ^ n.toNat % 2 ^ 256 := by
  refine ⟨_, (C12_in_range c b ⟨0, 0⟩ (.prim .u32 n) (by rw [ShiftBy.value_u32]; omega)
    (by rw [ShiftBy.value_u32]; omega)).1, ?_⟩
  rw [ShiftBy.value_u32, Int.toNat_natCast, U256.toNat_ofNat]

private theorem shr_by_u32 (c : Cfg) (b : U256) (n : BitVec 32) (h : n.toNat < 256) :
    ∃ z, b.shrBy c (.prim .u32 n) = .ok z ∧ z.toNat c = b.toNat c / 2 ^ n.toNat := by
  refine ⟨_, (C12_in_range c b ⟨0, 0⟩ (.prim .u32 n) (by rw [ShiftBy.value_u32]; omega)
    (by rw [ShiftBy.value_u32]; omega)).2.1, ?_⟩
  rw [ShiftBy.value_u32, Int.toNat_natCast,
    U256.toNat_ofNat_of_lt c (lt_of_le_of_lt (Nat.div_le_self _ _) (b.toNat_lt c))]

/-- The low word of `(hi * 2^256 + lo) / 2^t`. -/
private theorem funnel {hi lo t : Nat} (h0 : 0 < t) (h1 : t < 256) (hl : lo < 2 ^ 256) :
    lo / 2 ^ t ||| hi * 2 ^ (256 - t) % 2 ^ 256 = (hi * 2 ^ 256 + lo) / 2 ^ t % 2 ^ 256 := by
  have hP : 2 ^ 256 = 2 ^ t * 2 ^ (256 - t) := by rw [← Nat.pow_add]; congr 1; omega
  have hq : lo / 2 ^ t < 2 ^ (256 - t) := Nat.div_lt_of_lt_mul (by rw [← hP]; exact hl)
  have e1 : (hi * 2 ^ 256 + lo) / 2 ^ t = hi * 2 ^ (256 - t) + lo / 2 ^ t := by
    rw [hP, show hi * (2 ^ t * 2 ^ (256 - t)) + lo = lo + 2 ^ t * (hi * 2 ^ (256 - t)) by ring,
      Nat.add_mul_div_left _ _ (by positivity), Nat.add_comm]
  have e2 : hi * 2 ^ (256 - t) % 2 ^ 256 = hi % 2 ^ t * 2 ^ (256 - t) := by rw [hP, Nat.mul_mod_mul_right]
  have e3 : (hi * 2 ^ (256 - t) + lo / 2 ^ t) % 2 ^ 256 = hi % 2 ^ t * 2 ^ (256 - t) + lo / 2 ^ t := by
    rw [Nat.add_mod, e2, Nat.mod_eq_of_lt (lt_of_lt_of_le hq (Nat.pow_le_pow_right (by decide) (by omega)) : lo / 2 ^ t < 2 ^ 256)]
    apply Nat.mod_eq_of_lt
    have hm : hi % 2 ^ t + 1 ≤ 2 ^ t := Nat.mod_lt _ (by positivity)
    calc hi % 2 ^ t * 2 ^ (256 - t) + lo / 2 ^ t < hi % 2 ^ t * 2 ^ (256 - t) + 2 ^ (256 - t) := by omega
      _ = (hi % 2 ^ t + 1) * 2 ^ (256 - t) := by ring
      _ ≤ 2 ^ t * 2 ^ (256 - t) := Nat.mul_le_mul_right _ hm
      _ = 2 ^ 256 := hP.symm
  rw [e1, e2, e3, Nat.or_comm, ← Nat.shiftLeft_eq, Nat.shiftLeft_add_eq_or_of_lt hq]

/-- An exact quotient is a product with the inverse of the divisor. -/
private theorem exact_quotient {m q inv M : Nat} (hq : q < M) (hi : m * inv % M = 1) : m * q % M * inv % M = q := by
  rw [Nat.mod_mul_mod, Nat.mul_right_comm, ← Nat.mod_mul_mod, hi, Nat.one_mul, Nat.mod_eq_of_lt hq]

/-- A remainder is subtracted from two words. -/
private theorem borrow {hi lo r N P x y : Nat} (hP : hi * 2 ^ 256 + lo = P) (hN : N + r = P) (hr : r ≤ P) (hh : hi < 2 ^ 256)
    (hl : lo < 2 ^ 256) (hrl : r < 2 ^ 256) (hy : (y : Int) = ((lo : Int) - r) % 2 ^ 256)
    (hx : (x : Int) = ((hi : Int) - if r > lo then 1 else 0) % 2 ^ 256) : x * 2 ^ 256 + y = N := by
  subst hP
  by_cases hg : r > lo
  · rw [if_pos hg] at hx
    have : 1 ≤ hi := by omega
    rw [Int.emod_eq_of_lt (by omega) (by omega)] at hx
    rw [← Int.add_emod_right, Int.emod_eq_of_lt (by omega) (by omega)] at hy
    omega
  · rw [if_neg hg, Int.emod_eq_of_lt (by omega) (by omega)] at hx
    rw [Int.emod_eq_of_lt (by omega) (by omega)] at hy
    omega

/-- C65: `a * b / d` rounded down, for all operands: exact if it is a `U256`, `None` if it is not or if `d` is zero. No
build panics. -/
theorem C65_mul_div (c : Cfg) (a b d : U256) :
    mulDiv c a b d = .ok (if d.toNat c = 0 ∨ 2 ^ 256 ≤ a.toNat c * b.toNat c / d.toNat c then none
      else some (U256.ofNat c (a.toNat c * b.toNat c / d.toNat c))) := by
  obtain ⟨hi, lo, ef, vf⟩ := C65_full_mul c a b
  have hhi := hi.toNat_lt c
  have hlo := lo.toNat_lt c
  have hdlt := d.toNat_lt c
  generalize hP : a.toNat c * b.toNat c = P at *
  rw [mulDiv, ef, ok_bind]
  simp only [(C20_u256_cmp c _ _).2.2.2.2.2.1, (C20_u256_cmp c _ _).2.2.2.2.2.2.1]
  by_cases hle : d.toNat c ≤ hi.toNat c
  · simp only [hle, decide_true, if_true]
    rw [if_pos]
    by_cases h0 : d.toNat c = 0
    · exact Or.inl h0
    · refine Or.inr ((Nat.le_div_iff_mul_le (by omega)).2 ?_)
      calc 2 ^ 256 * d.toNat c ≤ 2 ^ 256 * hi.toNat c := Nat.mul_le_mul_left _ hle
        _ ≤ P := by omega
  · have h0 : d.toNat c ≠ 0 := by omega
    simp only [hle, decide_false, Bool.false_eq_true, if_false]
    have hPd : P < d.toNat c * 2 ^ 256 := by
      calc P < (hi.toNat c + 1) * 2 ^ 256 := by omega
        _ ≤ d.toNat c * 2 ^ 256 := Nat.mul_le_mul_right _ (by omega)
    have hq : P / d.toNat c < 2 ^ 256 := Nat.div_lt_of_lt_mul hPd
    rw [if_neg (by omega)]
    obtain ⟨r, er, vr⟩ := C62_mul_mod c d a b h0
    rw [hP] at vr
    have hrP : r.toNat c ≤ P := by rw [vr]; exact Nat.mod_le _ _
    have hdq : d.toNat c * (P / d.toNat c) + r.toNat c = P := by rw [vr]; exact Nat.div_add_mod _ _
    -- the product without the remainder
    have hN : ∃ hi' lo', (if decide (r.toNat c > lo.toNat c) = true then hi.wrapping_sub c (U256.ONE c) else hi) = hi'
        ∧ lo.wrapping_sub c r = lo' ∧ hi'.toNat c * 2 ^ 256 + lo'.toNat c = d.toNat c * (P / d.toNat c) := by
      refine ⟨_, _, rfl, rfl, ?_⟩
      have e1 := (C02_wrapping c lo r).2.2.2
      have e2 := (C02_wrapping c hi (U256.ONE c)).2.2.2
      rw [U256.toNat_ONE] at e2
      have hrl := r.toNat_lt c
      by_cases hg : r.toNat c > lo.toNat c
      · simp only [hg, decide_true, if_true]
        exact borrow vf hdq hrP hhi hlo hrl e1 (by rw [e2, if_pos hg]; rfl)
      · simp only [hg, decide_false, Bool.false_eq_true, if_false]
        exact borrow vf hdq hrP hhi hlo hrl e1 (by rw [if_neg hg, Int.sub_zero, Int.emod_eq_of_lt (by omega) (by exact_mod_cast hhi)])
    obtain ⟨hi', lo', e1, e2, vN⟩ := hN
    have hlo' := lo'.toNat_lt c
    obtain ⟨t, et, ht⟩ := (C14_u256_runs c d).2.1
    obtain ⟨ht1, ht2, ht3⟩ := trailing_run hdlt h0 ht
    obtain ⟨m, em, vm⟩ := shr_by_u32 c d t ht1
    rw [← vm] at ht2 ht3
    obtain ⟨inv, ei, vi⟩ := C65_inverse c m ht3
    have hNt : d.toNat c * (P / d.toNat c) / 2 ^ t.toNat = m.toNat c * (P / d.toNat c) := by
      conv_lhs => rw [ht2]
      rw [Nat.mul_assoc, Nat.mul_div_cancel_left _ (by positivity)]
      rw [← ht2]
    have hfin := exact_quotient hq vi
    simp only [er, ok_bind, e1, e2, et, em, ei]
    by_cases hz : t = 0
    · rw [if_pos hz, (C03_mul c lo' inv).1, ok_bind]
      have : lo'.toNat c = m.toNat c * (P / d.toNat c) % 2 ^ 256 := by
        rw [← hNt, ← vN, hz]
        show _ = (_ : Nat) / 2 ^ 0 % _
        rw [Nat.pow_zero, Nat.div_one, Nat.mul_comm, Nat.mul_add_mod, Nat.mod_eq_of_lt hlo']
      rw [this]
      exact congrArg (fun x => Except.ok (some x)) (U256.ofNat_congr c (by rw [hfin, Nat.mod_eq_of_lt hq]))
    · have ht0 : 0 < t.toNat := by
        rcases Nat.eq_zero_or_pos t.toNat with h | h
        · exact absurd (BitVec.eq_of_toNat_eq h) hz
        · exact h
      have hsub : (256 - t : BitVec 32).toNat = 256 - t.toNat := by
        rw [BitVec.toNat_sub]; simp; omega
      obtain ⟨l, el, vl⟩ := shr_by_u32 c lo' t ht1
      obtain ⟨h, eh, vh⟩ := shl_u32 c hi' (256 - t) (by rw [hsub]; omega)
      rw [if_neg hz, el, ok_bind, eh, ok_bind, (C03_mul c _ inv).1, ok_bind, (C21_u256_bitwise c _ _).2.1, vl, vh, hsub,
        funnel ht0 ht1 hlo', vN, hNt]
      exact congrArg (fun x => Except.ok (some x)) (U256.ofNat_congr c (by rw [hfin, Nat.mod_eq_of_lt hq]))

example : mulDiv dbg U256.MAX U256.MAX (U256.ofNat dbg (2 ^ 256 - 2)) = .ok none
    ∧ mulDiv dbg U256.MAX (U256.ofNat dbg (2 ^ 255 + 12)) (U256.ofNat dbg (6 * 2 ^ 253))
      = .ok (some (U256.ofNat dbg ((2 ^ 256 - 1) * (2 ^ 255 + 12) / (6 * 2 ^ 253))))
    ∧ mulDiv rll (U256.new rll 10) (U256.new rll 20) U256.ZERO = .ok none
    ∧ mulDiv rel (U256.new rel 10) (U256.new rel 20) (U256.new rel 7) = .ok (some (U256.new rel 28)) := by decide +kernel

/-- C65: the same rounded up: the least `q` with `a * b ≤ q * d`, if there is one below `2^256`. -/
theorem C65_mul_div_up (c : Cfg) (a b d : U256) :
    ∃ z, mulDivUp c a b d = .ok z
      ∧ (∀ q, z = some q → a.toNat c * b.toNat c ≤ q.toNat c * d.toNat c
          ∧ ∀ n, a.toNat c * b.toNat c ≤ n * d.toNat c → q.toNat c ≤ n)
      ∧ (z = none → d.toNat c = 0 ∨ ∀ n < 2 ^ 256, n * d.toNat c < a.toNat c * b.toNat c) := by
  rw [mulDivUp, C65_mul_div, ok_bind]
  by_cases h0 : d.toNat c = 0
  · rw [if_pos (Or.inl h0)]
    exact ⟨none, rfl, by simp, fun _ => Or.inl h0⟩
  have hd : 0 < d.toNat c := by omega
  have hdm := Nat.div_add_mod (a.toNat c * b.toNat c) (d.toNat c)
  have hml := Nat.mod_lt (a.toNat c * b.toNat c) hd
  obtain ⟨r, er, vr⟩ := C62_mul_mod c d a b h0
  generalize hP : a.toNat c * b.toNat c = P at *
  generalize hq : P / d.toNat c = q at *
  by_cases hbig : 2 ^ 256 ≤ q
  · rw [if_pos (Or.inr hbig)]
    refine ⟨none, rfl, by simp, fun _ => Or.inr fun n hn => ?_⟩
    calc n * d.toNat c < q * d.toNat c := Nat.mul_lt_mul_of_pos_right (by omega) hd
      _ ≤ P := by rw [Nat.mul_comm]; omega
  rw [if_neg (by omega)]
  have vq : (U256.ofNat c q).toNat c = q := U256.toNat_ofNat_of_lt c (by omega)
  simp only [er, ok_bind, (C20_u256_cmp c _ _).2.2.1, U256.toNat_ZERO, vr, C02_checked, vq, U256.toNat_ONE]
  refine ⟨_, rfl, ?_⟩
  have least : ∀ n, P ≤ n * d.toNat c → (P % d.toNat c = 0 → q ≤ n) ∧ (P % d.toNat c ≠ 0 → q + 1 ≤ n) := by
    intro n hn
    refine ⟨fun hz => ?_, fun hz => ?_⟩
    · refine Nat.le_of_mul_le_mul_right (c := d.toNat c) ?_ hd
      rw [Nat.mul_comm q]; omega
    · refine Nat.lt_of_mul_lt_mul_right (a := d.toNat c) ?_
      rw [Nat.mul_comm q]; omega
  by_cases hz : P % d.toNat c = 0
  · simp only [hz, decide_true, if_true]
    refine ⟨fun q' e => ?_, by simp⟩
    injection e with e
    subst e
    rw [vq]
    exact ⟨by rw [Nat.mul_comm]; omega, fun n hn => (least n hn).1 hz⟩
  · simp only [hz, decide_false, Bool.false_eq_true, if_false]
    by_cases hs : q + 1 < 2 ^ 256
    · rw [if_pos hs]
      refine ⟨fun q' e => ?_, by simp⟩
      injection e with e
      subst e
      rw [U256.toNat_ofNat_of_lt c hs]
      refine ⟨?_, fun n hn => (least n hn).2 hz⟩
      rw [Nat.add_mul, Nat.mul_comm q]; omega
    · rw [if_neg hs]
      refine ⟨by simp, fun _ => Or.inr fun n hn => ?_⟩
      by_contra hge
      have := (least n (by omega)).2 hz
      omega

example : mulDivUp dbg (U256.new dbg 10) (U256.new dbg 20) (U256.new dbg 7) = .ok (some (U256.new dbg 29))
    ∧ mulDivUp rll (U256.new rll 10) (U256.new rll 21) (U256.new rll 7) = .ok (some (U256.new rll 30))
    ∧ mulDivUp rel U256.MAX (U256.ofNat rel (2 ^ 255 + 1)) (U256.ofNat rel (2 ^ 255)) = .ok none := by decide +kernel

end Ethnum
