import Verif.Props.Float
import Mathlib.Data.Rat.Floor

/-
C36 conversion from floating point.
-/

namespace Ethnum
open FloatTy

/-! ### Fields of the pattern -/

namespace FloatTy
variable (t : FloatTy)

/-- The exponent field of `1.0`. -/
def bias : Nat := t.K - t.p + 2

theorem toNat_M : t.M.toNat = t.p - 1 := by cases t <;> decide
theorem toNat_MAN_MASK : t.MAN_MASK.toNat = 2 ^ (t.p - 1) - 1 := by cases t <;> decide
theorem toNat_MAN_ONE : t.MAN_ONE.toNat = 2 ^ (t.p - 1) := by cases t <;> decide
theorem toNat_EXP_MASK : t.EXP_MASK.toNat = 2 ^ (t.bits - t.p) - 1 := by cases t <;> decide
theorem toNat_EXP_OFFSET : t.EXP_OFFSET.toNat = t.bias := by cases t <;> decide
theorem toNat_ABS_MASK : t.ABS_MASK.toNat = 2 ^ (t.bits - 1) - 1 := by cases t <;> decide

theorem exponent_field (x : t.Val) : ((x >>> t.M.toNat) &&& t.EXP_MASK).toNat = t.mag x / 2 ^ (t.p - 1) := by
  rw [BitVec.toNat_and, BitVec.toNat_ushiftRight, toNat_M, toNat_EXP_MASK, Nat.shiftRight_eq_div_pow,
    Nat.and_two_pow_sub_one_eq_mod]
  unfold mag
  cases t <;> simp only [bits, p] <;> omega

theorem mantissa_field (x : t.Val) :
    ((x &&& t.MAN_MASK) ||| t.MAN_ONE).toNat = t.mag x % 2 ^ (t.p - 1) + 2 ^ (t.p - 1) := by
  rw [BitVec.toNat_or, BitVec.toNat_and, toNat_MAN_MASK, toNat_MAN_ONE, Nat.and_two_pow_sub_one_eq_mod,
    Nat.or_comm]
  have h := Nat.two_pow_add_eq_or_of_lt (i := t.p - 1) (Nat.mod_lt x.toNat (Nat.two_pow_pos (t.p - 1))) 1
  rw [Nat.mul_one] at h
  rw [← h]
  unfold mag
  cases t <;> simp only [bits, p] <;> omega

theorem one_eq : t.one = t.make false (t.bias * 2 ^ (t.p - 1)) := rfl

theorem bias_lt : t.bias * 2 ^ (t.p - 1) < t.infBits := by cases t <;> decide

theorem ge_one_iff (x : t.Val) : t.ge x t.one = true ↔
    t.neg x = false ∧ t.bias * 2 ^ (t.p - 1) ≤ t.mag x ∧ t.mag x ≤ t.infBits := by
  have hb := bias_lt t
  have hi := infBits_lt t
  have hp : 0 < t.bias * 2 ^ (t.p - 1) := by cases t <;> decide
  have h1 : t.mag t.one = t.bias * 2 ^ (t.p - 1) := by rw [one_eq]; exact mag_make t _ (by omega)
  have h2 : t.neg t.one = false := by rw [one_eq]; exact neg_make t _ (by omega)
  unfold ge isNaN key
  rw [h1, h2]
  simp only [Bool.and_eq_true, Bool.not_eq_true', decide_eq_false_iff_not, decide_eq_true_eq, Bool.false_eq_true, if_false]
  cases t.neg x
  · simp only [Bool.false_eq_true, if_false, true_and]; omega
  · simp only [if_true, Bool.true_eq_false, false_and, iff_false]; omega

/-- A magnitude of at least one, as mantissa times a power of two. -/
theorem magUnits_big {b : Nat} (h : t.bias * 2 ^ (t.p - 1) ≤ b) :
    t.bias ≤ b / 2 ^ (t.p - 1) ∧
    magUnits t.p b = (b % 2 ^ (t.p - 1) + 2 ^ (t.p - 1)) * 2 ^ (b / 2 ^ (t.p - 1) - 1) := by
  have h1 : t.bias ≤ b / 2 ^ (t.p - 1) := (Nat.le_div_iff_mul_le (Nat.two_pow_pos _)).2 h
  have h2 : 0 < t.bias := by cases t <;> decide
  refine ⟨h1, ?_⟩
  unfold magUnits
  rw [if_neg (by omega)]

theorem K_eq : t.K = t.bias + t.p - 2 := by cases t <;> decide

/-- The integral part of a magnitude below one is zero. -/
theorem units_small {b : Nat} (h : b < t.bias * 2 ^ (t.p - 1)) : magUnits t.p b / 2 ^ t.K = 0 := by
  apply Nat.div_eq_of_lt
  have : magUnits t.p (t.bias * 2 ^ (t.p - 1)) = 2 ^ t.K := by cases t <;> decide +kernel
  rw [← this]
  exact magUnits_lt (two_le_p t) h

theorem units_mid {b : Nat} (h : t.bias * 2 ^ (t.p - 1) ≤ b) (he : b / 2 ^ (t.p - 1) - t.bias ≤ t.p - 1) :
    magUnits t.p b / 2 ^ t.K =
      (b % 2 ^ (t.p - 1) + 2 ^ (t.p - 1)) / 2 ^ (t.p - 1 - (b / 2 ^ (t.p - 1) - t.bias)) := by
  obtain ⟨h1, h2⟩ := magUnits_big t h
  have hp := two_le_p t
  have hb : 0 < t.bias := by cases t <;> decide
  rw [h2, show t.K = (t.p - 1 - (b / 2 ^ (t.p - 1) - t.bias)) + (b / 2 ^ (t.p - 1) - 1) by rw [K_eq]; omega, pow_add,
    Nat.mul_div_mul_right _ _ (Nat.two_pow_pos _)]

theorem units_high {b : Nat} (h : t.bias * 2 ^ (t.p - 1) ≤ b) (he : t.p - 1 < b / 2 ^ (t.p - 1) - t.bias) :
    magUnits t.p b / 2 ^ t.K =
      (b % 2 ^ (t.p - 1) + 2 ^ (t.p - 1)) * 2 ^ (b / 2 ^ (t.p - 1) - t.bias - (t.p - 1)) := by
  obtain ⟨h1, h2⟩ := magUnits_big t h
  have hp := two_le_p t
  have hb : 0 < t.bias := by cases t <;> decide
  rw [h2, show b / 2 ^ (t.p - 1) - 1 = (b / 2 ^ (t.p - 1) - t.bias - (t.p - 1)) + t.K by rw [K_eq]; omega, pow_add,
    ← Nat.mul_assoc, Nat.mul_div_cancel _ (Nat.two_pow_pos _)]

theorem truncate_val (x : t.Val) : truncate (t.val x) =
    if t.neg x then -((magUnits t.p (t.mag x) / 2 ^ t.K : ℕ) : ℤ) else (magUnits t.p (t.mag x) / 2 ^ t.K : ℕ) := by
  have hfl : ⌊(magUnits t.p (t.mag x) : ℚ) / 2 ^ t.K⌋ = (magUnits t.p (t.mag x) / 2 ^ t.K : ℕ) := by
    have h := Rat.floor_intCast_div_natCast (magUnits t.p (t.mag x)) (2 ^ t.K)
    push_cast at h ⊢
    exact h
  have h0 : (0 : ℚ) ≤ (magUnits t.p (t.mag x) : ℚ) / 2 ^ t.K := by positivity
  unfold truncate
  rw [val_eq]
  cases t.neg x
  · simp only [Bool.false_eq_true, if_false]
    rw [if_pos h0, hfl]
  · simp only [if_true]
    rcases h0.lt_or_eq with h | h
    · rw [if_neg (by linarith), Int.ceil_neg, hfl]
    · rw [← h] at hfl ⊢
      rw [if_pos (by simp)]
      simp at hfl ⊢
      exact hfl.symm

theorem prim_toInt (c : Cfg) (b : BitVec t.bits) : t.prim.toInt (t.toPrim c b) = b.toNat := by
  cases t <;> rfl

/-- Patterns whose exponent fits: the shifts stay in range. -/
theorem exponent_ok (c : Cfg) (x : t.Val) (h : t.bias * 2 ^ (t.p - 1) ≤ t.mag x) :
    subC c ((x >>> t.M.toNat) &&& t.EXP_MASK) t.EXP_OFFSET
      = .ok (BitVec.ofNat t.bits (t.mag x / 2 ^ (t.p - 1) - t.bias)) := by
  have h1 := (magUnits_big t h).1
  rw [subC_ok c (by rw [exponent_field, toNat_EXP_OFFSET]; exact h1)]
  congr 1
  apply BitVec.eq_of_toNat_eq
  have hm := mag_lt t x
  rw [BitVec.toNat_sub_of_le (by rw [BitVec.le_def, exponent_field, toNat_EXP_OFFSET]; exact h1), exponent_field,
    toNat_EXP_OFFSET, BitVec.toNat_ofNat, Nat.mod_eq_of_lt]
  cases t <;> simp only [bits, p] at hm ⊢ <;> omega

theorem exponent_lt (x : t.Val) : t.mag x / 2 ^ (t.p - 1) - t.bias < 2 ^ t.bits := by
  have hm := mag_lt t x
  cases t <;> simp only [bits, p] at hm ⊢ <;> omega

end FloatTy

/-- The value of `x` rounded towards zero, as a magnitude. -/
abbrev FloatTy.integral (t : FloatTy) (x : t.Val) : Nat := magUnits t.p (t.mag x) / 2 ^ t.K

theorem U256.of_float_eq (c : Cfg) (t : FloatTy) (x : t.Val) : U256.of_float c t x = .ok (
    if t.mag x ≤ t.infBits ∧ t.neg x = false then
      (if t.mag x / 2 ^ (t.p - 1) - t.bias < 256 then U256.ofNat c (t.integral x) else U256.MAX)
    else U256.ZERO) := by
  unfold U256.of_float
  by_cases hge : t.ge x t.one = true
  · have h := (ge_one_iff t x).1 hge
    have hp := two_le_p t
    have hm := mag_lt t x
    have hmant := mantissa_field t x
    have hlt : t.mag x % 2 ^ (t.p - 1) < 2 ^ (t.p - 1) := Nat.mod_lt _ (Nat.two_pow_pos _)
    rw [if_pos hge]
    dsimp only
    rw [exponent_ok t c x h.2.1, ok_bind]
    have hcond : t.mag x ≤ t.infBits ∧ t.neg x = false := ⟨h.2.2, h.1⟩
    rw [if_pos hcond, toNat_M, BitVec.toNat_ofNat, Nat.mod_eq_of_lt (exponent_lt t x)]
    generalize hb : t.mag x = b at *
    generalize hx : (x &&& t.MAN_MASK) ||| t.MAN_ONE = man at *
    clear hcond
    by_cases h1 : b / 2 ^ (t.p - 1) - t.bias ≤ t.p - 1
    · have h256 : b / 2 ^ (t.p - 1) - t.bias < 256 := by cases t <;> simp only [p] at h1 ⊢ <;> omega
      have hsub : (BitVec.ofNat t.bits (b / 2 ^ (t.p - 1) - t.bias)).toNat = b / 2 ^ (t.p - 1) - t.bias := by
        rw [BitVec.toNat_ofNat, Nat.mod_eq_of_lt]
        cases t <;> simp only [bits] <;> omega
      have hshr : (t.M - BitVec.ofNat t.bits (b / 2 ^ (t.p - 1) - t.bias)).toNat = t.p - 1 - (b / 2 ^ (t.p - 1) - t.bias) := by
        rw [BitVec.toNat_sub_of_le (by rw [BitVec.le_def, hsub, toNat_M]; exact h1), hsub, toNat_M]
      have hpb : t.p - 1 < t.bits := by cases t <;> decide
      rw [if_pos h1, if_pos h256, subC_ok c (by rw [hsub, toNat_M]; exact h1), ok_bind]
      unfold FloatTy.shr
      rw [hshr, show decide (t.bits ≤ t.p - 1 - (b / 2 ^ (t.p - 1) - t.bias)) = false from decide_eq_false (by omega),
        Bool.and_false, if_neg (by simp), ok_bind, Nat.mod_eq_of_lt (by omega), pure_eq_ok]
      congr 1
      unfold U256.from_prim
      rw [U256.from_prim_eq c t.prim _ (by rw [prim_toInt]; omega), prim_toInt, U256.ofInt_natCast]
      congr 1
      rw [BitVec.toNat_ushiftRight, Nat.shiftRight_eq_div_pow, hmant]
      unfold FloatTy.integral
      rw [hb, units_mid t h.2.1 h1]
    · rw [if_neg h1]
      by_cases h256 : b / 2 ^ (t.p - 1) - t.bias < 256
      · have hsub : (BitVec.ofNat t.bits (b / 2 ^ (t.p - 1) - t.bias)).toNat = b / 2 ^ (t.p - 1) - t.bias := by
          rw [BitVec.toNat_ofNat, Nat.mod_eq_of_lt]
          cases t <;> simp only [bits] <;> omega
        have hexp : (BitVec.ofNat t.bits (b / 2 ^ (t.p - 1) - t.bias) - t.M).toNat
            = b / 2 ^ (t.p - 1) - t.bias - (t.p - 1) := by
          rw [BitVec.toNat_sub_of_le (by rw [BitVec.le_def, hsub, toNat_M]; omega), hsub, toNat_M]
        rw [if_pos h256, if_pos h256, subC_ok c (by rw [hsub, toNat_M]; omega), ok_bind]
        have hval : (ShiftBy.prim t.prim (t.toPrim c (BitVec.ofNat t.bits (b / 2 ^ (t.p - 1) - t.bias) - t.M))).value
            = ((b / 2 ^ (t.p - 1) - t.bias - (t.p - 1) : ℕ) : ℤ) := by
          unfold ShiftBy.value
          dsimp only
          rw [prim_toInt, hexp]
        rw [(C12_in_range c _ (I256.ZERO) _ (by rw [hval]; omega) (by rw [hval]; omega)).1, hval, Int.toNat_natCast]
        congr 1
        unfold U256.from_prim
        rw [U256.from_prim_eq c t.prim _ (by rw [prim_toInt]; omega), prim_toInt, U256.ofInt_natCast,
          U256.toNat_ofNat_of_lt c (lt_of_lt_of_le man.isLt (by cases t <;> decide)), hmant]
        unfold FloatTy.integral
        rw [hb, units_high t h.2.1 (by omega)]
      · rw [if_neg h256, if_neg h256, pure_eq_ok]
  · rw [if_neg hge, pure_eq_ok]
    congr 1
    have hn : ¬ _ := fun h => hge ((ge_one_iff t x).2 h)
    by_cases hc : t.mag x ≤ t.infBits ∧ t.neg x = false
    · have hs : t.mag x < t.bias * 2 ^ (t.p - 1) := by
        by_contra h; exact hn ⟨hc.2, by omega, hc.1⟩
      rw [if_pos hc, if_pos]
      · unfold FloatTy.integral
        rw [units_small t hs]
        apply U256.toNat_inj c
        rw [U256.toNat_ofNat_of_lt c (by norm_num)]
        cases c with | mk a b d e => cases a <;> rfl
      · have : t.mag x / 2 ^ (t.p - 1) < t.bias := (Nat.div_lt_iff_lt_mul (Nat.two_pow_pos _)).2 hs
        omega
    · rw [if_neg hc]

/-- With an exponent below 256 the magnitude fits; from 256 on it does not. -/
theorem FloatTy.integral_lt (t : FloatTy) (x : t.Val) (k : Nat) (hk : t.p ≤ k) :
    t.integral x < 2 ^ k ↔ t.mag x / 2 ^ (t.p - 1) - t.bias < k := by
  have hp := two_le_p t
  have hlt : t.mag x % 2 ^ (t.p - 1) < 2 ^ (t.p - 1) := Nat.mod_lt _ (Nat.two_pow_pos _)
  unfold FloatTy.integral
  by_cases hs : t.mag x < t.bias * 2 ^ (t.p - 1)
  · rw [units_small t hs]
    have : t.mag x / 2 ^ (t.p - 1) < t.bias := (Nat.div_lt_iff_lt_mul (Nat.two_pow_pos _)).2 hs
    have := Nat.two_pow_pos k
    constructor <;> intro <;> omega
  · have h := Nat.le_of_not_lt hs
    have hpp := two_pow_pred hp
    by_cases h1 : t.mag x / 2 ^ (t.p - 1) - t.bias ≤ t.p - 1
    · rw [units_mid t h h1]
      have : 2 ^ t.p ≤ 2 ^ k := Nat.pow_le_pow_right (by omega) hk
      have h2 := Nat.div_le_self (t.mag x % 2 ^ (t.p - 1) + 2 ^ (t.p - 1)) (2 ^ (t.p - 1 - (t.mag x / 2 ^ (t.p - 1) - t.bias)))
      constructor <;> intro <;> omega
    · rw [units_high t h (by omega)]
      generalize t.mag x / 2 ^ (t.p - 1) - t.bias = e at *
      constructor
      · intro h3
        by_contra hc
        have : 2 ^ k ≤ (t.mag x % 2 ^ (t.p - 1) + 2 ^ (t.p - 1)) * 2 ^ (e - (t.p - 1)) :=
          calc 2 ^ k ≤ 2 ^ e := Nat.pow_le_pow_right (by omega) (by omega)
            _ = 2 ^ (t.p - 1) * 2 ^ (e - (t.p - 1)) := by rw [← pow_add]; congr 1; omega
            _ ≤ _ := Nat.mul_le_mul_right _ (by omega)
        omega
      · intro h3
        calc (t.mag x % 2 ^ (t.p - 1) + 2 ^ (t.p - 1)) * 2 ^ (e - (t.p - 1))
            < 2 ^ t.p * 2 ^ (e - (t.p - 1)) := Nat.mul_lt_mul_of_pos_right (by omega) (Nat.two_pow_pos _)
          _ = 2 ^ (e + 1) := by rw [← pow_add]; congr 1; omega
          _ ≤ 2 ^ k := Nat.pow_le_pow_right (by omega) (by omega)

/-! ### C36 -/

/-- C36: converting a finite float to `U256` rounds towards zero and saturates. (For infinities see
`C36_u256_special` and `C36_f32_infinity`.) -/
theorem C36_u256_partial (c : Cfg) (t : FloatTy) (x : t.Val) (h : t.isFinite x = true) :
    ∃ v, U256.of_float c t x = .ok v ∧ (v.toNat c : ℤ) = saturate 0 (2 ^ 256 - 1) (truncate (t.val x)) := by
  refine ⟨_, U256.of_float_eq c t x, ?_⟩
  have hf := (isFinite_iff t x).1 h
  have hi := FloatTy.integral_lt t x 256 (by cases t <;> decide)
  rw [truncate_val]
  unfold saturate
  cases t.neg x
  · rw [if_pos ⟨hf.le, rfl⟩]
    simp only [Bool.false_eq_true, if_false]
    unfold FloatTy.integral at hi ⊢
    generalize magUnits t.p (t.mag x) / 2 ^ t.K = n at hi ⊢
    by_cases h2 : t.mag x / 2 ^ (t.p - 1) - t.bias < 256
    · rw [if_pos h2, U256.toNat_ofNat_of_lt c (hi.2 h2)]
      have := hi.2 h2
      omega
    · rw [if_neg h2, U256.toNat_MAX]
      have : ¬ _ := fun h => h2 (hi.1 h)
      omega
  · rw [if_neg (by simp), U256.toNat_ZERO]
    simp only [if_true]
    generalize magUnits t.p (t.mag x) / 2 ^ t.K = n
    omega

example : U256.of_float dbg .f64 (f64.ofInt (2 ^ 200 + 2 ^ 170)) = .ok (U256.ofNat dbg (2 ^ 200 + 2 ^ 170))
    ∧ U256.of_float rel .f64 (f64.make false 0x4004000000000000) = .ok (U256.ofNat rel 2)
    ∧ f64.isFinite (f64.make false 0x4004000000000000) = true
    ∧ U256.of_float rel .f32 (f32.ofInt (-7)) = .ok (U256.ZERO) := by decide +kernel

/-- C36: NaN gives zero; an infinite `f64` saturates, as does negative infinity. -/
theorem C36_u256_special (c : Cfg) (t : FloatTy) (x : t.Val) :
    (t.isNaN x = true → ∃ v, U256.of_float c t x = .ok v ∧ v.toNat c = 0)
    ∧ (∃ v, U256.of_float c .f64 f64.inf = .ok v ∧ v.toNat c = 2 ^ 256 - 1)
    ∧ (∃ v, U256.of_float c t (t.make true t.infBits) = .ok v ∧ v.toNat c = 0) := by
  refine ⟨fun h => ⟨_, U256.of_float_eq c t x, ?_⟩, ⟨_, U256.of_float_eq c .f64 _, ?_⟩, ⟨_, U256.of_float_eq c t _, ?_⟩⟩
  · unfold FloatTy.isNaN at h
    rw [decide_eq_true_eq] at h
    rw [if_neg (by omega), U256.toNat_ZERO]
  · rw [if_pos (by decide), if_neg (by decide), U256.toNat_MAX]
  · rw [neg_make t true (infBits_lt t), if_neg (by simp), U256.toNat_ZERO]

example : f32.isNaN f32.nan = true ∧ U256.of_float dbg .f32 f32.nan = .ok U256.ZERO := by decide +kernel

/-! ### Signed -/

/-- `f32::from_bits(bits & ABS_MASK)`: the magnitude. -/
theorem FloatTy.abs_fields (t : FloatTy) (x : t.Val) : t.mag (x &&& t.ABS_MASK) = t.mag x ∧ t.neg (x &&& t.ABS_MASK) = false := by
  unfold FloatTy.mag FloatTy.neg
  rw [BitVec.toNat_and, toNat_ABS_MASK, Nat.and_two_pow_sub_one_eq_mod, Nat.mod_mod]
  exact ⟨rfl, decide_eq_false (Nat.not_le.2 (Nat.mod_lt _ (Nat.two_pow_pos _)))⟩

/-- `-(sign bit, shifted, minus one)`: `1` for a clear sign bit, `-1` for a set one. -/
theorem FloatTy.sign_ok (c : Cfg) (t : FloatTy) (x : t.Val) :
    negC c (((x &&& t.SIG_MASK) >>> (t.bits - 2)).setWidth 128 - 1#128)
      = .ok (if t.neg x then -1#128 else 1#128) := by
  have h : ((x &&& t.SIG_MASK) >>> (t.bits - 2)).setWidth 128 = if t.neg x then 2#128 else 0#128 := by
    have hx : x = t.make (t.neg x) (t.mag x) := (make_neg_mag t x).symm
    have hsig : (x &&& t.SIG_MASK).toNat = if t.neg x then 2 ^ (t.bits - 1) else 0 := by
      have e : t.SIG_MASK = (1#t.bits) <<< (t.bits - 1) := by cases t <;> decide
      have hm : x &&& t.SIG_MASK = x - (x &&& t.ABS_MASK) := by
        have h1 : x = (x &&& t.ABS_MASK) + (x &&& t.SIG_MASK) := by
          have h2 : (x &&& t.ABS_MASK) + (x &&& t.SIG_MASK) = (x &&& t.ABS_MASK) ||| (x &&& t.SIG_MASK) := by
            apply BitVec.add_eq_or_of_and_eq_zero
            unfold FloatTy.SIG_MASK
            ext i hi
            simp only [BitVec.getElem_and, BitVec.getElem_not, BitVec.getElem_zero]
            cases x[i] <;> cases t.ABS_MASK[i] <;> rfl
          rw [h2]
          unfold FloatTy.SIG_MASK
          ext i hi
          simp only [BitVec.getElem_and, BitVec.getElem_not, BitVec.getElem_or]
          cases x[i] <;> cases t.ABS_MASK[i] <;> rfl
        exact BitVec.eq_sub_iff_add_eq.2 (by rw [BitVec.add_comm]; exact h1.symm)
      have hle : (x &&& t.ABS_MASK).toNat = t.mag x := by
        rw [BitVec.toNat_and, toNat_ABS_MASK, Nat.and_two_pow_sub_one_eq_mod]; rfl
      have hmx : t.mag x ≤ x.toNat := Nat.mod_le _ _
      rw [hm, BitVec.toNat_sub_of_le (by rw [BitVec.le_def, hle]; exact hmx), hle]
      have hlt := x.isLt
      unfold FloatTy.neg FloatTy.mag
      by_cases hc : 2 ^ (t.bits - 1) ≤ x.toNat
      · rw [decide_eq_true hc, if_pos rfl]
        cases t <;> simp only [bits] at hc hlt ⊢ <;> omega
      · rw [decide_eq_false hc, if_neg (by simp), Nat.mod_eq_of_lt (by omega), Nat.sub_self]
    apply BitVec.eq_of_toNat_eq
    rw [BitVec.toNat_setWidth, BitVec.toNat_ushiftRight, hsig, Nat.shiftRight_eq_div_pow]
    cases t.neg x <;> cases t <;> decide
  rw [h]
  cases t.neg x <;> cases c with | mk a b d e => cases d <;> rfl

theorem I256.of_float_eq (c : Cfg) (t : FloatTy) (x : t.Val) : I256.of_float c t x = .ok (
    if t.mag x ≤ t.infBits then
      (if t.mag x / 2 ^ (t.p - 1) - t.bias < 255 then
        I256.ofInt c (if t.neg x then -(t.integral x : ℤ) else t.integral x)
      else if t.neg x then I256.MIN c else I256.MAX c)
    else I256.ZERO) := by
  unfold I256.of_float
  dsimp only
  rw [FloatTy.sign_ok, ok_bind]
  have habs := FloatTy.abs_fields t x
  have hsint : (if t.neg x then -1#128 else 1#128).toInt = if t.neg x then -1 else 1 := by cases t.neg x <;> decide
  generalize hy : x &&& t.ABS_MASK = y at *
  rw [← habs.1]
  have hint : t.integral x = t.integral y := by unfold FloatTy.integral; rw [habs.1]
  rw [hint]
  -- the product with the sign
  have hmul : ∀ n : ℕ, n < 2 ^ 255 → I256.withPrim c I256.mul (I256.ofInt c n) (if t.neg x then -1#128 else 1#128)
      = .ok (I256.ofInt c (if t.neg x then -(n : ℤ) else n)) := by
    intro n hn
    have hin : InI256 (n : ℤ) := by unfold InI256; constructor <;> omega
    rw [(C25_prim c (fun _ _ _ => .ok I256.ZERO) I256.mul U256.ZERO (I256.ofInt c n) _).2.2.1, I256.mul_eq,
      I256.toInt_ofInt_of_in c hin, hsint]
    rw [I256.toInt_ofInt_of_in c (by unfold InI256; split <;> constructor <;> omega)]
    cases t.neg x
    · simp only [Bool.false_eq_true, if_false, mul_one]
      rw [if_neg (by simp [hin])]
    · simp only [if_true, mul_neg, mul_one]
      rw [if_neg]
      intro h; apply h.2; unfold InI256; constructor <;> omega
  by_cases hge : t.ge y t.one = true
  · have h := (ge_one_iff t y).1 hge
    have hp := two_le_p t
    have hm := mag_lt t y
    have hmant := mantissa_field t y
    have hlt : t.mag y % 2 ^ (t.p - 1) < 2 ^ (t.p - 1) := Nat.mod_lt _ (Nat.two_pow_pos _)
    have hil := FloatTy.integral_lt t y 255 (by cases t <;> decide)
    rw [if_pos hge, exponent_ok t c y h.2.1, ok_bind]
    have hcond : t.mag y ≤ t.infBits := h.2.2
    rw [if_pos hcond, toNat_M, BitVec.toNat_ofNat, Nat.mod_eq_of_lt (exponent_lt t y)]
    have hunf : t.integral y = magUnits t.p (t.mag y) / 2 ^ t.K := rfl
    generalize hb : t.mag y = b at *
    generalize hx : (y &&& t.MAN_MASK) ||| t.MAN_ONE = man at *
    clear hcond
    by_cases h1 : b / 2 ^ (t.p - 1) - t.bias ≤ t.p - 1
    · have h256 : b / 2 ^ (t.p - 1) - t.bias < 255 := by cases t <;> simp only [p] at h1 ⊢ <;> omega
      have hsub : (BitVec.ofNat t.bits (b / 2 ^ (t.p - 1) - t.bias)).toNat = b / 2 ^ (t.p - 1) - t.bias := by
        rw [BitVec.toNat_ofNat, Nat.mod_eq_of_lt]
        cases t <;> simp only [bits] <;> omega
      have hshr : (t.M - BitVec.ofNat t.bits (b / 2 ^ (t.p - 1) - t.bias)).toNat = t.p - 1 - (b / 2 ^ (t.p - 1) - t.bias) := by
        rw [BitVec.toNat_sub_of_le (by rw [BitVec.le_def, hsub, toNat_M]; exact h1), hsub, toNat_M]
      have hpb : t.p - 1 < t.bits := by cases t <;> decide
      rw [if_pos h1, if_pos h256, subC_ok c (by rw [hsub, toNat_M]; exact h1), ok_bind]
      unfold FloatTy.shr
      rw [hshr, show decide (t.bits ≤ t.p - 1 - (b / 2 ^ (t.p - 1) - t.bias)) = false from decide_eq_false (by omega),
        Bool.and_false, if_neg (by simp), ok_bind, Nat.mod_eq_of_lt (by omega)]
      unfold I256.from_prim
      rw [I256.of_prim_as_eq, prim_toInt, BitVec.toNat_ushiftRight, Nat.shiftRight_eq_div_pow, hmant,
        ← units_mid t h.2.1 h1, ← hunf]
      exact hmul _ (hil.2 h256)
    · rw [if_neg h1]
      by_cases h256 : b / 2 ^ (t.p - 1) - t.bias < 255
      · have hsub : (BitVec.ofNat t.bits (b / 2 ^ (t.p - 1) - t.bias)).toNat = b / 2 ^ (t.p - 1) - t.bias := by
          rw [BitVec.toNat_ofNat, Nat.mod_eq_of_lt]
          cases t <;> simp only [bits] <;> omega
        have hexp : (BitVec.ofNat t.bits (b / 2 ^ (t.p - 1) - t.bias) - t.M).toNat
            = b / 2 ^ (t.p - 1) - t.bias - (t.p - 1) := by
          rw [BitVec.toNat_sub_of_le (by rw [BitVec.le_def, hsub, toNat_M]; omega), hsub, toNat_M]
        rw [if_pos h256, if_pos h256, subC_ok c (by rw [hsub, toNat_M]; omega), ok_bind]
        have hval : (ShiftBy.prim t.prim (t.toPrim c (BitVec.ofNat t.bits (b / 2 ^ (t.p - 1) - t.bias) - t.M))).value
            = ((b / 2 ^ (t.p - 1) - t.bias - (t.p - 1) : ℕ) : ℤ) := by
          unfold ShiftBy.value
          dsimp only
          rw [prim_toInt, hexp]
        rw [(C12_in_range c U256.ZERO _ _ (by rw [hval]; omega) (by rw [hval]; omega)).2.2.1, hval, Int.toNat_natCast,
          ok_bind]
        unfold I256.from_prim
        have hman : (man.toNat : ℤ) < 2 ^ 64 := by
          have : man.toNat < 2 ^ 64 := lt_of_lt_of_le man.isLt (by cases t <;> decide)
          exact_mod_cast this
        rw [I256.of_prim_as_eq, prim_toInt,
          I256.toInt_ofInt_of_in c (by unfold InI256; constructor <;> omega), hmant,
          show ((b % 2 ^ (t.p - 1) + 2 ^ (t.p - 1) : ℕ) : ℤ) * 2 ^ (b / 2 ^ (t.p - 1) - t.bias - (t.p - 1))
            = (((b % 2 ^ (t.p - 1) + 2 ^ (t.p - 1)) * 2 ^ (b / 2 ^ (t.p - 1) - t.bias - (t.p - 1)) : ℕ) : ℤ) by push_cast; rfl,
          ← units_high t h.2.1 (by omega), ← hunf]
        exact hmul _ (hil.2 h256)
      · rw [if_neg h256, if_neg h256, hsint]
        cases t.neg x <;> rfl
  · rw [if_neg hge, pure_eq_ok]
    congr 1
    have hn : ¬ _ := fun h => hge ((ge_one_iff t y).2 h)
    by_cases hc : t.mag y ≤ t.infBits
    · have hs : t.mag y < t.bias * 2 ^ (t.p - 1) := by
        by_contra h; exact hn ⟨habs.2, by omega, hc⟩
      rw [if_pos hc, if_pos]
      · unfold FloatTy.integral
        rw [units_small t hs]
        simp only [Nat.cast_zero, neg_zero, ite_self]
        cases c with | mk a b d e => cases a <;> rfl
      · have : t.mag y / 2 ^ (t.p - 1) < t.bias := (Nat.div_lt_iff_lt_mul (Nat.two_pow_pos _)).2 hs
        omega
    · rw [if_neg hc]

/-- C36: converting a finite float to `I256` rounds towards zero and saturates. -/
theorem C36_i256_partial (c : Cfg) (t : FloatTy) (x : t.Val) (h : t.isFinite x = true) :
    ∃ v, I256.of_float c t x = .ok v ∧ v.toInt c = saturate (-2 ^ 255) (2 ^ 255 - 1) (truncate (t.val x)) := by
  refine ⟨_, I256.of_float_eq c t x, ?_⟩
  have hf := (isFinite_iff t x).1 h
  have hi := FloatTy.integral_lt t x 255 (by cases t <;> decide)
  rw [truncate_val, if_pos hf.le]
  unfold saturate
  unfold FloatTy.integral at hi ⊢
  generalize magUnits t.p (t.mag x) / 2 ^ t.K = n at hi ⊢
  by_cases h2 : t.mag x / 2 ^ (t.p - 1) - t.bias < 255
  · have := hi.2 h2
    rw [if_pos h2, I256.toInt_ofInt_of_in c (by unfold InI256; split <;> constructor <;> omega)]
    split <;> omega
  · have : ¬ _ := fun h => h2 (hi.1 h)
    rw [if_neg h2]
    cases t.neg x
    · simp only [Bool.false_eq_true, if_false]
      rw [I256.toInt_MAX]; omega
    · simp only [if_true]
      rw [I256.toInt_MIN]; omega

example : I256.of_float dbg .f64 (f64.ofInt (-(2 ^ 200 + 2 ^ 170))) = .ok (I256.ofInt dbg (-(2 ^ 200 + 2 ^ 170)))
    ∧ I256.of_float rel .f64 (f64.make true 0x4004000000000000) = .ok (I256.ofInt rel (-2))
    ∧ f64.isFinite (f64.make true 0x4004000000000000) = true
    ∧ I256.of_float rel .f64 (f64.ofInt (2 ^ 300)) = .ok (I256.MAX rel) := by decide +kernel

/-- C36: NaN gives zero; an infinite `f64` saturates. -/
theorem C36_i256_special (c : Cfg) (t : FloatTy) (x : t.Val) :
    (t.isNaN x = true → ∃ v, I256.of_float c t x = .ok v ∧ v.toInt c = 0)
    ∧ (∃ v, I256.of_float c .f64 f64.inf = .ok v ∧ v.toInt c = 2 ^ 255 - 1)
    ∧ (∃ v, I256.of_float c .f64 (f64.make true f64.infBits) = .ok v ∧ v.toInt c = -2 ^ 255) := by
  refine ⟨fun h => ⟨_, I256.of_float_eq c t x, ?_⟩, ⟨_, I256.of_float_eq c .f64 _, ?_⟩, ⟨_, I256.of_float_eq c .f64 _, ?_⟩⟩
  · unfold FloatTy.isNaN at h
    rw [decide_eq_true_eq] at h
    rw [if_neg (by omega), I256.toInt_ZERO]
  · rw [if_pos (by decide), if_neg (by decide), if_neg (by decide), I256.toInt_MAX]
  · rw [if_pos (by decide), if_neg (by decide), if_pos (by decide), I256.toInt_MIN]

example : f64.isNaN f64.nan = true ∧ I256.of_float dbg .f64 f64.nan = .ok I256.ZERO := by decide +kernel

/-- C36, refuted in part: an infinite `f32` does not saturate, because its exponent field reads 128, which is within
the range of the type: `f32::INFINITY.as_u256()` is `2^128`, and `as_i256` gives `±2^128`. -/
theorem C36_f32_infinity (c : Cfg) :
    (∃ v, U256.of_float c .f32 f32.inf = .ok v ∧ v.toNat c = 2 ^ 128)
    ∧ (∃ v, I256.of_float c .f32 f32.inf = .ok v ∧ v.toInt c = 2 ^ 128)
    ∧ (∃ v, I256.of_float c .f32 (f32.make true f32.infBits) = .ok v ∧ v.toInt c = -2 ^ 128) := by
  refine ⟨⟨_, U256.of_float_eq c .f32 _, ?_⟩, ⟨_, I256.of_float_eq c .f32 _, ?_⟩, ⟨_, I256.of_float_eq c .f32 _, ?_⟩⟩
  · rw [if_pos (by decide), if_pos (by decide), show f32.integral f32.inf = 2 ^ 128 by decide +kernel,
      U256.toNat_ofNat_of_lt c (by norm_num)]
  · rw [if_pos (by decide), if_pos (by decide), if_neg (by decide), show f32.integral f32.inf = 2 ^ 128 by decide +kernel,
      I256.toInt_ofInt_of_in c (by unfold InI256; norm_num)]
    norm_num
  · rw [if_pos (by decide), if_pos (by decide), if_pos (by decide),
      show f32.integral (f32.make true f32.infBits) = 2 ^ 128 by decide +kernel,
      I256.toInt_ofInt_of_in c (by unfold InI256; norm_num)]
    norm_num

/-- C36: no conversion from a float panics, in any build. -/
theorem C36_total (c : Cfg) (t : FloatTy) (x : t.Val) :
    (∃ v, U256.of_float c t x = .ok v) ∧ (∃ v, I256.of_float c t x = .ok v) :=
  ⟨⟨_, U256.of_float_eq c t x⟩, ⟨_, I256.of_float_eq c t x⟩⟩

example : U256.of_float rel .f64 (FloatTy.f64.ofInt (-5)) = .ok U256.ZERO
    ∧ I256.of_float dbg .f64 (FloatTy.f64.ofInt (-5)) = .ok (I256.ofInt dbg (-5)) := by decide +kernel

/-- C35 and C36: converting to `f64` and back is the identity on values that are `f64`s (53 significant bits). -/
theorem C36_round_trip (c : Cfg) (x : U256) (y : f64.Val) (hy : f64.isFinite y = true) (hv : f64.val y = x.toNat c) :
    U256.of_float c .f64 (x.as_f64 c) = .ok x := by
  have he := (C35_exact c x I256.ZERO).2.1 y hy hv
  have hf := (C35_u256_as_f64_partial c x).1.1
  obtain ⟨v, h1, h2⟩ := C36_u256_partial c .f64 _ hf
  rw [h1]
  congr 1
  apply U256.toNat_inj c
  rw [he] at h2
  have hx := U256.toNat_lt c x
  have ht : truncate (x.toNat c : ℚ) = x.toNat c := by
    unfold truncate
    rw [if_pos (Nat.cast_nonneg _), Int.floor_natCast]
  rw [ht] at h2
  unfold saturate at h2
  omega

example : U256.of_float dbg .f64 ((U256.ofNat dbg (2 ^ 255 + 2 ^ 203)).as_f64 dbg) = .ok (U256.ofNat dbg (2 ^ 255 + 2 ^ 203))
    ∧ f64.isFinite (f64.ofInt (2 ^ 255 + 2 ^ 203)) = true := by decide +kernel

end Ethnum
