import Verif.Proofs.Words
import Verif.Proofs.AddSub
import Verif.Model.Convert
import Mathlib.Tactic.Linarith

/-
Conversions between the wide integers and primitive integers.
-/

namespace Ethnum

theorem PtrWidth.bits_cases (p : PtrWidth) : p.bits = 16 ∨ p.bits = 32 ∨ p.bits = 64 := by
  cases p <;> simp [bits]

namespace PrimTy
variable {c : Cfg} (t : PrimTy)

theorem bits_pos : 0 < t.bits c := by
  have := c.ptr.bits_cases
  cases t <;> simp only [bits] <;> omega

theorem bits_le : t.bits c ≤ 128 := by
  have := c.ptr.bits_cases
  cases t <;> simp only [bits] <;> omega

theorem two_pow_bits : (2 : Int) ^ t.bits c = 2 * 2 ^ (t.bits c - 1) := by
  obtain ⟨n, hn⟩ : ∃ n, t.bits c = n + 1 := ⟨t.bits c - 1, by have := t.bits_pos (c := c); omega⟩
  rw [hn, Nat.add_sub_cancel, pow_succ, mul_comm]

theorem toNat_lt_int (x : t.Val c) : (x.toNat : Int) < 2 ^ t.bits c := by
  have := x.isLt; exact_mod_cast this

theorem toInt_eq (x : t.Val c) : t.toInt x
    = if t.signed = true ∧ 2 ^ (t.bits c - 1) ≤ (x.toNat : Int) then (x.toNat : Int) - 2 ^ t.bits c else x.toNat := by
  unfold toInt
  by_cases h : t.signed = true
  · rw [if_pos h, BitVec.toInt_eq_toNat_cond]
    have h2 := t.two_pow_bits (c := c)
    by_cases h1 : 2 * x.toNat < 2 ^ t.bits c
    · have h1' : 2 * (x.toNat : Int) < 2 ^ t.bits c := by exact_mod_cast h1
      rw [if_pos h1, if_neg (by omega)]
    · have h1' : ¬ 2 * (x.toNat : Int) < 2 ^ t.bits c := by exact_mod_cast h1
      rw [if_neg h1, if_pos ⟨h, by omega⟩]; push_cast; rfl
  · rw [if_neg h, if_neg (fun hh => h hh.1)]

theorem toInt_emod (x : t.Val c) : t.toInt x % 2 ^ t.bits c = x.toNat := by
  rw [toInt_eq]
  have h := t.toNat_lt_int x
  have h0 : (0 : Int) ≤ x.toNat := Int.natCast_nonneg _
  split
  · rw [Int.sub_emod_right, Int.emod_eq_of_lt h0 h]
  · exact Int.emod_eq_of_lt h0 h

theorem toInt_inj {x y : t.Val c} (h : t.toInt x = t.toInt y) : x = y := by
  apply BitVec.eq_of_toNat_eq
  have hx := t.toInt_emod x; have hy := t.toInt_emod y
  rw [h, hy] at hx; exact_mod_cast hx.symm

theorem toInt_ge (x : t.Val c) : minVal c t ≤ t.toInt x := by
  rw [toInt_eq]; unfold minVal
  have h0 : (0 : Int) ≤ x.toNat := Int.natCast_nonneg _
  have h2 := t.two_pow_bits (c := c)
  have hp : (0 : Int) < 2 ^ (t.bits c - 1) := by positivity
  by_cases h : t.signed = true
  · rw [if_pos h]; split <;> omega
  · rw [if_neg h, if_neg (fun hh => h hh.1)]; exact h0

theorem toInt_le (x : t.Val c) : t.toInt x ≤ maxVal c t := by
  rw [toInt_eq]; unfold maxVal
  have h0 := t.toNat_lt_int x
  have h2 := t.two_pow_bits (c := c)
  have hp : (0 : Int) < 2 ^ (t.bits c - 1) := by positivity
  by_cases h : t.signed = true
  · rw [if_pos h]; split
    · omega
    · rename_i hh
      have : ¬ (2 ^ (t.bits c - 1) ≤ (x.toNat : Int)) := fun h' => hh ⟨h, h'⟩
      omega
  · rw [if_neg h, if_neg (fun hh => h hh.1)]; omega

/-- A value of the range that has the right residue is the number denoted. -/
theorem toInt_of_emod {x : t.Val c} {z : Int} (h : (x.toNat : Int) = z % 2 ^ t.bits c)
    (h1 : minVal c t ≤ z) (h2 : z ≤ maxVal c t) : t.toInt x = z := by
  have hx := t.toInt_emod x
  rw [h] at hx
  have hd : (2 : Int) ^ t.bits c ∣ t.toInt x - z :=
    Int.dvd_of_emod_eq_zero (Int.emod_eq_emod_iff_emod_sub_eq_zero.1 hx)
  have a1 := t.toInt_ge x; have a2 := t.toInt_le x
  obtain ⟨k, hk⟩ := hd
  have hpb := t.two_pow_bits (c := c)
  have hp : (0 : Int) < 2 ^ (t.bits c - 1) := by positivity
  have hwidth : maxVal c t - minVal c t = 2 ^ t.bits c - 1 := by
    unfold maxVal minVal
    by_cases h : t.signed = true
    · rw [if_pos h, if_pos h]; omega
    · rw [if_neg h, if_neg h]; omega
  have hk0 : k = 0 := by
    have hlt : t.toInt x - z < 2 ^ t.bits c := by omega
    have hgt : -(2 ^ t.bits c) < t.toInt x - z := by omega
    rw [hk] at hlt hgt
    have hP : (0 : Int) < 2 ^ t.bits c := by positivity
    have : k < 1 := by nlinarith
    have : -1 < k := by nlinarith
    omega
  rw [hk0] at hk; omega

theorem toNat_castTo (x : t.Val c) (w : Nat) : ((t.castTo x w).toNat : Int) = t.toInt x % 2 ^ w := by
  unfold castTo toInt
  by_cases h : t.signed = true
  · rw [if_pos h, if_pos h]
    unfold BitVec.signExtend
    rw [BitVec.toNat_ofInt]
    have : (0 : Int) ≤ x.toInt % (2 ^ w : Nat) := Int.emod_nonneg _ (by positivity)
    rw [Int.toNat_of_nonneg this]; push_cast; rfl
  · rw [if_neg h, if_neg h, BitVec.toNat_setWidth]; push_cast; rfl

theorem nonneg_eq (x : t.Val c) : t.nonneg x = decide (0 ≤ t.toInt x) := rfl

theorem pow_le_128 : (2 : Int) ^ t.bits c ≤ 2 ^ 128 :=
  pow_le_pow_right₀ (by norm_num) t.bits_le
theorem pow_pred_le_127 : (2 : Int) ^ (t.bits c - 1) ≤ 2 ^ 127 :=
  pow_le_pow_right₀ (by norm_num) (by have := t.bits_le (c := c); omega)

theorem minVal_ge : -2 ^ 127 ≤ minVal c t := by
  have := t.pow_pred_le_127 (c := c)
  unfold minVal; split <;> omega
theorem maxVal_lt : maxVal c t < 2 ^ 128 := by
  have := t.pow_pred_le_127 (c := c); have := t.pow_le_128 (c := c)
  unfold maxVal; split <;> omega
theorem maxVal_nonneg : 0 ≤ maxVal c t := by
  have h1 : (0 : Int) < 2 ^ (t.bits c - 1) := by positivity
  have h2 : (0 : Int) < 2 ^ (t.bits c) := by positivity
  unfold maxVal; split <;> omega
theorem minVal_le : minVal c t ≤ 0 := by
  have h1 : (0 : Int) < 2 ^ (t.bits c - 1) := by positivity
  unfold minVal; split <;> omega

theorem toInt_MAX : t.toInt (PrimTy.MAX c t) = maxVal c t := by
  apply t.toInt_of_emod _ (Int.le_trans t.minVal_le t.maxVal_nonneg) (Int.le_refl _)
  have hb := t.bits_pos (c := c)
  have h2 := t.two_pow_bits (c := c)
  have hp : (0 : Int) < 2 ^ (t.bits c - 1) := by positivity
  unfold PrimTy.MAX maxVal
  by_cases h : t.signed = true
  · rw [if_pos h, if_pos h, BitVec.toNat_intMax, Int.emod_eq_of_lt (by omega) (by omega)]
    have : 1 ≤ 2 ^ (t.bits c - 1) := Nat.one_le_two_pow
    push_cast [Nat.cast_sub this]; rfl
  · rw [if_neg h, if_neg h, BitVec.toNat_allOnes, Int.emod_eq_of_lt (by omega) (by omega)]
    have : 1 ≤ 2 ^ (t.bits c) := Nat.one_le_two_pow
    push_cast [Nat.cast_sub this]; rfl

theorem toInt_MIN : t.toInt (PrimTy.MIN c t) = minVal c t := by
  apply t.toInt_of_emod _ (Int.le_refl _) (Int.le_trans t.minVal_le t.maxVal_nonneg)
  have hb := t.bits_pos (c := c)
  have h2 := t.two_pow_bits (c := c)
  have hp : (0 : Int) < 2 ^ (t.bits c - 1) := by positivity
  unfold PrimTy.MIN minVal
  by_cases h : t.signed = true
  · rw [if_pos h, if_pos h, BitVec.toNat_intMin_of_pos hb]
    rw [← Int.add_emod_right, Int.emod_eq_of_lt (by omega) (by omega)]
    push_cast; omega
  · rw [if_neg h, if_neg h]; simp

end PrimTy

namespace U256
variable (c : Cfg)

theorem toNat_setWidth_low (x : U256) (t : PrimTy) :
    (((x.low c).setWidth (t.bits c)).toNat : Int) = (x.toNat c : Int) % 2 ^ t.bits c := by
  rw [BitVec.toNat_setWidth, low_toNat]
  have : (2 : Nat) ^ t.bits c ∣ 2 ^ 128 := Nat.pow_dvd_pow 2 t.bits_le
  rw [Nat.mod_mod_of_dvd _ this]; push_cast; rfl

theorem toNat_as_prim (x : U256) (t : PrimTy) :
    ((x.as_prim c t).toNat : Int) = (x.toNat c : Int) % 2 ^ t.bits c := by
  unfold as_prim; rw [into_words_eq]; exact toNat_setWidth_low c x t

theorem of_prim_as_eq (t : PrimTy) (x : t.Val c) : of_prim_as c t x = ofInt c (t.toInt x) := by
  apply eq_ofInt
  unfold of_prim_as
  have h1 := t.minVal_ge (c := c); have h2 := t.maxVal_lt (c := c)
  have h3 := t.toInt_ge x; have h4 := t.toInt_le x
  have h5 := t.toNat_castTo x 128
  rw [toNat_from_words, t.nonneg_eq]
  by_cases h : 0 ≤ t.toInt x
  · rw [if_pos (decide_eq_true h), toNat_0]; omega
  · rw [if_neg (by simpa using h), show ((~~~0 : U128)).toNat = 2 ^ 128 - 1 from rfl]; omega

theorem from_prim_eq (t : PrimTy) (x : t.Val c) (h : 0 ≤ t.toInt x) :
    new c (t.castTo x 128) = ofInt c (t.toInt x) := by
  apply eq_ofInt
  have h2 := t.maxVal_lt (c := c)
  have h4 := t.toInt_le x
  have h5 := t.toNat_castTo x 128
  rw [toNat_new]; omega

theorem try_from_prim_eq (t : PrimTy) (x : t.Val c) :
    try_from_prim c t x = if 0 ≤ t.toInt x then some (ofInt c (t.toInt x)) else none := by
  unfold try_from_prim u128_try_from
  by_cases h : 0 ≤ t.toInt x
  · rw [if_pos h, if_pos h]; show some (new c _) = _; rw [from_prim_eq c t x h]
  · rw [if_neg h, if_neg h]

theorem toNat_ofInt_of_range {z : Int} (h0 : 0 ≤ z) (h1 : z < 2 ^ 256) : ((ofInt c z).toNat c : Int) = z := by
  rw [toNat_ofInt, Int.emod_eq_of_lt h0 h1]

theorem prim_try_from_some (t : PrimTy) (x : U256) (v : t.Val c) :
    prim_try_from c t x = some v ↔ t.toInt v = x.toNat c := by
  have hm := t.maxVal_lt (c := c); have hm0 := t.maxVal_nonneg (c := c); have hmn := t.minVal_le (c := c)
  unfold prim_try_from
  rw [of_prim_as_eq, t.toInt_MAX, le_eq]
  have hv := toNat_ofInt_of_range c hm0 (by omega)
  have hsw := toNat_setWidth_low c x t
  constructor
  · intro h
    split at h
    · rename_i hle
      rw [decide_eq_true_eq] at hle
      rw [← Option.some.inj h]
      exact t.toInt_of_emod hsw (by omega) (by omega)
    · exact absurd h (by simp)
  · intro h
    have h4 := t.toInt_le v
    rw [if_pos (by rw [decide_eq_true_eq]; omega)]
    congr 1
    apply t.toInt_inj
    rw [h]
    exact t.toInt_of_emod hsw (by omega) (by omega)

end U256

namespace I256
variable (c : Cfg)

theorem toNat_setWidth_low (x : I256) (t : PrimTy) :
    (((x.low c).setWidth (t.bits c)).toNat : Int) = x.toInt c % 2 ^ t.bits c := by
  have h := U256.toNat_setWidth_low c x.as_u256 t
  rw [low_as_u256, toNat_as_u256, toNat_toInt] at h
  rw [h]
  have : (2 : Int) ^ t.bits c ∣ 2 ^ 256 := pow_dvd_pow 2 (by have := t.bits_le (c := c); omega)
  rw [Int.emod_emod_of_dvd _ this]

theorem toNat_as_prim (x : I256) (t : PrimTy) :
    ((x.as_prim c t).toNat : Int) = x.toInt c % 2 ^ t.bits c := by
  unfold as_prim; rw [into_words_eq]; exact toNat_setWidth_low c x t

theorem of_prim_as_eq (t : PrimTy) (x : t.Val c) : of_prim_as c t x = ofInt c (t.toInt x) := by
  apply eq_ofInt
  unfold of_prim_as
  have h1 := t.minVal_ge (c := c); have h2 := t.maxVal_lt (c := c)
  have h3 := t.toInt_ge x; have h4 := t.toInt_le x
  have h5 := t.toNat_castTo x 128
  rw [toNat_from_words, t.nonneg_eq]
  by_cases h : 0 ≤ t.toInt x
  · rw [if_pos (decide_eq_true h), toNat_0]; omega
  · rw [if_neg (by simpa using h), show ((~~~0 : U128)).toNat = 2 ^ 128 - 1 from rfl]; omega

theorem prim_try_from_some (t : PrimTy) (x : I256) (v : t.Val c) :
    prim_try_from c t x = some v ↔ t.toInt v = x.toInt c := by
  have hm := t.maxVal_lt (c := c); have hm0 := t.maxVal_nonneg (c := c)
  have hmn := t.minVal_le (c := c); have hmn2 := t.minVal_ge (c := c)
  unfold prim_try_from
  rw [of_prim_as_eq, of_prim_as_eq, t.toInt_MAX, t.toInt_MIN, le_eq, ge_eq,
    toInt_ofInt_of_in c (by unfold InI256; omega), toInt_ofInt_of_in c (by unfold InI256; omega)]
  have hsw := toNat_setWidth_low c x t
  constructor
  · intro h
    split at h
    · rename_i hle
      rw [Bool.and_eq_true, decide_eq_true_eq, decide_eq_true_eq] at hle
      rw [← Option.some.inj h]
      exact t.toInt_of_emod hsw (by omega) (by omega)
    · exact absurd h (by simp)
  · intro h
    have h3 := t.toInt_ge v; have h4 := t.toInt_le v
    rw [if_pos (by rw [Bool.and_eq_true, decide_eq_true_eq, decide_eq_true_eq]; omega)]
    congr 1
    apply t.toInt_inj
    rw [h]
    exact t.toInt_of_emod hsw (by omega) (by omega)

end I256

theorem of_bool_toNat (c : Cfg) (b : Bool) : (U256.of_bool c b).toNat c = if b then 1 else 0 := by
  unfold U256.of_bool; rw [U256.toNat_new, toNat_ofBool128]
theorem of_bool_toInt (c : Cfg) (b : Bool) : (I256.of_bool c b).toInt c = if b then 1 else 0 := by
  unfold I256.of_bool; rw [I256.toInt_new]; cases b <;> rfl

end Ethnum
