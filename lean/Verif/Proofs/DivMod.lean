import Verif.Proofs.Knuth
import Verif.Model.Ops

/-! `udivmod4`, `idivmod4` and the division intrinsics. -/

set_option linter.unusedSimpArgs false

namespace Ethnum
namespace Intr
variable (c : Cfg)

theorem divC_ok {w : Nat} {a b : BitVec w} (h : b.toNat ≠ 0) :
    ∃ r, divC a b = .ok r ∧ r.toNat = a.toNat / b.toNat := by
  refine ⟨a / b, ?_, BitVec.toNat_udiv⟩
  unfold divC; rw [if_neg]; rintro rfl; simp at h
theorem remC_ok {w : Nat} {a b : BitVec w} (h : b.toNat ≠ 0) :
    ∃ r, remC a b = .ok r ∧ r.toNat = a.toNat % b.toNat := by
  refine ⟨a % b, ?_, BitVec.toNat_umod⟩
  unfold remC; rw [if_neg]; rintro rfl; simp at h
theorem divC_zero {w : Nat} (a : BitVec w) {b : BitVec w} (h : b.toNat = 0) :
    divC a b = .error (.panic .divByZero) := by
  unfold divC; rw [if_pos]; rfl
  rw [← BitVec.toNat_inj, h]; rfl

theorem from_words_zero (q : U128) {n : Nat} (h : q.toNat = n % 2 ^ 256) :
    U256.from_words c 0 q = U256.ofNat c n := by
  apply U256.eq_ofNat; rw [U256.toNat_from_words, ← h]; simp

theorem udivmodNarrow_eq {a b : U256} (hb : b.toNat c < 2 ^ 128) (h0 : b.toNat c ≠ 0) :
    udivmodNarrow c a b = .ok (U256.ofNat c (a.toNat c / b.toNat c), U256.ofNat c (a.toNat c % b.toNat c)) := by
  have hal := U256.toNat_lt c a
  have hbl : (b.low c).toNat = b.toNat c := by rw [U256.low_toNat, Nat.mod_eq_of_lt hb]
  have haw := U256.toNat_eq c a
  have hall := (a.low c).isLt
  have hml := Nat.mod_lt (a.toNat c) (show 0 < b.toNat c by omega)
  have hrem : ∀ r : U128, r.toNat = a.toNat c % b.toNat c →
      U256.ZERO.set_low c r = U256.ofNat c (a.toNat c % b.toNat c) := by
    intro r h
    rw [U256.set_low_eq, U256.high_ZERO]
    exact from_words_zero c r (by rw [Nat.mod_eq_of_lt (by omega)]; exact h)
  unfold udivmodNarrow
  split
  · rename_i h
    have h : (a.high c).toNat < (b.low c).toNat := BitVec.lt_def.1 h
    rw [nonZeroUnchecked_ok (by omega), ok_bind]
    obtain ⟨q, r, e, vq, vr⟩ := udiv256_by_128_to_128_spec c (u0 := a.low c) h
    rw [e, ok_bind]; clear e
    rw [hbl, ← haw] at vq vr
    simp only [pure_eq_ok]
    rw [hrem r vr, from_words_zero c q]
    rw [vq, Nat.mod_eq_of_lt]
    exact Nat.lt_of_le_of_lt (Nat.div_le_self _ _) hal
  · obtain ⟨qh, e, vqh⟩ := divC_ok (a := a.high c) (b := b.low c) (by omega)
    rw [e, ok_bind]; clear e
    obtain ⟨rh, e, vrh⟩ := remC_ok (a := a.high c) (b := b.low c) (by omega)
    rw [e, ok_bind]; clear e
    rw [nonZeroUnchecked_ok (by omega), ok_bind]
    have hrl : rh.toNat < (b.low c).toNat := by rw [vrh]; exact Nat.mod_lt _ (by omega)
    obtain ⟨q, r, e, vq, vr⟩ := udiv256_by_128_to_128_spec c (u0 := a.low c) hrl
    rw [e, ok_bind]; clear e
    have hdm := Nat.div_add_mod (a.high c).toNat (b.low c).toNat
    rw [← vqh, ← vrh, hbl] at hdm
    rw [hbl] at vq vr
    have hsplit : a.toNat c = b.toNat c * (qh.toNat * 2 ^ 128) + (rh.toNat * 2 ^ 128 + (a.low c).toNat) := by
      rw [haw, ← hdm]; ring
    have hr : r.toNat = a.toNat c % b.toNat c := by rw [vr, hsplit, Nat.mul_add_mod]
    have hq : qh.toNat * 2 ^ 128 + q.toNat = a.toNat c / b.toNat c := by
      rw [vq, hsplit, Nat.mul_add_div (by omega)]
    simp only [pure_eq_ok]
    rw [hrem r hr]
    congr 2
    apply U256.eq_ofNat
    rw [U256.toNat_from_words, hq, Nat.mod_eq_of_lt]
    exact Nat.lt_of_le_of_lt (Nat.div_le_self _ _) hal

theorem or_eq_zero {x y : U128} : x ||| y = 0 ↔ x.toNat = 0 ∧ y.toNat = 0 := by
  rw [← BitVec.toNat_inj, BitVec.toNat_or]
  show x.toNat ||| y.toNat = 0 ↔ _
  exact Nat.or_eq_zero_iff

theorem udivmod4_eq {a b : U256} (wantRem : Bool) (h0 : b.toNat c ≠ 0) :
    udivmod4 c a b wantRem = .ok (U256.ofNat c (a.toNat c / b.toNat c),
      if wantRem then some (U256.ofNat c (a.toNat c % b.toNat c)) else none) := by
  have hal := U256.toNat_lt c a; have hbl := U256.toNat_lt c b
  have hah := U256.high_toNat c a; have hbh := U256.high_toNat c b
  have hall := U256.low_toNat c a; have hbll := U256.low_toNat c b
  have hql : a.toNat c / b.toNat c < 2 ^ 256 := Nat.lt_of_le_of_lt (Nat.div_le_self _ _) hal
  have hrl : a.toNat c % b.toNat c < 2 ^ 256 := Nat.lt_of_le_of_lt (Nat.mod_le _ _) hal
  unfold udivmod4
  split
  · rename_i h
    rw [or_eq_zero] at h
    have ea : (a.low c).toNat = a.toNat c := by omega
    have eb : (b.low c).toNat = b.toNat c := by omega
    obtain ⟨q, e, vq⟩ := divC_ok (a := a.low c) (b := b.low c) (by omega)
    rw [e, ok_bind]; clear e
    rw [ea, eb] at vq
    have hq := from_words_zero c q (n := a.toNat c / b.toNat c) (by rw [vq, Nat.mod_eq_of_lt hql])
    cases wantRem
    · simp only [Bool.false_eq_true, if_false, hq, pure_eq_ok]
    · obtain ⟨r, e, vr⟩ := remC_ok (a := a.low c) (b := b.low c) (by omega)
      rw [ea, eb] at vr
      have hr := from_words_zero c r (n := a.toNat c % b.toNat c) (by rw [vr, Nat.mod_eq_of_lt hrl])
      simp only [e, ok_bind, hq, hr, if_true, pure_eq_ok]
  · rename_i h
    simp only []
    rw [U256.gt_eq]
    split
    · rename_i hlt
      rw [decide_eq_true_eq] at hlt
      rw [Nat.div_eq_of_lt hlt, Nat.mod_eq_of_lt hlt, U256.ofNat_toNat, ← U256.ZERO_eq]
      rfl
    · rename_i hge
      rw [decide_eq_true_eq] at hge
      split
      · rename_i hz
        have hz : (b.high c).toNat = 0 := by rw [hz]; rfl
        rw [udivmodNarrow_eq c (by omega) h0]; rfl
      · rename_i hz
        have hz : (b.high c).toNat ≠ 0 := by
          intro hc; apply hz; rw [← BitVec.toNat_inj, hc]; rfl
        rw [div_mod_knuth_spec c (by omega) (by omega)]; rfl

theorem udivmod4_zero {a b : U256} (wantRem : Bool) (h0 : b.toNat c = 0) :
    udivmod4 c a b wantRem = .error (.panic .divByZero) := by
  have hbh := U256.high_toNat c b; have hbll := U256.low_toNat c b
  have hh : (b.high c).toNat = 0 := by omega
  have hl : (b.low c).toNat = 0 := by omega
  unfold udivmod4
  split
  · rw [divC_zero _ hl]; rfl
  · simp only []
    rw [U256.gt_eq, h0]
    simp only [Nat.not_lt_zero, decide_false, Bool.false_eq_true, if_false]
    rw [if_pos (by rw [← BitVec.toNat_inj, hh]; rfl)]
    unfold udivmodNarrow
    rw [if_neg (by rw [BitVec.lt_def]; omega), divC_zero _ hl]; rfl

theorem udiv3_eq {a b : U256} (h : b.toNat c ≠ 0) : udiv3 c a b = .ok (U256.ofNat c (a.toNat c / b.toNat c)) := by
  unfold udiv3; rw [udivmod4_eq c _ h]; rfl
theorem udiv2_eq {a b : U256} (h : b.toNat c ≠ 0) : udiv2 c a b = .ok (U256.ofNat c (a.toNat c / b.toNat c)) := by
  unfold udiv2; rw [udivmod4_eq c _ h]; rfl
theorem urem3_eq {a b : U256} (h : b.toNat c ≠ 0) : urem3 c a b = .ok (U256.ofNat c (a.toNat c % b.toNat c)) := by
  unfold urem3; rw [udivmod4_eq c _ h]; rfl
theorem urem2_eq {a b : U256} (h : b.toNat c ≠ 0) : urem2 c a b = .ok (U256.ofNat c (a.toNat c % b.toNat c)) := by
  unfold urem2; rw [udivmod4_eq c _ h]; rfl
theorem udiv2_zero {a b : U256} (h : b.toNat c = 0) : udiv2 c a b = .error (.panic .divByZero) := by
  unfold udiv2; rw [udivmod4_zero c _ h]; rfl
theorem urem2_zero {a b : U256} (h : b.toNat c = 0) : urem2 c a b = .error (.panic .divByZero) := by
  unfold urem2; rw [udivmod4_zero c _ h]; rfl

end Intr

namespace I256
variable (c : Cfg)

theorem toNat_not (x : I256) : (not x).toNat c = 2 ^ 256 - 1 - x.toNat c := by
  have h0 := x.w0.isLt; have h1 := x.w1.isLt
  unfold toNat not
  split <;> simp only [BitVec.toNat_not] <;> omega
theorem toInt_not (x : I256) : (not x).toInt c = -1 - x.toInt c := by
  have := toNat_not c x
  have := toNat_lt c x
  unfold toInt; split <;> split <;> omega
theorem not_eq (x : I256) : not x = ofInt c (-1 - x.toInt c) := eq_ofInt_of_toInt c (toInt_not c x)

theorem bitxor_zero (x : I256) : x.bitxor (ofInt c 0) = x := by
  unfold bitxor ofInt; split <;> simp
theorem bitxor_neg_one (x : I256) : x.bitxor (ofInt c (-1)) = not x := by
  unfold bitxor not ofInt
  have : BitVec.ofInt 128 (-1) = BitVec.allOnes 128 := by decide
  split <;> simp only [this, I256.mk.injEq, show (-1 : Int) / 2 ^ 128 = -1 from rfl, BitVec.xor_allOnes, and_self]

/-- `x >> 255` -/
theorem shr_255 (x : I256) : x.shr c 255 = .ok (ofInt c (if x.toInt c < 0 then -1 else 0)) := by
  rw [shr_eq c x 255 (by simp)]
  congr 2
  have h1 := toInt_lt c x; have h2 := le_toInt c x
  have : BitVec.toNat (255 : U32) = 255 := rfl
  rw [this]
  generalize x.toInt c = z at *
  split <;> omega

/-- `(x ^ s) - s` with `s` the sign mask negates exactly when the mask is set. -/
theorem xor_sub (x : I256) (neg : Bool) :
    (x.bitxor (ofInt c (if neg then -1 else 0))).wrapping_sub c (ofInt c (if neg then -1 else 0))
      = ofInt c (if neg then -x.toInt c else x.toInt c) := by
  unfold wrapping_sub
  rw [Intr.isub3_eq]
  have e1 : (ofInt c (-1)).toInt c = -1 := toInt_ofInt_of_in c (by unfold InI256; omega)
  have e0 : (ofInt c 0).toInt c = 0 := toInt_ofInt_of_in c (by unfold InI256; omega)
  cases neg
  · simp only [Bool.false_eq_true, if_false, bitxor_zero, e0]
    simp
  · simp only [if_true, bitxor_neg_one, e1, toInt_not]
    congr 1; omega

theorem toNat_ofInt_natAbs (z : Int) (h : z.natAbs ≤ 2 ^ 255) :
    (ofInt c (z.natAbs : Int)).toNat c = z.natAbs := by
  have := toNat_ofInt c (z.natAbs : Int)
  omega

end I256

namespace Intr
variable (c : Cfg)

theorem mask_eq (x : I256) : (if x.toInt c < 0 then (-1 : Int) else 0)
    = if decide (x.toInt c < 0) then -1 else 0 := by simp

theorem natAbs_mask (z : Int) : (if decide (z < 0) then -z else z) = (z.natAbs : Int) := by
  by_cases h : z < 0 <;> simp only [h, decide_true, decide_false, if_true, Bool.false_eq_true, if_false] <;> omega

theorem xor_mask (p q : Bool) : (I256.ofInt c (if p then -1 else 0)).bitxor (I256.ofInt c (if q then -1 else 0))
    = I256.ofInt c (if p ^^ q then -1 else 0) := by
  have hm : I256.not (I256.ofInt c (-1)) = I256.ofInt c 0 := by
    rw [I256.not_eq c, I256.toInt_ofInt_of_in c (by unfold InI256; omega)]; rfl
  have h0 : I256.not (I256.ofInt c 0) = I256.ofInt c (-1) := by
    rw [I256.not_eq c, I256.toInt_ofInt_of_in c (by unfold InI256; omega)]; rfl
  cases p <;> cases q <;> simp [I256.bitxor_zero, I256.bitxor_neg_one, hm, h0]

theorem ofNat_as_i256 (n : Nat) : (U256.ofNat c n).as_i256 = I256.ofInt c n := I256.as_i256_ofNat c n

theorem toInt_ofInt_neg_congr (z : Int) (p : Bool) :
    I256.ofInt c (if p then -(I256.ofInt c z).toInt c else (I256.ofInt c z).toInt c)
      = I256.ofInt c (if p then -z else z) := by
  apply I256.ofInt_congr
  have := I256.toInt_ofInt c z
  split <;> omega

theorem tdiv_sign (a b : Int) : (if (decide (b < 0) ^^ decide (a < 0)) then -((a.natAbs / b.natAbs : Nat) : Int)
    else ((a.natAbs / b.natAbs : Nat) : Int)) = Int.tdiv a b := by
  rw [Int.ofNat_tdiv]
  by_cases ha : a < 0 <;> by_cases hb : b < 0
  · have e1 : (a.natAbs : Int) = -a := by omega
    have e2 : (b.natAbs : Int) = -b := by omega
    simp [ha, hb, e1, e2]
  · have e1 : (a.natAbs : Int) = -a := by omega
    have e2 : (b.natAbs : Int) = b := by omega
    simp [ha, hb, e1, e2]
  · have e1 : (a.natAbs : Int) = a := by omega
    have e2 : (b.natAbs : Int) = -b := by omega
    simp [ha, hb, e1, e2]
  · have e1 : (a.natAbs : Int) = a := by omega
    have e2 : (b.natAbs : Int) = b := by omega
    simp [ha, hb, e1, e2]

theorem tmod_sign (a b : Int) : (if decide (a < 0) then -((a.natAbs % b.natAbs : Nat) : Int)
    else ((a.natAbs % b.natAbs : Nat) : Int)) = Int.tmod a b := by
  rw [Int.ofNat_tmod]
  by_cases ha : a < 0 <;> by_cases hb : b < 0
  · have e1 : (a.natAbs : Int) = -a := by omega
    have e2 : (b.natAbs : Int) = -b := by omega
    simp [ha, e1, e2]
  · have e1 : (a.natAbs : Int) = -a := by omega
    have e2 : (b.natAbs : Int) = b := by omega
    simp [ha, e1, e2]
  · have e1 : (a.natAbs : Int) = a := by omega
    have e2 : (b.natAbs : Int) = -b := by omega
    simp [ha, e1, e2]
  · have e1 : (a.natAbs : Int) = a := by omega
    have e2 : (b.natAbs : Int) = b := by omega
    simp [ha, e1, e2]

/-- The dividend and divisor handed to the unsigned division. -/
theorem toNat_abs (x : I256) :
    (I256.ofInt c (if decide (x.toInt c < 0) then -x.toInt c else x.toInt c)).as_u256.toNat c
      = (x.toInt c).natAbs := by
  have h1 := I256.toInt_lt c x; have h2 := I256.le_toInt c x
  rw [natAbs_mask, I256.toNat_as_u256, I256.toNat_ofInt_natAbs c _ (by omega)]

theorem idivmod4_eq {a b : I256} (wantRem : Bool) (h0 : b.toInt c ≠ 0) :
    idivmod4 c a b wantRem = .ok (I256.ofInt c (Int.tdiv (a.toInt c) (b.toInt c)),
      if wantRem then some (I256.ofInt c (Int.tmod (a.toInt c) (b.toInt c))) else none) := by
  unfold idivmod4
  rw [I256.shr_255, ok_bind, I256.shr_255, ok_bind, mask_eq, mask_eq]
  simp only [I256.xor_sub, xor_mask]
  rw [udivmod4_eq c wantRem (by rw [toNat_abs]; omega), ok_bind, toNat_abs, toNat_abs]
  simp only [ofNat_as_i256, toInt_ofInt_neg_congr, tdiv_sign]
  cases wantRem
  · rfl
  · simp only [if_true, assumeInit, ok_bind, pure_eq_ok, ofNat_as_i256, toInt_ofInt_neg_congr, tmod_sign]

theorem idivmod4_zero {a b : I256} (wantRem : Bool) (h0 : b.toInt c = 0) :
    idivmod4 c a b wantRem = .error (.panic .divByZero) := by
  unfold idivmod4
  rw [I256.shr_255, ok_bind, I256.shr_255, ok_bind, mask_eq, mask_eq]
  simp only [I256.xor_sub, xor_mask]
  rw [udivmod4_zero c wantRem (by rw [toNat_abs]; omega)]; rfl

theorem idiv3_eq {a b : I256} (h : b.toInt c ≠ 0) :
    idiv3 c a b = .ok (I256.ofInt c (Int.tdiv (a.toInt c) (b.toInt c))) := by
  unfold idiv3; rw [idivmod4_eq c _ h]; rfl
theorem idiv2_eq {a b : I256} (h : b.toInt c ≠ 0) :
    idiv2 c a b = .ok (I256.ofInt c (Int.tdiv (a.toInt c) (b.toInt c))) := by
  unfold idiv2; rw [idivmod4_eq c _ h]; rfl
theorem irem3_eq {a b : I256} (h : b.toInt c ≠ 0) :
    irem3 c a b = .ok (I256.ofInt c (Int.tmod (a.toInt c) (b.toInt c))) := by
  unfold irem3; rw [idivmod4_eq c _ h]; rfl
theorem irem2_eq {a b : I256} (h : b.toInt c ≠ 0) :
    irem2 c a b = .ok (I256.ofInt c (Int.tmod (a.toInt c) (b.toInt c))) := by
  unfold irem2; rw [idivmod4_eq c _ h]; rfl
theorem idiv2_zero {a b : I256} (h : b.toInt c = 0) : idiv2 c a b = .error (.panic .divByZero) := by
  unfold idiv2; rw [idivmod4_zero c _ h]; rfl
theorem irem2_zero {a b : I256} (h : b.toInt c = 0) : irem2 c a b = .error (.panic .divByZero) := by
  unfold irem2; rw [idivmod4_zero c _ h]; rfl

end Intr
end Ethnum
