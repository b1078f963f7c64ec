import Verif.Proofs.DivMod

/-! Operators of both types. -/

set_option linter.unusedSimpArgs false

namespace Ethnum

namespace U256
variable (c : Cfg)

theorem div_eq (a b : U256) : div c a b =
    if b.toNat c = 0 then .error (.panic .divByZero) else .ok (ofNat c (a.toNat c / b.toNat c)) := by
  unfold div; rw [eq_prim_eq]
  by_cases h : b.toNat c = 0
  · simp [h, throwPanic]
  · simp [h, Intr.udiv3_eq c h]
theorem rem_eq (a b : U256) : rem c a b =
    if b.toNat c = 0 then .error (.panic .remByZero) else .ok (ofNat c (a.toNat c % b.toNat c)) := by
  unfold rem; rw [eq_prim_eq]
  by_cases h : b.toNat c = 0
  · simp [h, throwPanic]
  · simp [h, Intr.urem3_eq c h]

theorem add_eq (a b : U256) : add c a b =
    if c.debugAssertions = true ∧ 2 ^ 256 ≤ a.toNat c + b.toNat c then .error (.panic .addOverflow)
    else .ok (ofNat c (a.toNat c + b.toNat c)) := by
  unfold add
  rw [Intr.uaddc_eq, Intr.add3_eq]
  by_cases hd : c.debugAssertions = true <;> simp [hd, throwPanic]
theorem sub_eq (a b : U256) : sub c a b =
    if c.debugAssertions = true ∧ a.toNat c < b.toNat c then .error (.panic .subOverflow)
    else .ok (ofInt c (a.toNat c - b.toNat c)) := by
  unfold sub
  rw [Intr.usubc_eq, Intr.sub3_eq]
  by_cases hd : c.debugAssertions = true <;> simp [hd, throwPanic]
theorem mul_eq (a b : U256) : mul c a b =
    if c.debugAssertions = true ∧ 2 ^ 256 ≤ a.toNat c * b.toNat c then .error (.panic .mulOverflow)
    else .ok (ofNat c (a.toNat c * b.toNat c)) := by
  unfold mul
  rw [Intr.umulc_eq, Intr.mul3_eq]
  by_cases hd : c.debugAssertions = true <;> simp [hd, throwPanic]

theorem add_assign_eq (a b : U256) : add_assign c a b = add c a b := by
  unfold add_assign; split
  · rfl
  · rename_i h; unfold add; rw [if_neg h]; rw [Intr.add2_eq, Intr.add3_eq]
theorem sub_assign_eq (a b : U256) : sub_assign c a b = sub c a b := by
  unfold sub_assign; split
  · rfl
  · rename_i h; unfold sub; rw [if_neg h]; rw [Intr.sub2_eq, Intr.sub3_eq]
theorem mul_assign_eq (a b : U256) : mul_assign c a b = mul c a b := by
  unfold mul_assign; split
  · rfl
  · rename_i h; unfold mul; rw [if_neg h]; rw [Intr.mul2_eq, Intr.mul3_eq]
theorem div_assign_eq (a b : U256) : div_assign c a b =
    if b.toNat c = 0 then .error (.panic .divByZero) else .ok (ofNat c (a.toNat c / b.toNat c)) := by
  unfold div_assign; rw [div_eq]
  by_cases h : b.toNat c = 0
  · simp [h, Intr.udiv2_zero c h]
  · simp [h, Intr.udiv2_eq c h]
theorem rem_assign_eq (a b : U256) : rem_assign c a b =
    if b.toNat c = 0 then
      (if c.debugAssertions then .error (.panic .remByZero) else .error (.panic .divByZero))
    else .ok (ofNat c (a.toNat c % b.toNat c)) := by
  unfold rem_assign; rw [rem_eq]
  by_cases h : b.toNat c = 0
  · simp [h, Intr.urem2_zero c h]
  · simp [h, Intr.urem2_eq c h]

end U256

namespace I256
variable (c : Cfg)

theorem div_eq (a b : I256) : div c a b =
    if b.toInt c = 0 then .error (.panic .divByZero)
    else .ok (ofInt c (Int.tdiv (a.toInt c) (b.toInt c))) := by
  unfold div; rw [eq_prim_eq]
  by_cases h : b.toInt c = 0
  · simp [h, throwPanic]
  · simp [h, Intr.idiv3_eq c h]
theorem rem_eq (a b : I256) : rem c a b =
    if b.toInt c = 0 then .error (.panic .remByZero)
    else .ok (ofInt c (Int.tmod (a.toInt c) (b.toInt c))) := by
  unfold rem; rw [eq_prim_eq]
  by_cases h : b.toInt c = 0
  · simp [h, throwPanic]
  · simp [h, Intr.irem3_eq c h]
theorem neg_eq (a : I256) : neg c a =
    if c.debugAssertions = true ∧ a.toInt c = -2 ^ 255 then .error (.panic .negOverflow)
    else .ok (ofInt c (-a.toInt c)) := by
  unfold neg
  rw [eq_eq, toInt_MIN, Intr.iadd2_eq, toInt_not, toInt_ONE]
  have : -1 - a.toInt c + 1 = -a.toInt c := by omega
  rw [this]
  simp only [Bool.and_eq_true, decide_eq_true_eq, throwPanic]

end I256

namespace Intr
variable (c : Cfg)

theorem tdiv_natCast_gt (M A B : Nat) (hB : 0 < B) : (M : Int).tdiv (B : Int) < (A : Int) ↔ M < A * B := by
  rw [← Int.ofNat_tdiv, Int.ofNat_lt, Nat.div_lt_iff_lt_mul hB]

theorem imulc_eq (a b : I256) : imulc c a b =
    .ok (I256.ofInt c (a.toInt c * b.toInt c), decide (¬ InI256 (a.toInt c * b.toInt c))) := by
  have hm : mul3 c a.as_u256 b.as_u256 >>= (fun x => Except.ok x.as_i256) =
      .ok (I256.ofInt c (a.toInt c * b.toInt c)) := imul3_eq c a b
  have ha1 := I256.toInt_lt c a; have ha2 := I256.le_toInt c a
  have hb1 := I256.toInt_lt c b; have hb2 := I256.le_toInt c b
  unfold imulc
  rw [mul3_eq] at hm
  rw [Native.mul3_eq]
  simp only [ok_bind, Except.ok.injEq] at hm ⊢
  rw [hm]
  rw [I256.eq_eq, I256.eq_eq, I256.toInt_MIN, I256.eq_prim_eq, I256.eq_prim_eq, I256.eq_prim_eq,
    I256.eq_prim_eq, toInt_0, toInt_1]
  split
  · rename_i h
    rw [decide_eq_true_eq] at h
    rw [pure_eq_ok]; congr 2
    rw [Bool.eq_iff_iff, h]
    simp only [Bool.and_eq_true, Bool.not_eq_true', decide_eq_false_iff_not, decide_eq_true_eq]
    unfold InI256; omega
  rename_i hna
  rw [decide_eq_true_eq] at hna
  split
  · rename_i h
    rw [decide_eq_true_eq] at h
    rw [pure_eq_ok]; congr 2
    rw [Bool.eq_iff_iff, h]
    simp only [Bool.and_eq_true, Bool.not_eq_true', decide_eq_false_iff_not, decide_eq_true_eq]
    unfold InI256; omega
  rename_i hnb
  rw [decide_eq_true_eq] at hnb
  have h255 : I256.BITS - 1 = 255 := rfl
  rw [h255, I256.shr_255, ok_bind, I256.shr_255, ok_bind, mask_eq, mask_eq]
  simp only [I256.xor_sub, natAbs_mask]
  have inA : InI256 ((a.toInt c).natAbs : Int) := by unfold InI256; omega
  have inB : InI256 ((b.toInt c).natAbs : Int) := by unfold InI256; omega
  rw [I256.lt_prim_eq, I256.lt_prim_eq, toInt_2, I256.toInt_ofInt_of_in c inA, I256.toInt_ofInt_of_in c inB]
  -- sign of the product
  have hab : (a.toInt c * b.toInt c).natAbs = (a.toInt c).natAbs * (b.toInt c).natAbs := Int.natAbs_mul _ _
  split
  · rename_i h
    simp only [Bool.or_eq_true, decide_eq_true_eq] at h
    rw [pure_eq_ok]; congr 2
    symm
    rw [decide_eq_false_iff_not, not_not]
    have : a.toInt c = 0 ∨ a.toInt c = 1 ∨ a.toInt c = -1 ∨ b.toInt c = 0 ∨ b.toInt c = 1 ∨ b.toInt c = -1 := by
      omega
    unfold InI256
    rcases this with h | h | h | h | h | h <;> rw [h] <;> omega
  · rename_i h
    simp only [Bool.or_eq_true, decide_eq_true_eq, not_or, not_lt] at h
    have hBpos : 0 < (b.toInt c).natAbs := by omega
    have tm : ∀ p : Bool, (I256.ofInt c (if p then -1 else 0)).toInt c = if p then -1 else 0 := by
      intro p; apply I256.toInt_ofInt_of_in; unfold InI256; split <;> omega
    have tb : ∀ p q : Bool, decide ((if p then (-1 : Int) else 0) = if q then -1 else 0) = decide (p = q) := by
      decide
    rw [I256.eq_eq, tm, tm, tb]
    by_cases hs : decide (a.toInt c < 0) = decide (b.toInt c < 0)
    · rw [if_pos (by rw [decide_eq_true_eq]; exact hs)]
      rw [I256.div_eq, if_neg (by rw [I256.toInt_ofInt_of_in c inB]; omega), ok_bind, pure_eq_ok]
      congr 2
      rw [I256.toInt_MAX, I256.toInt_ofInt_of_in c inB, I256.gt_eq, I256.toInt_ofInt_of_in c inA]
      have hM : (2 ^ 255 - 1 : Int) = ((2 ^ 255 - 1 : Nat) : Int) := by norm_num
      have hin : InI256 (Int.tdiv (2 ^ 255 - 1) ((b.toInt c).natAbs : Int)) := by
        rw [hM, ← Int.ofNat_tdiv]; unfold InI256
        have := Nat.div_le_self (2 ^ 255 - 1) (b.toInt c).natAbs
        generalize (2 ^ 255 - 1) / (b.toInt c).natAbs = D at *
        omega
      rw [I256.toInt_ofInt_of_in c hin, hM, decide_eq_decide, tdiv_natCast_gt _ _ _ hBpos, ← hab]
      have hpos : 0 ≤ a.toInt c * b.toInt c := by
        by_cases h1 : a.toInt c < 0 <;> by_cases h2 : b.toInt c < 0 <;> simp [h1, h2] at hs
        · exact Int.mul_nonneg_of_nonpos_of_nonpos (by omega) (by omega)
        · exact Int.mul_nonneg (by omega) (by omega)
      unfold InI256
      generalize a.toInt c * b.toInt c = P at *
      omega
    · rw [if_neg (by rw [decide_eq_true_eq]; exact hs)]
      have inNB : InI256 (-((b.toInt c).natAbs : Int)) := by unfold InI256; omega
      rw [I256.neg_eq, I256.toInt_ofInt_of_in c inB, if_neg (by omega), ok_bind,
        I256.div_eq, I256.toInt_ofInt_of_in c inNB, if_neg (by omega), ok_bind, pure_eq_ok]
      congr 2
      rw [I256.toInt_MIN, Int.neg_tdiv_neg, I256.gt_eq, I256.toInt_ofInt_of_in c inA]
      have hM : (2 ^ 255 : Int) = ((2 ^ 255 : Nat) : Int) := by norm_num
      have hin : InI256 (Int.tdiv (2 ^ 255) ((b.toInt c).natAbs : Int)) := by
        rw [hM, ← Int.ofNat_tdiv]; unfold InI256
        have : 2 ^ 255 / (b.toInt c).natAbs ≤ 2 ^ 254 := by
          apply Nat.div_le_of_le_mul
          omega
        generalize 2 ^ 255 / (b.toInt c).natAbs = D at *
        omega
      rw [I256.toInt_ofInt_of_in c hin, hM, decide_eq_decide, tdiv_natCast_gt _ _ _ hBpos, ← hab]
      have hpos : a.toInt c * b.toInt c ≤ 0 := by
        by_cases h1 : a.toInt c < 0 <;> by_cases h2 : b.toInt c < 0 <;> simp [h1, h2] at hs
        · exact Int.mul_nonpos_of_nonpos_of_nonneg (by omega) (by omega)
        · exact Int.mul_nonpos_of_nonneg_of_nonpos (by omega) (by omega)
      unfold InI256
      generalize a.toInt c * b.toInt c = P at *
      omega

end Intr

namespace I256
variable (c : Cfg)

theorem add_eq (a b : I256) : add c a b =
    if c.debugAssertions = true ∧ ¬ InI256 (a.toInt c + b.toInt c) then .error (.panic .addOverflow)
    else .ok (ofInt c (a.toInt c + b.toInt c)) := by
  unfold add
  rw [Intr.iaddc_eq, Intr.iadd3_eq]
  by_cases hd : c.debugAssertions = true <;>
    simp only [hd, if_true, if_false, decide_eq_true_eq, throwPanic, true_and, false_and, Bool.false_eq_true]
theorem sub_eq (a b : I256) : sub c a b =
    if c.debugAssertions = true ∧ ¬ InI256 (a.toInt c - b.toInt c) then .error (.panic .subOverflow)
    else .ok (ofInt c (a.toInt c - b.toInt c)) := by
  unfold sub
  rw [Intr.isubc_eq, Intr.isub3_eq]
  by_cases hd : c.debugAssertions = true <;>
    simp only [hd, if_true, if_false, decide_eq_true_eq, throwPanic, true_and, false_and, Bool.false_eq_true]
theorem mul_eq (a b : I256) : mul c a b =
    if c.debugAssertions = true ∧ ¬ InI256 (a.toInt c * b.toInt c) then .error (.panic .mulOverflow)
    else .ok (ofInt c (a.toInt c * b.toInt c)) := by
  unfold mul
  rw [Intr.imulc_eq, Intr.imul3_eq]
  by_cases hd : c.debugAssertions = true <;>
    simp only [hd, if_true, if_false, decide_eq_true_eq, throwPanic, true_and, false_and, Bool.false_eq_true, ok_bind]

theorem add_assign_eq (a b : I256) : add_assign c a b = add c a b := by
  unfold add_assign; split
  · rfl
  · rename_i h; unfold add; rw [if_neg h]; rw [Intr.iadd2_eq, Intr.iadd3_eq]
theorem sub_assign_eq (a b : I256) : sub_assign c a b = sub c a b := by
  unfold sub_assign; split
  · rfl
  · rename_i h; unfold sub; rw [if_neg h]; rw [Intr.isub2_eq, Intr.isub3_eq]
theorem mul_assign_eq (a b : I256) : mul_assign c a b = mul c a b := by
  unfold mul_assign; split
  · rfl
  · rename_i h; unfold mul; rw [if_neg h]; rw [Intr.imul2_eq, Intr.imul3_eq]
theorem div_assign_eq (a b : I256) : div_assign c a b =
    if b.toInt c = 0 then .error (.panic .divByZero)
    else .ok (ofInt c (Int.tdiv (a.toInt c) (b.toInt c))) := by
  unfold div_assign; rw [div_eq]
  by_cases h : b.toInt c = 0
  · simp [h, Intr.idiv2_zero c h]
  · simp [h, Intr.idiv2_eq c h]
theorem rem_assign_eq (a b : I256) : rem_assign c a b =
    if b.toInt c = 0 then
      (if c.debugAssertions then .error (.panic .remByZero) else .error (.panic .divByZero))
    else .ok (ofInt c (Int.tmod (a.toInt c) (b.toInt c))) := by
  unfold rem_assign; rw [rem_eq]
  by_cases h : b.toInt c = 0
  · simp [h, Intr.irem2_zero c h]
  · simp [h, Intr.irem2_eq c h]

end I256
end Ethnum
