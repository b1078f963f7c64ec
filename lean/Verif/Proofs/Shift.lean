import Verif.Proofs.Mul

/-! Shifts. -/

set_option linter.unusedSimpArgs false

namespace Ethnum

theorem toNat_and_7f (b : U32) : (b &&& 0x7f).toNat = b.toNat % 128 := by
  rw [BitVec.toNat_and]; exact Nat.and_two_pow_sub_one_eq_mod b.toNat 7
theorem toNat_and_ff (b : U32) : (b &&& 0xff).toNat = b.toNat % 256 := by
  rw [BitVec.toNat_and]; exact Nat.and_two_pow_sub_one_eq_mod b.toNat 8

theorem u32_lt_iff (b : U32) (n : Nat) (h : n < 2 ^ 32) : b < BitVec.ofNat 32 n ↔ b.toNat < n := by
  rw [BitVec.lt_def, BitVec.toNat_ofNat, Nat.mod_eq_of_lt h]

theorem u32_eq_zero_iff (b : U32) : b = 0 ↔ b.toNat = 0 :=
  ⟨fun h => h ▸ rfl, fun h => BitVec.eq_of_toNat_eq h⟩

theorem pow_split {b : Nat} (h : b ≤ 128) : 2 ^ b * 2 ^ (128 - b) = 2 ^ 128 := by
  rw [← Nat.pow_add]; congr 1; omega

/-- `x << b` in a 128-bit word: the low `128 - b` bits, moved up. -/
theorem shl_word {b : Nat} (hb : b ≤ 128) (x : Nat) :
    x * 2 ^ b % 2 ^ 128 = 2 ^ b * (x % 2 ^ (128 - b)) := by
  rw [← pow_split hb, Nat.mul_comm x, Nat.mul_mod_mul_left]

theorem or_add_hi {b : Nat} (x y : Nat) (hy : y < 2 ^ b) : (2 ^ b * x) ||| y = 2 ^ b * x + y :=
  (Nat.two_pow_add_eq_or_of_lt hy x).symm
theorem or_add_lo {b : Nat} (x y : Nat) (hy : y < 2 ^ b) : y ||| (2 ^ b * x) = 2 ^ b * x + y := by
  rw [Nat.or_comm, or_add_hi x y hy]

theorem shl_value {b : Nat} (hb : b ≤ 128) (h l : Nat) (hl : l < 2 ^ 128) :
    ((h * 2 ^ b % 2 ^ 128) ||| (l / 2 ^ (128 - b))) * 2 ^ 128 + l * 2 ^ b % 2 ^ 128
      = (h * 2 ^ 128 + l) * 2 ^ b % 2 ^ 256 := by
  have hPQ := pow_split hb
  have hq : l / 2 ^ (128 - b) < 2 ^ b := by
    apply Nat.div_lt_of_lt_mul; rw [Nat.mul_comm, hPQ]; exact hl
  rw [shl_word hb, shl_word hb, or_add_hi _ _ hq]
  generalize hP : 2 ^ b = P at *
  generalize hQ : 2 ^ (128 - b) = Q at *
  have hPp : 0 < P := hP ▸ Nat.two_pow_pos b
  have hQp : 0 < Q := hQ ▸ Nat.two_pow_pos _
  have e1 := Nat.div_add_mod h Q
  have e2 := Nat.div_add_mod l Q
  have lt1 : h % Q < Q := Nat.mod_lt _ hQp
  have lt2 : l % Q < Q := Nat.mod_lt _ hQp
  have key : (h * 2 ^ 128 + l) * P =
      2 ^ 256 * (h / Q) + ((P * (h % Q) + l / Q) * 2 ^ 128 + P * (l % Q)) := by
    calc (h * 2 ^ 128 + l) * P = ((Q * (h / Q) + h % Q) * 2 ^ 128 + (Q * (l / Q) + l % Q)) * P := by
          rw [e1, e2]
      _ = (P * Q) * 2 ^ 128 * (h / Q) + (P * (h % Q)) * 2 ^ 128 + (P * Q) * (l / Q) + P * (l % Q) := by ring
      _ = _ := by rw [hPQ]; ring
  have b1 : P * (h % Q) + P ≤ 2 ^ 128 := by
    calc P * (h % Q) + P = P * (h % Q + 1) := by ring
      _ ≤ P * Q := Nat.mul_le_mul_left _ lt1
      _ = _ := hPQ
  have b2 : P * (l % Q) < 2 ^ 128 := by
    rw [← hPQ]; exact Nat.mul_lt_mul_of_pos_left lt2 hPp
  have b3 : P * (h % Q) + l / Q < 2 ^ 128 := by omega
  have b4 : (P * (h % Q) + l / Q) * 2 ^ 128 + P * (l % Q) < 2 ^ 256 := by omega
  rw [key, Nat.mul_add_mod, Nat.mod_eq_of_lt b4]

theorem shr_value {b : Nat} (hb : b ≤ 128) (h l : Nat) (hl : l < 2 ^ 128) :
    h / 2 ^ b * 2 ^ 128 + ((l / 2 ^ b) ||| (h * 2 ^ (128 - b) % 2 ^ 128))
      = (h * 2 ^ 128 + l) / 2 ^ b := by
  have hPQ := pow_split hb
  have hq : l / 2 ^ b < 2 ^ (128 - b) := by
    apply Nat.div_lt_of_lt_mul; rw [hPQ]; exact hl
  have hb2 : 128 - b ≤ 128 := by omega
  rw [shl_word hb2, show 128 - (128 - b) = b by omega, or_add_lo _ _ hq]
  generalize hP : 2 ^ b = P at *
  generalize hQ : 2 ^ (128 - b) = Q at *
  have hPp : 0 < P := hP ▸ Nat.two_pow_pos b
  have e1 := Nat.div_add_mod h P
  have e0 : (h * 2 ^ 128 + l) / P = h * Q + l / P := by
    rw [show h * 2 ^ 128 + l = P * (h * Q) + l by rw [← hPQ]; ring]
    rw [Nat.mul_add_div hPp]
  rw [e0]
  calc h / P * 2 ^ 128 + (Q * (h % P) + l / P) = (P * (h / P) + h % P) * Q + l / P := by
        rw [← hPQ]; ring
    _ = _ := by rw [e1]

theorem subC_128 (c : Cfg) {b : U32} (h : b.toNat < 128) :
    ∃ r, subC c 128 b = .ok r ∧ r.toNat = 128 - b.toNat :=
  subC_spec c (a := (128 : U32)) (by simp; omega)

namespace Native
variable (c : Cfg)

theorem shl3_eq (a : U256) (b : U32) (hb : b.toNat < 256) :
    shl3 c a b = .ok (U256.ofNat c (a.toNat c * 2 ^ b.toNat)) := by
  unfold shl3
  rw [debugAssert_ok c (by simpa using (u32_lt_iff b 256 (by omega)).2 hb), ok_bind]
  have ha := (a.low c).isLt
  split
  · rename_i h0; subst h0; simp
  · rename_i h0
    rw [u32_eq_zero_iff] at h0
    split
    · rename_i h1
      have h1 : b.toNat < 128 := (u32_lt_iff b 128 (by omega)).1 h1
      rw [shlC_ok c h1, shlC_ok c h1]
      obtain ⟨r, e, vr⟩ := subC_128 c h1
      simp only [ok_bind, e]
      rw [shrC_ok c (by omega)]
      simp only [ok_bind, pure_eq_ok, vr]
      congr 1
      apply U256.eq_ofNat
      rw [U256.toNat_from_words, BitVec.toNat_or, toNat_shl, toNat_shr, toNat_shl,
        shl_value (by omega) _ _ ha, U256.toNat_eq]
    · rename_i h1
      have h1 : ¬ b.toNat < 128 := fun h => h1 ((u32_lt_iff b 128 (by omega)).2 h)
      rw [shlC_ok c (by rw [toNat_and_7f]; omega)]
      simp only [ok_bind, pure_eq_ok]
      congr 1
      apply U256.eq_ofNat
      rw [U256.toNat_from_words, toNat_shl, toNat_and_7f, U256.toNat_eq]
      have e : 2 ^ b.toNat = 2 ^ 128 * 2 ^ (b.toNat % 128) := by
        rw [← Nat.pow_add]; congr 1; omega
      have hm : ((a.high c).toNat * 2 ^ 128 + (a.low c).toNat) * 2 ^ b.toNat =
          2 ^ 256 * ((a.high c).toNat * 2 ^ (b.toNat % 128))
          + 2 ^ 128 * ((a.low c).toNat * 2 ^ (b.toNat % 128)) := by
        rw [e]; ring
      rw [hm, Nat.mul_add_mod, show (2 : Nat) ^ 256 = 2 ^ 128 * 2 ^ 128 by norm_num,
        Nat.mul_mod_mul_left]
      simp [Nat.mul_comm]

theorem shl2_eq (a : U256) (b : U32) (hb : b.toNat < 256) :
    shl2 c a b = .ok (U256.ofNat c (a.toNat c * 2 ^ b.toNat)) := by
  rw [← shl3_eq c a b hb]; simp only [shl2, shl3, U256.from_words_high_low]

theorem shr3_eq (a : U256) (b : U32) (hb : b.toNat < 256) :
    shr3 c a b = .ok (U256.ofNat c (a.toNat c / 2 ^ b.toNat)) := by
  unfold shr3
  rw [debugAssert_ok c (by simpa using (u32_lt_iff b 256 (by omega)).2 hb), ok_bind]
  have ha := (a.low c).isLt
  have hlt : a.toNat c / 2 ^ b.toNat < 2 ^ 256 :=
    lt_of_le_of_lt (Nat.div_le_self _ _) (U256.toNat_lt c a)
  split
  · rename_i h0; subst h0; simp
  · rename_i h0
    rw [u32_eq_zero_iff] at h0
    split
    · rename_i h1
      have h1 : b.toNat < 128 := (u32_lt_iff b 128 (by omega)).1 h1
      rw [shrC_ok c h1, shrC_ok c h1]
      obtain ⟨r, e, vr⟩ := subC_128 c h1
      simp only [ok_bind, e]
      rw [shlC_ok c (by omega)]
      simp only [ok_bind, pure_eq_ok, vr]
      congr 1
      apply U256.eq_ofNat
      rw [Nat.mod_eq_of_lt hlt]
      rw [U256.toNat_from_words, BitVec.toNat_or, toNat_shr, toNat_shr, toNat_shl,
        shr_value (by omega) _ _ ha, U256.toNat_eq]
    · rename_i h1
      have h1 : ¬ b.toNat < 128 := fun h => h1 ((u32_lt_iff b 128 (by omega)).2 h)
      rw [shrC_ok c (by rw [toNat_and_7f]; omega)]
      simp only [ok_bind, pure_eq_ok]
      congr 1
      apply U256.eq_ofNat
      rw [Nat.mod_eq_of_lt hlt]
      rw [U256.toNat_from_words, toNat_shr, toNat_and_7f, U256.high_toNat]
      have e : 2 ^ b.toNat = 2 ^ 128 * 2 ^ (b.toNat % 128) := by
        rw [← Nat.pow_add]; congr 1; omega
      rw [e, Nat.div_div_eq_div_mul]; simp

theorem shr2_eq (a : U256) (b : U32) (hb : b.toNat < 256) :
    shr2 c a b = .ok (U256.ofNat c (a.toNat c / 2 ^ b.toNat)) := by
  rw [← shr3_eq c a b hb]; simp only [shr2, shr3, U256.from_words_high_low]

theorem sar3_eq (a : I256) (b : U32) (hb : b.toNat < 256) :
    sar3 c a b = .ok (I256.ofInt c (a.toInt c / 2 ^ b.toNat)) := by
  unfold sar3
  rw [debugAssert_ok c (by simpa using (u32_lt_iff b 256 (by omega)).2 hb), ok_bind]
  have ha := (a.low c).isLt
  split
  · rename_i h0; subst h0; simp
  · rename_i h0
    rw [u32_eq_zero_iff] at h0
    split
    · rename_i h1
      have h1 : b.toNat < 128 := (u32_lt_iff b 128 (by omega)).1 h1
      rw [sarC_ok c h1, shrC_ok c h1]
      obtain ⟨r, e, vr⟩ := subC_128 c h1
      simp only [ok_bind, e]
      rw [shlC_ok c (by omega)]
      simp only [ok_bind, pure_eq_ok, vr]
      congr 1
      apply I256.eq_ofInt_of_toInt
      rw [I256.toInt_eq_words, I256.toInt_eq_words]
      simp only [I256.high_from_words, I256.low_from_words, BitVec.toInt_sshiftRight,
        Int.shiftRight_eq_div_pow, BitVec.toNat_or, toNat_shr, toNat_shl]
      have hb' : b.toNat ≤ 128 := by omega
      have hPQ := pow_split hb'
      have hq : (a.low c).toNat / 2 ^ b.toNat < 2 ^ (128 - b.toNat) := by
        apply Nat.div_lt_of_lt_mul; rw [hPQ]; exact ha
      rw [shl_word (by omega), show 128 - (128 - b.toNat) = b.toNat by omega, or_add_lo _ _ hq]
      have hmod : ((a.high c).toNat % 2 ^ b.toNat : Int) = (a.high c).toInt % 2 ^ b.toNat := by
        rw [BitVec.toInt_eq_toNat_cond]
        split
        · rfl
        · rw [show ((2 ^ 128 : Nat) : Int) = 2 ^ b.toNat * 2 ^ (128 - b.toNat) by
            exact_mod_cast hPQ.symm, Int.sub_mul_emod_self_left]
      simp only [Nat.cast_add, Nat.cast_mul, Nat.cast_pow, Nat.cast_ofNat, Int.natCast_ediv, Int.natCast_emod]
      rw [hmod]
      have hPQi : (2 : Int) ^ b.toNat * 2 ^ (128 - b.toNat) = 2 ^ 128 := by exact_mod_cast hPQ
      have hPp : (0 : Int) < 2 ^ b.toNat := by positivity
      generalize (2 : Int) ^ b.toNat = P at *
      generalize (2 : Int) ^ (128 - b.toNat) = Q at *
      have e1 := Int.mul_ediv_add_emod (a.high c).toInt P
      have e0 : ((a.high c).toInt * 2 ^ 128 + ((a.low c).toNat : Int)) / P
          = (a.high c).toInt * Q + (a.low c).toNat / P := by
        rw [show (a.high c).toInt * 2 ^ 128 + ((a.low c).toNat : Int)
          = (a.low c).toNat + P * ((a.high c).toInt * Q) by rw [← hPQi]; ring]
        rw [Int.add_mul_ediv_left _ _ (ne_of_gt hPp)]; ring
      rw [e0]
      calc (a.high c).toInt / P * 2 ^ 128 + (Q * ((a.high c).toInt % P) + ((a.low c).toNat : Int) / P)
          = (P * ((a.high c).toInt / P) + (a.high c).toInt % P) * Q + (a.low c).toNat / P := by
            rw [← hPQi]; ring
        _ = _ := by rw [e1]
    · rename_i h1
      have h1 : ¬ b.toNat < 128 := fun h => h1 ((u32_lt_iff b 128 (by omega)).2 h)
      rw [sarC_ok c (n := 127) (by simp), sarC_ok c (by rw [toNat_and_7f]; omega)]
      simp only [ok_bind, pure_eq_ok]
      congr 1
      apply I256.eq_ofInt_of_toInt
      rw [I256.toInt_eq_words]
      simp only [I256.high_from_words, I256.low_from_words, toNat_and_7f]
      rw [show BitVec.toNat (127 : U32) = 127 from rfl, I256.sshiftRight_127]
      have e : (2 : Int) ^ b.toNat = 2 ^ 128 * 2 ^ (b.toNat % 128) := by
        rw [← pow_add]; congr 1; omega
      rw [e, ← Int.ediv_ediv_of_nonneg (by norm_num)]
      have hh : a.toInt c / 2 ^ 128 = (a.high c).toInt := by
        rw [I256.toInt_eq_words]; omega
      rw [hh]
      generalize b.toNat % 128 = k
      have hs : ((a.high c).sshiftRight k).toInt = (a.high c).toInt / 2 ^ k := by
        rw [BitVec.toInt_sshiftRight, Int.shiftRight_eq_div_pow]; push_cast; rfl
      rw [← hs]
      have hneg : ((a.high c).sshiftRight k).toInt < 0 ↔ (a.high c).toInt < 0 := by
        rw [hs, Int.ediv_lt_iff_lt_mul (by positivity), Int.zero_mul]
      generalize (a.high c).sshiftRight k = y at *
      have := y.isLt
      rw [BitVec.toInt_eq_toNat_cond y] at *
      split
      · rename_i hn; rw [if_neg]
        · have : (BitVec.allOnes 128).toInt = -1 := by decide
          rw [this]; simp; omega
        · rw [← hneg] at hn; omega
      · rename_i hn; rw [if_pos]
        · simp
        · rw [← hneg] at hn; by_contra hc; rw [if_neg hc] at hn; omega

theorem sar2_eq (a : I256) (b : U32) (hb : b.toNat < 256) :
    sar2 c a b = .ok (I256.ofInt c (a.toInt c / 2 ^ b.toNat)) := by
  rw [← sar3_eq c a b hb]; simp only [sar2, sar3, I256.from_words_high_low]

end Native

namespace Intr
variable (c : Cfg)

theorem shl3_eq (a : U256) (b : U32) (hb : b.toNat < 256) :
    shl3 c a b = .ok (U256.ofNat c (a.toNat c * 2 ^ b.toNat)) := by
  unfold shl3; split
  · rw [Llvm.shl3_eq c a b, Nat.mod_eq_of_lt hb]
  · exact Native.shl3_eq c a b hb
theorem shl2_eq (a : U256) (b : U32) (hb : b.toNat < 256) :
    shl2 c a b = .ok (U256.ofNat c (a.toNat c * 2 ^ b.toNat)) := by
  unfold shl2; split
  · rw [Llvm.shl2_eq_shl3, Llvm.shl3_eq c a b, Nat.mod_eq_of_lt hb]
  · exact Native.shl2_eq c a b hb
theorem shr3_eq (a : U256) (b : U32) (hb : b.toNat < 256) :
    shr3 c a b = .ok (U256.ofNat c (a.toNat c / 2 ^ b.toNat)) := by
  unfold shr3; split
  · rw [Llvm.shr3_eq c a b, Nat.mod_eq_of_lt hb]
  · exact Native.shr3_eq c a b hb
theorem shr2_eq (a : U256) (b : U32) (hb : b.toNat < 256) :
    shr2 c a b = .ok (U256.ofNat c (a.toNat c / 2 ^ b.toNat)) := by
  unfold shr2; split
  · rw [Llvm.shr2_eq_shr3, Llvm.shr3_eq c a b, Nat.mod_eq_of_lt hb]
  · exact Native.shr2_eq c a b hb
theorem sar3_eq (a : I256) (b : U32) (hb : b.toNat < 256) :
    sar3 c a b = .ok (I256.ofInt c (a.toInt c / 2 ^ b.toNat)) := by
  unfold sar3; split
  · rw [Llvm.sar3_eq c a b, Nat.mod_eq_of_lt hb]
  · exact Native.sar3_eq c a b hb
theorem sar2_eq (a : I256) (b : U32) (hb : b.toNat < 256) :
    sar2 c a b = .ok (I256.ofInt c (a.toInt c / 2 ^ b.toNat)) := by
  unfold sar2; split
  · rw [Llvm.sar2_eq_sar3, Llvm.sar3_eq c a b, Nat.mod_eq_of_lt hb]
  · exact Native.sar2_eq c a b hb

theorem ishl3_eq (a : I256) (b : U32) (hb : b.toNat < 256) :
    ishl3 c a b = .ok (I256.ofInt c (a.toInt c * 2 ^ b.toNat)) := by
  unfold ishl3
  rw [shl3_eq c _ _ hb]
  simp only [ok_bind, pure_eq_ok, I256.as_i256_ofNat, I256.toNat_as_u256]
  congr 1
  apply I256.ofInt_congr
  simp only [Nat.cast_mul, Nat.cast_pow, Nat.cast_ofNat]
  rw [I256.toNat_toInt]
  rw [Int.mul_emod, Int.emod_emod_of_dvd _ (Int.dvd_refl _), ← Int.mul_emod]

theorem ishl2_eq (a : I256) (b : U32) (hb : b.toNat < 256) :
    ishl2 c a b = .ok (I256.ofInt c (a.toInt c * 2 ^ b.toNat)) := by
  rw [← ishl3_eq c a b hb]; simp only [ishl2, ishl3, shl2_eq c _ _ hb, shl3_eq c _ _ hb]

end Intr

theorem gt_ff_false {b : U32} (h : b.toNat < 256) : decide (b > 0xff) = false := by
  simp only [decide_eq_false_iff_not]
  intro hg
  have : (255#32).toNat < b.toNat := BitVec.lt_def.1 hg
  simp at this; omega

theorem U256.shl_eq (c : Cfg) (a : U256) (b : U32) (hb : b.toNat < 256) :
    a.shl c b = .ok (U256.ofNat c (a.toNat c * 2 ^ b.toNat)) := by
  unfold shl; rw [gt_ff_false hb]; simp [Intr.shl3_eq c a b hb]
theorem U256.shr_eq (c : Cfg) (a : U256) (b : U32) (hb : b.toNat < 256) :
    a.shr c b = .ok (U256.ofNat c (a.toNat c / 2 ^ b.toNat)) := by
  unfold shr; rw [gt_ff_false hb]; simp [Intr.shr3_eq c a b hb]
theorem I256.shl_eq (c : Cfg) (a : I256) (b : U32) (hb : b.toNat < 256) :
    a.shl c b = .ok (I256.ofInt c (a.toInt c * 2 ^ b.toNat)) := by
  unfold shl; rw [gt_ff_false hb]; simp [Intr.ishl3_eq c a b hb]
theorem I256.shr_eq (c : Cfg) (a : I256) (b : U32) (hb : b.toNat < 256) :
    a.shr c b = .ok (I256.ofInt c (a.toInt c / 2 ^ b.toNat)) := by
  unfold shr; rw [gt_ff_false hb]; simp [Intr.sar3_eq c a b hb]

end Ethnum
