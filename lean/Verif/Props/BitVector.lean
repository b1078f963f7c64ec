import Verif.SpecBits
import Verif.Props.UArith
import Verif.Props.IArith
import Verif.Props.Bits
import Verif.Props.Convert
import Verif.Props.Operators
import Verif.Proofs.Llvm

/-
C63 the two types are the bit vectors of 256 bits (Verif/SpecBits.lean): every operation that the theory of bit vectors
has is the corresponding operation of the crate.
-/

namespace Ethnum

/-! ### The correspondence -/

theorem U256.ofBits_eq (c : Cfg) (v : BitVec 256) : U256.ofBits c v = U256.ofNat c v.toNat := by
  unfold U256.ofBits U256.ofNat
  have h1 : v.extractLsb' 128 128 = BitVec.ofNat 128 (v.toNat / 2 ^ 128) := by
    apply BitVec.eq_of_toNat_eq
    rw [BitVec.extractLsb'_toNat, BitVec.toNat_ofNat, Nat.shiftRight_eq_div_pow]
  have h2 : v.extractLsb' 0 128 = BitVec.ofNat 128 v.toNat := by
    apply BitVec.eq_of_toNat_eq
    rw [BitVec.extractLsb'_toNat, BitVec.toNat_ofNat, Nat.shiftRight_zero]
  rw [h1, h2]

theorem U256.toNat_ofBits (c : Cfg) (v : BitVec 256) : (U256.ofBits c v).toNat c = v.toNat := by
  rw [U256.ofBits_eq, U256.toNat_ofNat_of_lt c v.isLt]

theorem U256.ofNat_ofBits (c : Cfg) (n : Nat) : U256.ofNat c n = U256.ofBits c (BitVec.ofNat 256 n) := by
  rw [U256.ofBits_eq]
  apply U256.toNat_inj c
  rw [U256.toNat_ofNat, U256.toNat_ofNat, BitVec.toNat_ofNat, Nat.mod_mod]

theorem U256.ofInt_ofBits (c : Cfg) (z : Int) : U256.ofInt c z = U256.ofBits c (BitVec.ofInt 256 z) := by
  unfold U256.ofInt
  rw [U256.ofNat_ofBits]
  congr 1
  apply BitVec.eq_of_toNat_eq
  rw [BitVec.toNat_ofNat, BitVec.toNat_ofInt]
  have : ((2 ^ 256 : Nat) : Int) = 2 ^ 256 := by norm_num
  rw [this]
  omega

theorem I256.ofBits_as (c : Cfg) (v : BitVec 256) : I256.ofBits c v = (U256.ofBits c v).as_i256 := by
  unfold I256.ofBits U256.ofBits U256.as_i256
  cases c.bigEndian <;> rfl

theorem I256.ofBits_eq (c : Cfg) (v : BitVec 256) : I256.ofBits c v = I256.ofInt c v.toInt := by
  rw [I256.ofBits_as, U256.ofBits_eq, I256.as_i256_ofNat]
  apply I256.ofInt_congr
  rw [BitVec.toInt_eq_toNat_bmod, Int.bmod_def]
  omega

theorem I256.toNat_ofBits (c : Cfg) (v : BitVec 256) : (I256.ofBits c v).toNat c = v.toNat := by
  rw [I256.ofBits_as]; exact U256.toNat_ofBits c v

theorem I256.toInt_ofBits (c : Cfg) (v : BitVec 256) : (I256.ofBits c v).toInt c = v.toInt := by
  rw [I256.ofBits_eq, I256.toInt_ofInt_of_in]
  have h1 := BitVec.toInt_lt (x := v); have h2 := BitVec.le_toInt v
  exact ⟨by simpa using h2, by simpa using h1⟩

theorem I256.ofInt_ofBits (c : Cfg) (z : Int) : I256.ofInt c z = I256.ofBits c (BitVec.ofInt 256 z) := by
  rw [I256.ofBits_eq]
  apply I256.ofInt_congr
  rw [BitVec.toInt_ofInt]
  exact (Int.bmod_emod (x := z) (m := 2 ^ 256)).symm

/-- C63: values and bit vectors correspond one to one, and a vector denotes the same number in both theories. -/
theorem C63_bijection (c : Cfg) (v : BitVec 256) (x : U256) (y : I256) :
    (U256.ofBits c v).bits c = v ∧ U256.ofBits c (x.bits c) = x
    ∧ (I256.ofBits c v).bits c = v ∧ I256.ofBits c (y.bits c) = y
    ∧ (U256.ofBits c v).toNat c = v.toNat ∧ (I256.ofBits c v).toInt c = v.toInt := by
  have hU : ∀ x : U256, (x.bits c).toNat = x.toNat c := by
    intro x
    unfold U256.bits U256.toNat
    cases c.bigEndian
    · simp only [Bool.false_eq_true, if_false]
      rw [BitVec.toNat_append, Nat.shiftLeft_eq, Nat.mul_comm, Nat.two_pow_add_eq_or_of_lt x.w0.isLt]
    · simp only [if_true]
      rw [BitVec.toNat_append, Nat.shiftLeft_eq, Nat.mul_comm, Nat.two_pow_add_eq_or_of_lt x.w1.isLt]
  have hI : ∀ y : I256, y.bits c = y.as_u256.bits c := fun y => rfl
  have e1 : ∀ v, (U256.ofBits c v).bits c = v := fun v =>
    BitVec.eq_of_toNat_eq (by rw [hU, U256.toNat_ofBits])
  have e2 : ∀ x : U256, U256.ofBits c (x.bits c) = x := fun x =>
    U256.toNat_inj c (by rw [U256.toNat_ofBits, hU])
  refine ⟨e1 v, e2 x, ?_, ?_, U256.toNat_ofBits c v, I256.toInt_ofBits c v⟩
  · rw [hI, I256.ofBits_as]; exact e1 v
  · rw [hI, I256.ofBits_as, e2]; cases y; rfl

example : U256.ofBits dbg (5#128 ++ 7#128) = U256.from_words dbg 5 7
    ∧ (U256.from_words rel 5 7).bits rel = 5#128 ++ 7#128
    ∧ (I256.ofBits rel (BitVec.allOnes 256)) = I256.MINUS_ONE rel := by decide

/-! ### Arithmetic -/

/-- C63: unsigned arithmetic. -/
theorem C63_u256_arith (c : Cfg) (A B : BitVec 256) :
    let U := U256.ofBits c
    (U A).wrapping_add c (U B) = U (A + B) ∧ (U A).wrapping_sub c (U B) = U (A - B)
    ∧ (U A).wrapping_mul c (U B) = .ok (U (A * B)) ∧ (U A).wrapping_neg c = U (-A)
    ∧ (U A).overflowing_add c (U B) = (U (A + B), A.uaddOverflow B)
    ∧ (U A).overflowing_sub c (U B) = (U (A - B), A.usubOverflow B)
    ∧ (U A).overflowing_mul c (U B) = .ok (U (A * B), A.umulOverflow B)
    ∧ (B ≠ 0 → (U A).div c (U B) = .ok (U (A.udiv B)) ∧ (U A).rem c (U B) = .ok (U (A.umod B))) := by
  intro U
  have tn : ∀ v, (U v).toNat c = v.toNat := U256.toNat_ofBits c
  have ea : U256.ofNat c (A.toNat + B.toNat) = U (A + B) := by
    rw [U256.ofNat_ofBits]; rfl
  have es : U256.ofInt c ((A.toNat : Int) - B.toNat) = U (A - B) := by
    rw [U256.ofInt_ofBits]; show U _ = _; congr 1
    rw [Int.sub_eq_add_neg, BitVec.ofInt_add, BitVec.ofInt_neg, BitVec.ofInt_natCast, BitVec.ofInt_natCast,
      BitVec.ofNat_toNat, BitVec.ofNat_toNat, BitVec.sub_eq_add_neg, BitVec.setWidth_eq, BitVec.setWidth_eq]
  have em : U256.ofNat c (A.toNat * B.toNat) = U (A * B) := by
    rw [U256.ofNat_ofBits]; rfl
  have en : U256.ofInt c (-(A.toNat : Int)) = U (-A) := by
    rw [U256.ofInt_ofBits]; show U _ = _; congr 1
    rw [BitVec.ofInt_neg, BitVec.ofInt_natCast, BitVec.ofNat_toNat, BitVec.setWidth_eq]
  refine ⟨?_, ?_, ?_, ?_, ?_, ?_, ?_, ?_⟩
  · rw [(C02_wrapping c _ _).1, tn, tn, ea]
  · rw [(C02_wrapping c _ _).2.1, tn, tn, es]
  · rw [(C03_mul c _ _).1, tn, tn, em]
  · rw [(C02_neg c _).1, tn, en]
  · rw [(C02_overflowing c _ _).1, tn, tn, ea]; rfl
  · rw [(C02_overflowing c _ _).2, tn, tn, es]
    refine congrArg (Prod.mk _) ?_
    unfold BitVec.usubOverflow
    rw [decide_eq_decide]; omega
  · rw [(C03_mul c _ _).2.1, tn, tn, em]; rfl
  · intro hB
    have hb : (U B).toNat c ≠ 0 := by
      rw [tn]; intro h; exact hB (BitVec.eq_of_toNat_eq h)
    rw [(C04_div c _ _ hb).1, (C04_rem c _ _ hb).1, tn, tn]
    constructor
    · congr 1
      rw [U256.ofNat_ofBits]; show U _ = _; congr 1
      apply BitVec.eq_of_toNat_eq
      rw [BitVec.toNat_ofNat, Nat.mod_eq_of_lt (lt_of_le_of_lt (Nat.div_le_self _ _) A.isLt)]
      exact (BitVec.toNat_udiv (x := A) (y := B)).symm
    · congr 1
      rw [U256.ofNat_ofBits]; show U _ = _; congr 1
      apply BitVec.eq_of_toNat_eq
      rw [BitVec.toNat_ofNat, Nat.mod_eq_of_lt (lt_of_le_of_lt (Nat.mod_le _ _) A.isLt)]
      exact (BitVec.toNat_umod (x := A) (y := B)).symm

example : (U256.ofBits dbg (-1#256)).overflowing_add dbg (U256.ofBits dbg 2#256) = (U256.ofBits dbg 1#256, true)
    ∧ (-1#256).uaddOverflow 2#256 = true
    ∧ (U256.ofBits rel (-1#256)).div rel (U256.ofBits rel (1#256 <<< 200)) = .ok (U256.ofBits rel 72057594037927935#256) := by
  decide +kernel

/-- C63: signed arithmetic. -/
theorem C63_i256_arith (c : Cfg) (A B : BitVec 256) :
    let I := I256.ofBits c
    (I A).wrapping_add c (I B) = I (A + B) ∧ (I A).wrapping_sub c (I B) = I (A - B)
    ∧ (I A).wrapping_mul c (I B) = .ok (I (A * B)) ∧ (I A).wrapping_neg c = I (-A) ∧ (I A).wrapping_abs c = I A.abs
    ∧ (I A).unsigned_abs c = U256.ofBits c A.abs
    ∧ (I A).overflowing_add c (I B) = (I (A + B), A.saddOverflow B)
    ∧ (I A).overflowing_sub c (I B) = (I (A - B), A.ssubOverflow B)
    ∧ (I A).overflowing_mul c (I B) = .ok (I (A * B), A.smulOverflow B)
    ∧ (I A).overflowing_neg c = .ok (I (-A), A.negOverflow)
    ∧ (B ≠ 0 → (I A).wrapping_div c (I B) = .ok (I (A.sdiv B)) ∧ (I A).wrapping_rem c (I B) = .ok (I (A.srem B))) := by
  intro I
  have tn : ∀ v, (I v).toInt c = v.toInt := I256.toInt_ofBits c
  have ov : ∀ z : Int, decide (¬ InI256 z) = (decide (z ≥ 2 ^ (256 - 1)) || decide (z < - 2 ^ (256 - 1))) :=
    fun z => (Llvm.inI256_iff z).symm
  have ea : I256.ofInt c (A.toInt + B.toInt) = I (A + B) := by
    rw [I256.ofInt_ofBits]; show I _ = _; congr 1; rw [BitVec.ofInt_add, BitVec.ofInt_toInt, BitVec.ofInt_toInt]
  have en : ∀ A : BitVec 256, I256.ofInt c (-A.toInt) = I (-A) := by
    intro A
    rw [I256.ofInt_ofBits]; show I _ = _; congr 1; rw [BitVec.ofInt_neg, BitVec.ofInt_toInt]
  have es : I256.ofInt c (A.toInt - B.toInt) = I (A - B) := by
    rw [I256.ofInt_ofBits]; show I _ = _; congr 1
    rw [Int.sub_eq_add_neg, BitVec.ofInt_add, BitVec.ofInt_neg, BitVec.ofInt_toInt, BitVec.ofInt_toInt,
      BitVec.sub_eq_add_neg]
  have em : I256.ofInt c (A.toInt * B.toInt) = I (A * B) := by
    rw [I256.ofInt_ofBits]; show I _ = _; congr 1; rw [BitVec.ofInt_mul, BitVec.ofInt_toInt, BitVec.ofInt_toInt]
  have eabs : BitVec.ofInt 256 (A.toInt.natAbs : Int) = A.abs := by
    unfold BitVec.abs
    by_cases hm : A.msb = true
    · have : A.toInt < 0 := BitVec.toInt_neg_iff.2 (BitVec.msb_eq_true_iff_two_mul_ge.1 hm)
      rw [if_pos hm, show ((A.toInt.natAbs : Nat) : Int) = -A.toInt by omega, BitVec.ofInt_neg, BitVec.ofInt_toInt]
      rfl
    · have : ¬ A.toInt < 0 := fun h => hm (BitVec.msb_eq_true_iff_two_mul_ge.2 (BitVec.toInt_neg_iff.1 h))
      rw [if_neg hm, show ((A.toInt.natAbs : Nat) : Int) = A.toInt by omega, BitVec.ofInt_toInt]
  refine ⟨?_, ?_, ?_, ?_, ?_, ?_, ?_, ?_, ?_, ?_, ?_⟩
  · rw [(C06_add c _ _).1, tn, tn, ea]
  · rw [(C06_sub c _ _).1, tn, tn, es]
  · rw [(C07_mul c _ _).1, tn, tn, em]
  · rw [(C06_neg c _).1, tn, en]
  · rw [(C06_abs c _).1, tn, I256.ofInt_ofBits, eabs]
  · apply U256.toNat_inj c
    rw [(C06_abs c _).2.2.2.2, tn, U256.toNat_ofBits, ← eabs, BitVec.ofInt_natCast, BitVec.toNat_ofNat,
      Nat.mod_eq_of_lt]
    have h1 := BitVec.toInt_lt (x := A); have h2 := BitVec.le_toInt A
    simp at h1 h2; omega
  · rw [(C06_add c _ _).2.1, tn, tn, ea, ov]; rfl
  · rw [(C06_sub c _ _).2.1, tn, tn, es, ov]; rfl
  · rw [(C07_mul c _ _).2.1, tn, tn, em, ov]; rfl
  · rw [(C06_neg c _).2.1, tn, en]
    have h1 := BitVec.toInt_lt (x := A); have h2 := BitVec.le_toInt A
    refine congrArg (fun b => Except.ok (I (-A), b)) ?_
    unfold BitVec.negOverflow
    rw [Bool.beq_eq_decide_eq, decide_eq_decide]
    unfold InI256
    simp at h1 h2
    omega
  · intro hB
    have hb : (I B).toInt c ≠ 0 := by
      rw [tn]; intro h; exact hB (BitVec.eq_of_toInt_eq (by simpa using h))
    by_cases hm : A.toInt = -2 ^ 255 ∧ B.toInt = -1
    · have hA : A = BitVec.intMin 256 := BitVec.eq_of_toInt_eq (by rw [hm.1]; decide)
      have hB1 : B = -1#256 := BitVec.eq_of_toInt_eq (by rw [hm.2]; decide)
      have i1 : I A = I256.MIN c := I256.toInt_inj c (by rw [tn, hm.1, I256.toInt_MIN])
      have i2 : I B = I256.MINUS_ONE c := I256.toInt_inj c (by rw [tn, hm.2, I256.toInt_MINUS_ONE])
      have h8 := C08_min_by_minus_one c
      rw [i1, i2]
      refine ⟨?_, ?_⟩
      · rw [h8.2.2.2.1, ← i1, hA, hB1]; rw [show (BitVec.intMin 256).sdiv (-1#256) = BitVec.intMin 256 by decide]
      · rw [h8.2.2.2.2.1, hA, hB1, show (BitVec.intMin 256).srem (-1#256) = 0#256 by decide]
        congr 1
        apply I256.toInt_inj c
        rw [tn]; simp
    · have hm' : ¬ ((I A).toInt c = -2 ^ 255 ∧ (I B).toInt c = -1) := by rw [tn, tn]; exact hm
      have h8 := C08_div_rem c (I A) (I B) hb hm'
      rw [h8.2.2.2.2.1, h8.2.2.2.2.2.1, tn, tn, I256.ofInt_ofBits, I256.ofInt_ofBits]
      refine ⟨?_, ?_⟩
      · congr 2
        apply BitVec.eq_of_toInt_eq
        rw [BitVec.toInt_ofInt, BitVec.toInt_sdiv]
      · congr 2
        rw [← BitVec.toInt_srem, BitVec.ofInt_toInt]

example : (I256.ofBits dbg (BitVec.intMin 256)).wrapping_div dbg (I256.ofBits dbg (-1#256)) = .ok (I256.ofBits dbg (BitVec.intMin 256))
    ∧ (I256.ofBits rll (-7#256)).wrapping_rem rll (I256.ofBits rll 2#256) = .ok (I256.ofBits rll (-1#256))
    ∧ (U256.ofBits rel (-1#256)).overflowing_mul rel (U256.ofBits rel 2#256) = .ok (U256.ofBits rel (-2#256), true) := by
  decide +kernel

/-! ### Bits -/

theorem U256.eq_ofBits (c : Cfg) {x : U256} {v : BitVec 256} (h : ∀ i < 256, (x.toNat c).testBit i = v.getLsbD i) :
    x = U256.ofBits c v := by
  apply U256.toNat_inj c
  rw [U256.toNat_ofBits]
  apply Nat.eq_of_testBit_eq
  intro i
  by_cases hi : i < 256
  · exact h i hi
  · have hp : 2 ^ 256 ≤ 2 ^ i := Nat.pow_le_pow_right (by decide) (by omega)
    rw [Nat.testBit_lt_two_pow (lt_of_lt_of_le (x.toNat_lt c) hp), Nat.testBit_lt_two_pow (lt_of_lt_of_le v.isLt hp)]

theorem I256.eq_ofBits (c : Cfg) {x : I256} {v : BitVec 256} (h : ∀ i < 256, (x.toNat c).testBit i = v.getLsbD i) :
    x = I256.ofBits c v := by
  have : x.as_u256 = U256.ofBits c v := U256.eq_ofBits c h
  rw [I256.ofBits_as, ← this]; cases x; rfl

/-- C63: bitwise operations, shifts and reversal. -/
theorem C63_bitwise (c : Cfg) (A B : BitVec 256) (n : U32) :
    let U := U256.ofBits c
    let I := I256.ofBits c
    (U A).bitand (U B) = U (A &&& B) ∧ (U A).bitor (U B) = U (A ||| B) ∧ (U A).bitxor (U B) = U (A ^^^ B)
    ∧ (U A).not = U (~~~A)
    ∧ (I A).bitand (I B) = I (A &&& B) ∧ (I A).bitor (I B) = I (A ||| B) ∧ (I A).bitxor (I B) = I (A ^^^ B)
    ∧ (I A).not = I (~~~A)
    ∧ (U A).wrapping_shl c n = .ok (U (A <<< (n.toNat % 256))) ∧ (U A).wrapping_shr c n = .ok (U (A >>> (n.toNat % 256)))
    ∧ (I A).wrapping_shl c n = .ok (I (A <<< (n.toNat % 256)))
    ∧ (I A).wrapping_shr c n = .ok (I (A.sshiftRight (n.toNat % 256)))
    ∧ (U A).reverse_bits = U A.reverse ∧ (I A).reverse_bits = I A.reverse := by
  intro U I
  have tu : ∀ v, (U v).toNat c = v.toNat := U256.toNat_ofBits c
  have ti : ∀ v, (I v).toNat c = v.toNat := I256.toNat_ofBits c
  have tz : ∀ v, (I v).toInt c = v.toInt := I256.toInt_ofBits c
  have iu : ∀ {x : U256} {v : BitVec 256}, x.toNat c = v.toNat → x = U v := fun h => U256.toNat_inj c (by rw [tu, h])
  have ii : ∀ {x : I256} {v : BitVec 256}, x.toNat c = v.toNat → x = I v := fun h => I256.toNat_inj c (by rw [ti, h])
  obtain ⟨u1, u2, u3, u4, -⟩ := C21_u256_bitwise c (U A) (U B)
  obtain ⟨i1, i2, i3, i4, -⟩ := C21_i256_bitwise c (I A) (I B)
  refine ⟨iu ?_, iu ?_, iu ?_, iu ?_, ii ?_, ii ?_, ii ?_, ?_, ?_, ?_, ?_, ?_, U256.eq_ofBits c ?_, I256.eq_ofBits c ?_⟩
  · rw [u1, tu, tu, BitVec.toNat_and]
  · rw [u2, tu, tu, BitVec.toNat_or]
  · rw [u3, tu, tu, BitVec.toNat_xor]
  · rw [u4, tu, BitVec.toNat_not]
  · rw [i1, ti, ti, BitVec.toNat_and]
  · rw [i2, ti, ti, BitVec.toNat_or]
  · rw [i3, ti, ti, BitVec.toNat_xor]
  · have e : (U A).not = U (~~~A) := iu (by rw [u4, tu, BitVec.toNat_not])
    have e' : (U A).not.as_i256 = (U (~~~A)).as_i256 := by rw [e]
    show (I256.ofBits c A).not = I256.ofBits c (~~~A)
    rw [I256.ofBits_as, I256.ofBits_as]; exact e'
  · rw [(C10_shl c _ n).1, tu, U256.ofNat_ofBits]
    congr 2
    apply BitVec.eq_of_toNat_eq
    rw [BitVec.toNat_ofNat, BitVec.toNat_shiftLeft, Nat.shiftLeft_eq]
  · rw [(C10_shr c _ n).1, tu, U256.ofNat_ofBits]
    congr 2
    apply BitVec.eq_of_toNat_eq
    rw [BitVec.toNat_ofNat, BitVec.toNat_ushiftRight, Nat.shiftRight_eq_div_pow,
      Nat.mod_eq_of_lt (lt_of_le_of_lt (Nat.div_le_self _ _) A.isLt)]
  · have e : I256.ofInt c (A.toInt * 2 ^ (n.toNat % 256)) = I256.ofInt c ((A.toNat * 2 ^ (n.toNat % 256) : Nat) : Int) := by
      apply I256.ofInt_congr
      rw [Int.natCast_mul, Int.natCast_pow]
      have h : A.toInt % 2 ^ 256 = (A.toNat : Int) % 2 ^ 256 := by
        rw [BitVec.toInt_eq_toNat_bmod]
        exact Int.bmod_emod (x := (A.toNat : Int)) (m := 2 ^ 256)
      exact Int.ModEq.mul_right _ h
    rw [(C11_shl c _ n).1, tz, e, I256.ofInt_ofBits, BitVec.ofInt_natCast]
    congr 2
    apply BitVec.eq_of_toNat_eq
    rw [BitVec.toNat_ofNat, BitVec.toNat_shiftLeft, Nat.shiftLeft_eq]
  · rw [(C11_shr c _ n).1, tz, I256.ofInt_ofBits]
    congr 2
    unfold BitVec.sshiftRight
    rw [Int.shiftRight_eq_div_pow]
    norm_num
  · intro i hi
    rw [(C15_reverse_bits c (U A) (I A)).1 i hi, tu, BitVec.getLsbD_reverse, BitVec.getMsbD_eq_getLsbD]
    simp [hi, BitVec.getLsbD]
  · intro i hi
    rw [(C15_reverse_bits c (U A) (I A)).2.1 i hi, ti, BitVec.getLsbD_reverse, BitVec.getMsbD_eq_getLsbD]
    simp [hi, BitVec.getLsbD]

example : (U256.ofBits dbg (3#256 <<< 127)).wrapping_shl dbg 257 = .ok (U256.ofBits dbg (3#256 <<< 128))
    ∧ (I256.ofBits rel (BitVec.intMin 256)).wrapping_shr rel 255 = .ok (I256.ofBits rel (-1#256))
    ∧ (BitVec.intMin 256).sshiftRight 255 = -1#256
    ∧ (U256.ofBits rel (1#256)).reverse_bits = U256.ofBits rel (BitVec.intMin 256) := by decide +kernel

/-- C63: rotations, for the amounts that do not panic (see C13). -/
theorem C63_rotate (c : Cfg) (A : BitVec 256) (n : U32) (h : c.overflowChecks = true → c.llvm = false → n.toNat ≤ 256) :
    let U := U256.ofBits c
    let I := I256.ofBits c
    (U A).rotate_left c n = .ok (U (A.rotateLeft n.toNat)) ∧ (U A).rotate_right c n = .ok (U (A.rotateRight n.toNat))
    ∧ (I A).rotate_left c n = .ok (I (A.rotateLeft n.toNat))
    ∧ (I A).rotate_right c n = .ok (I (A.rotateRight n.toNat)) := by
  intro U I
  obtain ⟨l, r, el, er, hl, hr⟩ := C13_u256_rotate_partial c (U A) n h
  obtain ⟨l', r', el', er', hl', hr'⟩ := C13_i256_rotate_partial c (I A) n h
  have tu : (U A).toNat c = A.toNat := U256.toNat_ofBits c A
  have ti : (I A).toNat c = A.toNat := I256.toNat_ofBits c A
  rw [tu] at hl hr; rw [ti] at hl' hr'
  have left : ∀ (x : Nat), (∀ i < 256, x.testBit ((i + n.toNat) % 256) = A.toNat.testBit i) →
      ∀ i < 256, x.testBit i = (A.rotateLeft n.toNat).getLsbD i := by
    intro x hx i hi
    rw [BitVec.getLsbD_rotateLeft]
    by_cases hlt : i < n.toNat % 256
    · have := hx (256 - n.toNat % 256 + i) (by omega)
      rw [show (256 - n.toNat % 256 + i + n.toNat) % 256 = i by omega] at this
      rw [this]; simp [hlt, BitVec.getLsbD]
    · have := hx (i - n.toNat % 256) (by omega)
      rw [show (i - n.toNat % 256 + n.toNat) % 256 = i by omega] at this
      rw [this]; simp [hlt, hi, BitVec.getLsbD]
  have right : ∀ (x : Nat), (∀ i < 256, x.testBit i = A.toNat.testBit ((i + n.toNat) % 256)) →
      ∀ i < 256, x.testBit i = (A.rotateRight n.toNat).getLsbD i := by
    intro x hx i hi
    rw [BitVec.getLsbD_rotateRight, hx i hi]
    by_cases hlt : i < 256 - n.toNat % 256
    · rw [show (i + n.toNat) % 256 = n.toNat % 256 + i by omega]
      simp [hlt, BitVec.getLsbD]
    · rw [show (i + n.toNat) % 256 = i - (256 - n.toNat % 256) by omega]
      simp [hlt, hi, BitVec.getLsbD]
  refine ⟨?_, ?_, ?_, ?_⟩
  · rw [el, U256.eq_ofBits c (left _ hl)]
  · rw [er, U256.eq_ofBits c (right _ hr)]
  · rw [el', I256.eq_ofBits c (left _ hl')]
  · rw [er', I256.eq_ofBits c (right _ hr')]

example : (U256.ofBits dbg (1#1 ++ 5#255)).rotate_left dbg 3 = .ok (U256.ofBits dbg 44#256)
    ∧ (1#1 ++ 5#255 : BitVec 256).rotateLeft 3 = 44#256
    ∧ (I256.ofBits rel 5#256).rotate_right rel 257 = .ok (I256.ofBits rel (1#1 ++ 2#255)) := by decide +kernel

theorem run_clz (A : BitVec 256) : IsLeadingRun false A.toNat A.clz.toNat := by
  have hle : A.clz.toNat ≤ 256 := by
    have := BitVec.clz_le (x := A)
    rw [BitVec.le_def] at this
    exact this
  refine ⟨hle, ?_, ?_⟩
  · intro i hi
    apply Nat.testBit_lt_two_pow
    refine lt_of_lt_of_le BitVec.toNat_lt_two_pow_sub_clz (Nat.pow_le_pow_right (by decide) ?_)
    omega
  · intro hlt
    have hne : A ≠ 0#256 := by
      apply BitVec.clz_lt_iff_ne_zero.1
      rw [BitVec.lt_def]
      exact hlt
    exact BitVec.getLsbD_true_clz_of_ne_zero (by decide) hne

theorem run_ctz (A : BitVec 256) : IsTrailingRun false A.toNat A.ctz.toNat := by
  have hle : A.ctz.toNat ≤ 256 := by
    have := BitVec.clz_le (x := A.reverse)
    rw [BitVec.le_def] at this
    rw [BitVec.ctz_eq_reverse_clz]
    exact this
  refine ⟨hle, ?_, ?_⟩
  · intro i hi
    exact BitVec.getLsbD_false_of_lt_ctz hi
  · intro hlt
    have hne : A ≠ 0#256 := by
      apply BitVec.ctz_lt_iff_ne_zero.1
      rw [BitVec.lt_def]
      exact hlt
    exact BitVec.getLsbD_true_ctz_of_ne_zero hne

theorem testBit_not (A : BitVec 256) {i : Nat} (hi : i < 256) : (~~~A).toNat.testBit i = !A.toNat.testBit i := by
  have := BitVec.getLsbD_not (x := A) (i := i)
  simpa [hi, BitVec.getLsbD] using this

theorem run_clz_not (A : BitVec 256) : IsLeadingRun true A.toNat (~~~A).clz.toNat := by
  obtain ⟨h1, h2, h3⟩ := run_clz (~~~A)
  refine ⟨h1, fun i hi => ?_, fun h => ?_⟩
  · have := h2 i hi
    rw [testBit_not A (by omega)] at this
    simpa using this
  · have := h3 h
    rw [testBit_not A (by omega)] at this
    simpa using this

theorem run_ctz_not (A : BitVec 256) : IsTrailingRun true A.toNat (~~~A).ctz.toNat := by
  obtain ⟨h1, h2, h3⟩ := run_ctz (~~~A)
  refine ⟨h1, fun i hi => ?_, fun h => ?_⟩
  · have := h2 i hi
    rw [testBit_not A (by omega)] at this
    simpa using this
  · have := h3 h
    rw [testBit_not A (by omega)] at this
    simpa using this

theorem cpopNatRec_countP (A : BitVec 256) (n acc : Nat) :
    A.cpopNatRec n acc = acc + (List.range n).countP (fun i => A.toNat.testBit i == true) := by
  induction n generalizing acc with
  | zero => simp
  | succ n ih =>
    rw [BitVec.cpopNatRec_succ, ih, List.range_succ, List.countP_append, Nat.add_assoc]
    congr 1
    rw [Nat.add_comm]
    congr 1
    simp only [List.countP_cons, List.countP_nil, BitVec.getLsbD]
    cases A.toNat.testBit n <;> rfl

theorem toNat_cpop_bitCount (A : BitVec 256) : A.cpop.toNat = bitCount true A.toNat := by
  rw [BitVec.toNat_cpop, cpopNatRec_countP, Nat.zero_add]
  rfl

/-- C63: counting bits. -/
theorem C63_counts (c : Cfg) (A : BitVec 256) :
    let U := U256.ofBits c
    let I := I256.ofBits c
    (U A).count_ones c = .ok (A.cpop.setWidth 32) ∧ (I A).count_ones c = .ok (A.cpop.setWidth 32)
    ∧ (U A).leading_zeros c = .ok (A.clz.setWidth 32) ∧ (I A).leading_zeros c = .ok (A.clz.setWidth 32)
    ∧ (U A).trailing_zeros c = .ok (A.ctz.setWidth 32) ∧ (I A).trailing_zeros c = .ok (A.ctz.setWidth 32)
    ∧ (U A).leading_ones c = .ok ((~~~A).clz.setWidth 32) ∧ (I A).leading_ones c = .ok ((~~~A).clz.setWidth 32)
    ∧ (U A).trailing_ones c = .ok ((~~~A).ctz.setWidth 32) ∧ (I A).trailing_ones c = .ok ((~~~A).ctz.setWidth 32) := by
  intro U I
  have tu : (U A).toNat c = A.toNat := U256.toNat_ofBits c A
  have ti : (I A).toNat c = A.toNat := I256.toNat_ofBits c A
  obtain ⟨⟨a1, e1, r1⟩, ⟨a2, e2, r2⟩, ⟨a3, e3, r3⟩, ⟨a4, e4, r4⟩⟩ := C14_u256_runs c (U A)
  obtain ⟨⟨b1, f1, s1⟩, ⟨b2, f2, s2⟩, ⟨b3, f3, s3⟩, ⟨b4, f4, s4⟩⟩ := C14_i256_runs c (I A)
  rw [tu] at r1 r2 r3 r4; rw [ti] at s1 s2 s3 s4
  obtain ⟨k1, -, k2, -, -⟩ := C14_count c (U A) (I A)
  have w : ∀ (a : U32) (v : BitVec 256), a.toNat = v.toNat → a = v.setWidth 32 := by
    intro a v h
    apply BitVec.eq_of_toNat_eq
    rw [BitVec.toNat_setWidth, ← h, Nat.mod_eq_of_lt a.isLt]
  have k : u32 (bitCount true A.toNat) = A.cpop.setWidth 32 := by
    apply BitVec.eq_of_toNat_eq
    rw [BitVec.toNat_setWidth, toNat_cpop_bitCount]
    exact BitVec.toNat_ofNat _ _
  have lead : ∀ {b : Bool} {x r s : Nat}, IsLeadingRun b x r → IsLeadingRun b x s → r = s :=
    fun h h' => (C14_runs_unique _ _ _ _).1 h h'
  have trail : ∀ {b : Bool} {x r s : Nat}, IsTrailingRun b x r → IsTrailingRun b x s → r = s :=
    fun h h' => (C14_runs_unique _ _ _ _).2 h h'
  refine ⟨?_, ?_, ?_, ?_, ?_, ?_, ?_, ?_, ?_, ?_⟩
  · rw [k1, tu, k]
  · rw [k2, ti, k]
  · rw [e1, w _ _ (lead r1 (run_clz A))]
  · rw [f1, w _ _ (lead s1 (run_clz A))]
  · rw [e2, w _ _ (trail r2 (run_ctz A))]
  · rw [f2, w _ _ (trail s2 (run_ctz A))]
  · rw [e3, w _ _ (lead r3 (run_clz_not A))]
  · rw [f3, w _ _ (lead s3 (run_clz_not A))]
  · rw [e4, w _ _ (trail r4 (run_ctz_not A))]
  · rw [f4, w _ _ (trail s4 (run_ctz_not A))]

example : (U256.ofBits dbg (5#128 ++ 8#128)).leading_zeros dbg = .ok 125 ∧ (5#128 ++ 8#128 : BitVec 256).clz = 125#256
    ∧ (U256.ofBits rel (5#128 ++ 8#128)).trailing_zeros rel = .ok 3 ∧ (5#128 ++ 8#128 : BitVec 256).ctz = 3#256
    ∧ (I256.ofBits dbg (5#128 ++ 8#128)).count_ones dbg = .ok 3 ∧ (5#128 ++ 8#128 : BitVec 256).cpop = 3#256 := by
  decide +kernel

/-! ### Order and conversions -/

/-- C63: the orders. -/
theorem C63_order (c : Cfg) (A B : BitVec 256) :
    let U := U256.ofBits c
    let I := I256.ofBits c
    (U A).lt c (U B) = A.ult B ∧ (U A).le c (U B) = A.ule B ∧ (U A).eq c (U B) = (A == B)
    ∧ (I A).lt c (I B) = A.slt B ∧ (I A).le c (I B) = A.sle B ∧ (I A).eq c (I B) = (A == B)
    ∧ (I A).is_negative c = A.msb := by
  intro U I
  have tu : ∀ v, (U v).toNat c = v.toNat := U256.toNat_ofBits c
  have tz : ∀ v, (I v).toInt c = v.toInt := I256.toInt_ofBits c
  obtain ⟨-, -, u1, -, u2, u3, -⟩ := C20_u256_cmp c (U A) (U B)
  obtain ⟨-, -, i1, -, i2, i3, -⟩ := C20_i256_cmp c (I A) (I B)
  refine ⟨?_, ?_, ?_, ?_, ?_, ?_, ?_⟩
  · rw [u2, tu, tu]; rfl
  · rw [u3, tu, tu]; rfl
  · rw [u1, tu, tu, Bool.beq_eq_decide_eq, decide_eq_decide, BitVec.toNat_inj]
  · rw [i2, tz, tz]; rfl
  · rw [i3, tz, tz]; rfl
  · rw [i1, tz, tz, Bool.beq_eq_decide_eq, decide_eq_decide, BitVec.toInt_inj]
  · rw [(C44_sign c _).2.2.2, tz, Bool.eq_iff_iff, decide_eq_true_eq, BitVec.toInt_neg_iff, BitVec.msb_eq_true_iff_two_mul_ge]

example : (U256.ofBits dbg (-1#256)).lt dbg (U256.ofBits dbg 1#256) = false ∧ (-1#256).ult 1#256 = false
    ∧ (I256.ofBits rel (-1#256)).lt rel (I256.ofBits rel 1#256) = true ∧ (-1#256).slt 1#256 = true := by decide

/-- C63: conversions between the two types, and from and to the primitive integers, extend, truncate or keep the bits. -/
theorem C63_casts (c : Cfg) (A : BitVec 256) (t : PrimTy) (p : t.Val c) :
    let U := U256.ofBits c
    let I := I256.ofBits c
    (U A).as_i256 = I A ∧ (I A).as_u256 = U A
    ∧ (U A).as_prim c t = A.setWidth (t.bits c) ∧ (I A).as_prim c t = A.setWidth (t.bits c)
    ∧ (t.signed = true → U256.of_prim_as c t p = U (BitVec.signExtend 256 p)
        ∧ I256.of_prim_as c t p = I (BitVec.signExtend 256 p))
    ∧ (t.signed = false → U256.of_prim_as c t p = U (BitVec.setWidth 256 p)
        ∧ I256.of_prim_as c t p = I (BitVec.setWidth 256 p)) := by
  intro U I
  have tu : (U A).toNat c = A.toNat := U256.toNat_ofBits c A
  have tz : (I A).toInt c = A.toInt := I256.toInt_ofBits c A
  have e1 : (U A).as_i256 = I A := (I256.ofBits_as c A).symm
  obtain ⟨h1, h2, -, -⟩ := C24_as_wide c t p (U A) (I A)
  have hb : t.bits c ≤ 256 := le_trans t.bits_le (by decide)
  have e2 : (U A).as_prim c t = A.setWidth (t.bits c) := by
    apply BitVec.eq_of_toNat_eq
    have := U256.toNat_as_prim c (U A) t
    rw [tu] at this
    rw [BitVec.toNat_setWidth]
    exact_mod_cast this
  have wide : ∀ v : BitVec 256, t.toInt p % 2 ^ 256 = v.toInt % 2 ^ 256 →
      U256.of_prim_as c t p = U v ∧ I256.of_prim_as c t p = I v := by
    intro v hv
    have hv' : v.toInt % 2 ^ 256 = (v.toNat : Int) := by
      rw [BitVec.toInt_eq_toNat_bmod]
      have e : ((2 ^ 256 : Nat) : Int) = 2 ^ 256 := by norm_num
      have := Int.bmod_emod (x := (v.toNat : Int)) (m := 2 ^ 256)
      rw [e] at this
      rw [this]
      exact Int.emod_eq_of_lt (by omega) (by have := v.isLt; omega)
    constructor
    · apply U256.toNat_inj c
      rw [show (U v).toNat c = v.toNat from U256.toNat_ofBits c v]
      omega
    · rw [show I v = I256.ofInt c v.toInt from I256.ofBits_eq c v, ← I256.ofInt_toInt c (I256.of_prim_as c t p), h2]
      exact I256.ofInt_congr c hv
  refine ⟨e1, ?_, e2, ?_, ?_, ?_⟩
  · rw [← e1]; rfl
  · rw [← e2, ← e1]
    unfold I256.as_prim U256.as_prim
    rw [U256.into_words_eq, I256.into_words_eq]
    rfl
  · intro hs
    apply wide
    rw [BitVec.toInt_signExtend_of_le hb, PrimTy.toInt, if_pos hs]
  · intro hs
    apply wide
    rw [PrimTy.toInt, if_neg (by rw [hs]; decide), BitVec.toInt_setWidth]
    exact (Int.bmod_emod (x := (p.toNat : Int)) (m := 2 ^ 256)).symm

example : U256.of_prim_as dbg .i8 (-3) = U256.ofBits dbg (-3) ∧ BitVec.signExtend 256 (-3 : BitVec 8) = -3
    ∧ I256.of_prim_as rel .u8 253 = I256.ofBits rel 253 ∧ ((U256.ofBits rel (-3)).as_prim rel .u16).toNat = 65533 := by decide

end Ethnum
