import Verif.Model.Fuzz
import Verif.Props.UArith
import Verif.Props.IArith
import Verif.Props.Bytes
import Verif.Props.Programs

/-
C56: the repository's differential fuzzer never reports a difference, whatever its input; its reference
implementation is arithmetic on unbounded integers followed by wrapping; and the inputs it leaves out are exactly
those on which its assertion would not hold.
-/

namespace Ethnum
open Fuzz

/-! ### digits -/

private theorem digits_spec (fuel n : Nat) (h : n < 2 ^ fuel) (i : Nat) :
    ((digitsAux fuel n).getD i 0).toNat = n / 2 ^ (64 * i) % 2 ^ 64 := by
  induction fuel generalizing n i with
  | zero =>
    have : n = 0 := by simpa using h
    subst this
    simp [digitsAux]
  | succ k ih =>
    rw [digitsAux]
    split
    · next h0 => subst h0; simp
    · next h0 =>
      cases i with
      | zero => simp
      | succ j =>
        rw [List.getD_cons_succ, ih]
        · rw [Nat.div_div_eq_div_mul, ← Nat.pow_add]
          congr 3
          omega
        · rw [Nat.div_lt_iff_lt_mul (by positivity)]
          calc n < 2 ^ (k + 1) := h
            _ ≤ 2 ^ k * 2 ^ 64 := by
              rw [Nat.pow_succ]
              exact Nat.mul_le_mul_left _ (by decide)

private theorem digits_drop (fuel n : Nat) (h : n < 2 ^ fuel) (i : Nat) :
    ((digitsAux fuel n).drop i).head?.isSome = decide (n / 2 ^ (64 * i) ≠ 0) := by
  induction fuel generalizing n i with
  | zero =>
    have : n = 0 := by simpa using h
    subst this
    simp [digitsAux]
  | succ k ih =>
    rw [digitsAux]
    split
    · next h0 => subst h0; simp
    · next h0 =>
      cases i with
      | zero => simp [h0]
      | succ j =>
        rw [List.drop_succ_cons, ih]
        · rw [Nat.div_div_eq_div_mul, ← Nat.pow_add]
          congr 4
          omega
        · rw [Nat.div_lt_iff_lt_mul (by positivity)]
          calc n < 2 ^ (k + 1) := h
            _ ≤ 2 ^ k * 2 ^ 64 := by
              rw [Nat.pow_succ]
              exact Nat.mul_le_mul_left _ (by decide)

private theorem iter_getD (n : Int) (i : Nat) :
    ((iter_u64_digits n).getD i 0).toNat = n.natAbs / 2 ^ (64 * i) % 2 ^ 64 :=
  digits_spec _ _ Nat.lt_log2_self i

private theorem iter_drop (n : Int) :
    ((iter_u64_digits n).drop 4).head?.isSome = decide (2 ^ 256 ≤ n.natAbs) := by
  rw [iter_u64_digits, digits_drop _ _ Nat.lt_log2_self 4, decide_eq_decide]
  rw [Ne, Nat.div_eq_zero_iff]
  omega

private theorem nibblePair_eq (c : Cfg) (a b : U64) :
    nibblePair c a b = .ok (BitVec.ofNat 128 (a.toNat * 2 ^ 64 + b.toNat)) := by
  have ha := a.isLt
  have hb := b.isLt
  have hs : shlC c (a.setWidth 128) 64 = .ok (BitVec.ofNat 128 (a.toNat * 2 ^ 64)) := by
    have h64 : (64 : U32).toNat = 64 := rfl
    rw [shlC_ok c (by rw [h64]; omega), h64]
    refine congrArg Except.ok (BitVec.eq_of_toNat_eq ?_)
    rw [BitVec.toNat_shiftLeft, BitVec.toNat_setWidth, BitVec.toNat_ofNat,
      Nat.mod_eq_of_lt (by omega : a.toNat < 2 ^ 128), Nat.shiftLeft_eq]
  have hx : (BitVec.ofNat 128 (a.toNat * 2 ^ 64)).toNat = a.toNat * 2 ^ 64 := by
    rw [BitVec.toNat_ofNat, Nat.mod_eq_of_lt]
    omega
  have hy : (b.setWidth 128).toNat = b.toNat := by
    rw [BitVec.toNat_setWidth, Nat.mod_eq_of_lt]
    omega
  rw [nibblePair, hs]
  show addC c _ _ = _
  rw [addC, hx, hy, if_neg (by simp only [Bool.and_eq_true, decide_eq_true_eq]; omega)]
  refine congrArg Except.ok (BitVec.eq_of_toNat_eq ?_)
  rw [BitVec.toNat_add, hx, hy, BitVec.toNat_ofNat]

private theorem nibbles_words (m : Nat) :
    (BitVec.ofNat 128 (m / 2 ^ (64 * 3) % 2 ^ 64 * 2 ^ 64 + m / 2 ^ (64 * 2) % 2 ^ 64)).toNat * 2 ^ 128
      + (BitVec.ofNat 128 (m / 2 ^ (64 * 1) % 2 ^ 64 * 2 ^ 64 + m / 2 ^ (64 * 0) % 2 ^ 64)).toNat = m % 2 ^ 256 := by
  rw [BitVec.toNat_ofNat, BitVec.toNat_ofNat]
  norm_num
  omega

private theorem u_nibbles (c : Cfg) (n : Int) :
    (uInt c).from_nibbles ((iter_u64_digits n).getD 3 0) ((iter_u64_digits n).getD 2 0)
      ((iter_u64_digits n).getD 1 0) ((iter_u64_digits n).getD 0 0) = .ok (U256.ofNat c n.natAbs, false) := by
  simp only [uInt, nibblePair_eq, iter_getD]
  show Except.ok _ = Except.ok _
  congr 1
  have h : U256.from_words c
      (BitVec.ofNat 128 (n.natAbs / 2 ^ (64 * 3) % 2 ^ 64 * 2 ^ 64 + n.natAbs / 2 ^ (64 * 2) % 2 ^ 64))
      (BitVec.ofNat 128 (n.natAbs / 2 ^ (64 * 1) % 2 ^ 64 * 2 ^ 64 + n.natAbs / 2 ^ (64 * 0) % 2 ^ 64))
      = U256.ofNat c n.natAbs := by
    apply U256.toNat_inj
    rw [U256.toNat_from_words, U256.toNat_ofNat, nibbles_words]
  rw [h]
  congr 1
  rw [(C20_u256_prim c _ 0).2.2.2.2.1]
  simp

private theorem i_nibbles (c : Cfg) (n : Int) :
    (iInt c).from_nibbles ((iter_u64_digits n).getD 3 0) ((iter_u64_digits n).getD 2 0)
      ((iter_u64_digits n).getD 1 0) ((iter_u64_digits n).getD 0 0)
      = .ok (I256.ofInt c n.natAbs, decide ((I256.ofInt c n.natAbs).toInt c < 0)) := by
  simp only [iInt, nibblePair_eq, iter_getD]
  show Except.ok _ = Except.ok _
  congr 1
  have h : I256.from_words c
      (BitVec.ofNat 128 (n.natAbs / 2 ^ (64 * 3) % 2 ^ 64 * 2 ^ 64 + n.natAbs / 2 ^ (64 * 2) % 2 ^ 64))
      (BitVec.ofNat 128 (n.natAbs / 2 ^ (64 * 1) % 2 ^ 64 * 2 ^ 64 + n.natAbs / 2 ^ (64 * 0) % 2 ^ 64))
      = I256.ofInt c n.natAbs := by
    apply I256.eq_ofInt
    rw [I256.toNat_from_words, nibbles_words]
    omega
  rw [h]
  congr 1
  rw [(C20_i256_prim c _ 0).2.2.2.2.1]
  simp

/-! ### the reference implementation -/

private theorem xor_decide (p q : Prop) [Decidable p] [Decidable q] : (decide p ^^ decide q) = true ↔ ¬ (p ↔ q) := by
  by_cases hp : p <;> by_cases hq : q <;> simp [hp, hq]

set_option exponentiation.threshold 300 in
/-- Every 256-bit value, signed or unsigned, is converted to the integer it stands for, and every integer to the
256-bit value that is congruent to it modulo `2 ^ 256`, with a flag saying whether it lies outside the type. -/
theorem C56_conversions (c : Cfg) (x : U256) (s : I256) (n : Int) :
    to_bigint (uInt c) x = x.toNat c ∧ to_bigint (iInt c) s = s.toInt c
    ∧ from_bigint (uInt c) n = .ok (U256.ofInt c n, decide (¬ InU256 n))
    ∧ from_bigint (iInt c) n = .ok (I256.ofInt c n, decide (¬ InI256 n)) := by
  have hlen (l : List U8) (h : l.length = 32) (b : U8) : leValue (l ++ [b]) = leValue l + b.toNat * 2 ^ 256 := by
    rw [leValue_append, h, Nat.mul_comm]
    simp [leValue]
  have hll (m : Nat) : (leBytes 32 m).length = 32 := length_leBytes 32 m
  have hpow : (256 : Nat) ^ 32 = 2 ^ 256 := by decide
  refine ⟨?_, ?_, ?_, ?_⟩
  · have hx := U256.toNat_lt c x
    have hn : x.lt_prim c 0 = false := by
      rw [(C20_u256_prim c x 0).2.2.2.2.1]
      simp
    simp only [to_bigint, uInt, hn, Bool.false_eq_true, if_false, (C22_to_bytes c x s).1, from_signed_bytes_le,
      List.length_append, hll, hlen, List.length_cons, List.length_nil, leValue_leBytes, hpow]
    rw [Nat.mod_eq_of_lt hx, if_pos (by simp; omega)]
    simp
  · have h1 := I256.le_toInt c s
    have h2 := I256.toInt_lt c s
    have hn : s.lt_prim c 0 = decide (s.toInt c < 0) := (C20_i256_prim c s 0).2.2.2.2.1
    simp only [to_bigint, iInt, hn, (C22_to_bytes c x s).2.2.2.1, from_signed_bytes_le,
      List.length_append, hll, hlen, List.length_cons, List.length_nil, leValue_leBytes, hpow, decide_eq_true_eq]
    by_cases h : s.toInt c < 0
    · rw [if_pos h, if_neg (by simp; omega)]
      simp
      omega
    · rw [if_neg h, if_pos (by simp; omega)]
      simp
      omega
  · rw [from_bigint]
    simp only [u_nibbles, iter_drop]
    show (if n < 0 then _ else _) = _
    by_cases h : n < 0
    · rw [if_pos h]
      simp only [uInt, (C02_neg c _).2.1]
      show Except.ok _ = Except.ok _
      refine congrArg Except.ok (Prod.ext ?_ ?_)
      · apply U256.eq_ofInt
        rw [U256.toNat_ofInt, U256.toNat_ofNat]
        omega
      · rw [U256.toNat_ofNat, Bool.eq_iff_iff]
        simp only [Bool.or_eq_true, decide_eq_true_eq, Bool.false_xor]
        unfold InU256
        omega
    · rw [if_neg h]
      show Except.ok _ = Except.ok _
      refine congrArg Except.ok (Prod.ext ?_ ?_)
      · apply U256.eq_ofInt
        rw [U256.toNat_ofNat]
        omega
      · rw [Bool.eq_iff_iff]
        simp only [decide_eq_true_eq, Bool.or_false]
        unfold InU256
        omega
  · rw [from_bigint]
    simp only [i_nibbles, iter_drop]
    show (if n < 0 then _ else _) = _
    by_cases h : n < 0
    · rw [if_pos h]
      simp only [iInt, (C06_neg c _).2.1]
      show Except.ok _ = Except.ok _
      refine congrArg Except.ok (Prod.ext ?_ ?_)
      · apply I256.ofInt_congr
        rw [I256.toInt_ofInt]
        omega
      · rw [I256.toInt_ofInt, Bool.eq_iff_iff]
        simp only [Bool.or_eq_true, decide_eq_true_eq, xor_decide]
        unfold InI256
        omega
    · rw [if_neg h]
      show Except.ok _ = Except.ok _
      refine congrArg Except.ok (Prod.ext ?_ ?_)
      · apply I256.ofInt_congr
        omega
      · rw [I256.toInt_ofInt, Bool.eq_iff_iff]
        simp only [Bool.or_eq_true, decide_eq_true_eq]
        unfold InI256
        omega

example : from_bigint (iInt dbg) (-2 ^ 255) = .ok (I256.MIN dbg, false)
    ∧ from_bigint (iInt rel) (2 ^ 255) = .ok (I256.MIN rel, true)
    ∧ from_bigint (uInt dbg) (-1) = .ok (U256.MAX, true)
    ∧ from_bigint (uInt rel) (2 ^ 256 + 5) = .ok (U256.ofNat rel 5, true)
    ∧ to_bigint (iInt rel) (I256.MIN rel) = -2 ^ 255 := by decide +kernel

/-! ### the fuzz target -/

private theorem num_zero (c : Cfg) (n : Num) :
    ((n == Num.ZERO) = decide ((n.as_u256 c).toNat c = 0)) ∧ ((n == Num.ZERO) = decide ((n.as_i256 c).toInt c = 0)) := by
  have h : n = Num.ZERO ↔ (n.as_u256 c).toNat c = 0 := by
    rw [Num.as_u256, U256.toNat_from_words]
    constructor
    · rintro rfl
      rfl
    · intro h
      obtain ⟨hi, lo⟩ := n
      have h1 : hi = 0 := BitVec.eq_of_toNat_eq (by simp at h ⊢; omega)
      have h2 : lo = 0 := BitVec.eq_of_toNat_eq (by simp at h ⊢; omega)
      rw [h1, h2]
      rfl
  have h' : (n.as_i256 c).toInt c = 0 ↔ (n.as_u256 c).toNat c = 0 := by
    have h1 := I256.toNat_toInt c (n.as_i256 c)
    have h2 := I256.toInt_in c (n.as_i256 c)
    have h3 : (n.as_i256 c).toNat c = (n.as_u256 c).toNat c := by
      rw [Num.as_u256, Num.as_i256, U256.toNat_from_words, I256.toNat_from_words]
    rw [h3] at h1
    unfold InI256 at h2
    omega
  constructor
  · rw [Bool.eq_iff_iff, beq_iff_eq, decide_eq_true_eq, h]
  · rw [Bool.eq_iff_iff, beq_iff_eq, decide_eq_true_eq, h, h']

private theorem num_i256 (c : Cfg) (n m : Num) : (n == m) = decide ((n.as_i256 c).toInt c = (m.as_i256 c).toInt c) := by
  rw [Bool.eq_iff_iff, beq_iff_eq, decide_eq_true_eq, I256.toInt_inj_iff]
  constructor
  · rintro rfl
    rfl
  · intro h
    obtain ⟨hi, lo⟩ := n
    obtain ⟨hi', lo'⟩ := m
    have h1 := congrArg (I256.high c) h
    have h2 := congrArg (I256.low c) h
    simp only [Num.as_i256, I256.high_from_words, I256.low_from_words] at h1 h2
    rw [h1, h2]

private theorem imin_val (c : Cfg) : (Num.IMIN.as_i256 c).toInt c = -2 ^ 255 := I256.toInt_MIN c

private theorem umax_val (c : Cfg) : (Num.UMAX.as_i256 c).toInt c = -1 := by
  have h := I256.toNat_from_words c (-1) (-1)
  have h' : (Num.UMAX.as_i256 c).toNat c = 2 ^ 256 - 1 := by
    rw [Num.as_i256, Num.UMAX, I256.toNat_from_words]
    rfl
  have h1 := I256.toNat_toInt c (Num.UMAX.as_i256 c)
  have h2 := I256.toInt_in c (Num.UMAX.as_i256 c)
  unfold InI256 at h2
  omega

private theorem eq_refl_u (c : Cfg) (x : U256) : U256.eq c x x = true := by
  rw [(C20_u256_cmp c x x).2.2.1]
  simp

private theorem eq_refl_i (c : Cfg) (x : I256) : I256.eq c x x = true := by
  rw [(C20_i256_cmp c x x).2.2.1]
  simp

private theorem assert_same {T : Type} (eq : T → T → Bool) (h : ∀ x, eq x x = true) (x : T) (b b' : Bool) :
    assert_op eq (.ok (x, b)) (.ok (x, b')) = if b = b' then .ok () else throwPanic .explicit := by
  show (if eq x x && b == b' then _ else _) = _
  rw [h, Bool.true_and]
  by_cases hb : b = b'
  · simp [hb, pure, Except.pure]
  · simp [hb]

/-- The exact result of an operation on integers. -/
def Fuzz.OpKind.exact : OpKind → Int → Int → Int
  | .add, a, b => a + b
  | .sub, a, b => a - b
  | .mul, a, b => a * b
  | .div, a, b => Int.tdiv a b
  | .rem, a, b => Int.tmod a b

/-- The operation divides. -/
def Fuzz.OpKind.Divides (k : OpKind) : Prop := k = .div ∨ k = .rem

instance (k : OpKind) : Decidable k.Divides := inferInstanceAs (Decidable (k = .div ∨ k = .rem))

private theorem bigOp_ok (k : OpKind) (a b : Int) (h : ¬ (k.Divides ∧ b = 0)) : bigOp k a b = .ok (k.exact a b) := by
  cases k
  · rfl
  · rfl
  · rfl
  · show bigDiv a b = _
    rw [bigDiv, if_neg (fun hb => h ⟨.inl rfl, hb⟩)]
    rfl
  · show bigRem a b = _
    rw [bigRem, if_neg (fun hb => h ⟨.inr rfl, hb⟩)]
    rfl

/-- Every method the fuzzer tests returns the exact result wrapped to the type and whether it lies outside of it. -/
theorem C56_u256_methods (c : Cfg) (k : OpKind) (x y : U256) (h : ¬ (k.Divides ∧ y.toNat c = 0)) :
    uOp c k x y = .ok (U256.ofInt c (k.exact (x.toNat c) (y.toNat c)),
      decide (¬ InU256 (k.exact (x.toNat c) (y.toNat c)))) := by
  have lx := U256.toNat_lt c x
  have ly := U256.toNat_lt c y
  have hnat (n : Nat) : decide (2 ^ 256 ≤ n) = decide (¬ InU256 n) := by
    rw [decide_eq_decide]
    unfold InU256
    omega
  cases k
  · show Except.ok (x.overflowing_add c y) = _
    rw [(C02_overflowing c x y).1, ← U256.ofInt_natCast, hnat]
    push_cast
    rfl
  · show Except.ok (x.overflowing_sub c y) = _
    rw [(C02_overflowing c x y).2]
    refine congrArg Except.ok (Prod.ext rfl ?_)
    rw [decide_eq_decide]
    unfold InU256
    show _ ↔ ¬ (0 ≤ (x.toNat c : Int) - y.toNat c ∧ (x.toNat c : Int) - y.toNat c < 2 ^ 256)
    omega
  · show x.overflowing_mul c y = _
    rw [(C03_mul c x y).2.1, ← U256.ofInt_natCast, hnat]
    push_cast
    rfl
  · have h0 : y.toNat c ≠ 0 := fun h' => h ⟨.inl rfl, h'⟩
    show x.overflowing_div c y = _
    rw [(C04_div c x y h0).2.2.2.2.2.2.2.1, ← U256.ofInt_natCast]
    have hz : Fuzz.OpKind.exact .div (x.toNat c) (y.toNat c) = ((x.toNat c / y.toNat c : Nat) : Int) := by
      rw [Fuzz.OpKind.exact]
      rw [Int.tdiv_eq_ediv_of_nonneg (Int.natCast_nonneg _)]
      rfl
    rw [hz, ← hnat]
    have := Nat.div_le_self (x.toNat c) (y.toNat c)
    rw [decide_eq_false (by omega)]
  · have h0 : y.toNat c ≠ 0 := fun h' => h ⟨.inr rfl, h'⟩
    show x.overflowing_rem c y = _
    rw [(C04_rem c x y h0).2.2.2.2.2.2.1, ← U256.ofInt_natCast]
    have hz : Fuzz.OpKind.exact .rem (x.toNat c) (y.toNat c) = ((x.toNat c % y.toNat c : Nat) : Int) := by
      rw [Fuzz.OpKind.exact]
      rw [Int.tmod_eq_emod_of_nonneg (Int.natCast_nonneg _)]
      rfl
    rw [hz, ← hnat]
    have := Nat.mod_le (x.toNat c) (y.toNat c)
    rw [decide_eq_false (by omega)]

/-- The same for the signed methods, but for the one case in which the remainder is reported as an overflow. -/
theorem C56_i256_methods (c : Cfg) (k : OpKind) (x y : I256) (h : ¬ (k.Divides ∧ y.toInt c = 0)) :
    iOp c k x y = .ok (I256.ofInt c (k.exact (x.toInt c) (y.toInt c)),
      decide (¬ InI256 (k.exact (x.toInt c) (y.toInt c)) ∨ k = .rem ∧ x.toInt c = -2 ^ 255 ∧ y.toInt c = -1)) := by
  have hin := I256.toInt_in c x
  cases k
  · show Except.ok (x.overflowing_add c y) = _
    rw [(C06_add c x y).2.1]
    simp [Fuzz.OpKind.exact]
  · show Except.ok (x.overflowing_sub c y) = _
    rw [(C06_sub c x y).2.1]
    simp [Fuzz.OpKind.exact]
  · show x.overflowing_mul c y = _
    rw [(C07_mul c x y).2.1]
    simp [Fuzz.OpKind.exact]
  · have h0 : y.toInt c ≠ 0 := fun h' => h ⟨.inl rfl, h'⟩
    show x.overflowing_div c y = _
    by_cases hm : x.toInt c = -2 ^ 255 ∧ y.toInt c = -1
    · have hx : x = I256.MIN c := I256.toInt_inj c (by rw [hm.1, I256.toInt_MIN])
      have hy : y = I256.MINUS_ONE c := I256.toInt_inj c (by rw [hm.2, I256.toInt_MINUS_ONE])
      have h' : x.overflowing_div c y = .ok (x, true) := by
        rw [hx, hy]
        exact (C08_min_by_minus_one c).2.2.2.2.2.2.1
      have hz : Fuzz.OpKind.exact .div (x.toInt c) (y.toInt c) = 2 ^ 255 := by
        rw [hm.1, hm.2]
        decide
      rw [h', hz]
      refine congrArg Except.ok (Prod.ext ?_ ?_)
      · apply I256.eq_ofInt_of_emod
        rw [hm.1]
        decide
      · simp [InI256]
    · rw [(C08_div_rem c x y h0 hm).2.2.2.2.2.2.1]
      have : InI256 (Fuzz.OpKind.exact .div (x.toInt c) (y.toInt c)) := (tdiv_in hin h0).1 hm
      refine congrArg Except.ok (Prod.ext rfl ?_)
      simp [this]
  · have h0 : y.toInt c ≠ 0 := fun h' => h ⟨.inr rfl, h'⟩
    show x.overflowing_rem c y = _
    by_cases hm : x.toInt c = -2 ^ 255 ∧ y.toInt c = -1
    · have hx : x = I256.MIN c := I256.toInt_inj c (by rw [hm.1, I256.toInt_MIN])
      have hy : y = I256.MINUS_ONE c := I256.toInt_inj c (by rw [hm.2, I256.toInt_MINUS_ONE])
      have h' : x.overflowing_rem c y = .ok (I256.ZERO, true) := by
        rw [hx, hy]
        exact (C08_min_by_minus_one c).2.2.2.2.2.2.2.1
      have hz : Fuzz.OpKind.exact .rem (x.toInt c) (y.toInt c) = 0 := by
        rw [hm.1, hm.2]
        decide
      rw [h', hz]
      refine congrArg Except.ok (Prod.ext ?_ ?_)
      · apply I256.eq_ofInt_of_toInt
        exact I256.toInt_ZERO c
      · simp [hm.1, hm.2]
    · rw [(C08_div_rem c x y h0 hm).2.2.2.2.2.2.2.1]
      have : InI256 (Fuzz.OpKind.exact .rem (x.toInt c) (y.toInt c)) := tmod_in hin
      refine congrArg Except.ok (Prod.ext rfl ?_)
      have h' : ¬ (Fuzz.OpKind.rem = .rem ∧ x.toInt c = -2 ^ 255 ∧ y.toInt c = -1) := fun h => hm h.2
      rw [eq_comm, decide_eq_false_iff_not, not_or, not_not]
      exact ⟨this, h'⟩

example : uOp dbg .mul U256.MAX (U256.ofNat dbg 3) = .ok (U256.ofInt dbg (-3), true)
    ∧ iOp rel .div (I256.MIN rel) (I256.MINUS_ONE rel) = .ok (I256.MIN rel, true)
    ∧ iOp rel .rem (I256.ofInt rel (-7)) (I256.ofInt rel 2) = .ok (I256.MINUS_ONE rel, false) := by decide +kernel

private theorem uOp_zero (c : Cfg) (k : OpKind) (x y : U256) (h : k.Divides ∧ y.toNat c = 0) : Panics (uOp c k x y) := by
  obtain ⟨rfl | rfl, h0⟩ := h
  · exact (C04_zero c x y h0).2.2.2.2.2.2.2.2.2.2.2.2.2.2.2.1
  · exact (C04_zero c x y h0).2.2.2.2.2.2.2.2.2.2.2.2.2.2.2.2.2.1

private theorem iOp_zero (c : Cfg) (k : OpKind) (x y : I256) (h : k.Divides ∧ y.toInt c = 0) : Panics (iOp c k x y) := by
  obtain ⟨rfl | rfl, h0⟩ := h
  · exact (C08_zero c x y h0).2.2.2.2.2.2.2.1
  · exact (C08_zero c x y h0).2.2.2.2.2.2.2.2.1

private theorem assert_panics {T : Type} (eq : T → T → Bool) (x y : Res (T × Bool)) (h : Panics x) :
    Panics (assert_op eq x y) := by
  obtain ⟨p, rfl⟩ := h
  exact ⟨p, rfl⟩

private theorem interesting_iff (c : Cfg) (t : Target) : t.is_interesting = true ↔
    (∀ op, t = .unsigned op → ¬ (op.kind.Divides ∧ (op.b.as_u256 c).toNat c = 0))
    ∧ (∀ op, t = .signed op → ¬ (op.kind.Divides ∧ (op.b.as_i256 c).toInt c = 0)
      ∧ ¬ (op.kind = .rem ∧ (op.a.as_i256 c).toInt c = -2 ^ 255 ∧ (op.b.as_i256 c).toInt c = -1)) := by
  cases t with
  | signed op =>
    rw [Target.is_interesting, (num_zero c op.b).2, num_i256 c op.a Num.IMIN, num_i256 c op.b Num.UMAX, imin_val,
      umax_val]
    simp [Fuzz.OpKind.Divides]
    grind
  | unsigned op =>
    rw [Target.is_interesting, (num_zero c op.b).1]
    simp [Fuzz.OpKind.Divides]
    grind

/-- The assertion of the fuzz target holds exactly on the inputs it calls interesting. -/
theorem C56_interesting (c : Cfg) (t : Target) : check c t = .ok () ↔ t.is_interesting = true := by
  rw [interesting_iff c]
  cases t with
  | signed op =>
    obtain ⟨k, a, b⟩ := op
    have ha := (C56_conversions c (a.as_u256 c) (a.as_i256 c) 0).2.1
    have hb := (C56_conversions c (a.as_u256 c) (b.as_i256 c) 0).2.1
    have hf (n : Int) := (C56_conversions c (a.as_u256 c) (a.as_i256 c) n).2.2.2
    simp only [reduceCtorEq, false_implies, implies_true, true_and, Target.signed.injEq, forall_eq']
    simp only [check]
    generalize a.as_i256 c = x at *
    generalize b.as_i256 c = y at *
    by_cases h0 : k.Divides ∧ y.toInt c = 0
    · obtain ⟨p, hp⟩ := assert_panics (I256.eq c) _ (reference (iInt c) k x y) (iOp_zero c k x y h0)
      rw [hp]
      simp [h0]
    · have hr : reference (iInt c) k x y = .ok (I256.ofInt c (k.exact (x.toInt c) (y.toInt c)),
          decide (¬ InI256 (k.exact (x.toInt c) (y.toInt c)))) := by
        rw [reference, ha, hb, bigOp_ok k _ _ h0]
        exact hf _
      rw [hr, C56_i256_methods c k x y h0, assert_same _ (eq_refl_i c)]
      by_cases hm : k = .rem ∧ x.toInt c = -2 ^ 255 ∧ y.toInt c = -1
      · have hz : k.exact (x.toInt c) (y.toInt c) = 0 := by
          rw [hm.1, hm.2.1, hm.2.2]
          decide
        have h0in : InI256 0 := by decide
        rw [hz, if_neg (by simp [hm, h0in])]
        simp [hm, throwPanic]
      · rw [if_pos (by rw [decide_eq_decide]; exact or_iff_left hm)]
        exact iff_of_true rfl ⟨h0, hm⟩
  | unsigned op =>
    obtain ⟨k, a, b⟩ := op
    have ha := (C56_conversions c (a.as_u256 c) (a.as_i256 c) 0).1
    have hb := (C56_conversions c (b.as_u256 c) (b.as_i256 c) 0).1
    have hf (n : Int) := (C56_conversions c (a.as_u256 c) (a.as_i256 c) n).2.2.1
    simp only [reduceCtorEq, false_implies, implies_true, and_true, Target.unsigned.injEq, forall_eq']
    simp only [check]
    generalize a.as_u256 c = x at *
    generalize b.as_u256 c = y at *
    by_cases h0 : k.Divides ∧ y.toNat c = 0
    · obtain ⟨p, hp⟩ := assert_panics (U256.eq c) _ (reference (uInt c) k x y) (uOp_zero c k x y h0)
      rw [hp]
      simp [h0]
    · have hr : reference (uInt c) k x y = .ok (U256.ofInt c (k.exact (x.toNat c) (y.toNat c)),
          decide (¬ InU256 (k.exact (x.toNat c) (y.toNat c)))) := by
        rw [reference, ha, hb, bigOp_ok k _ _ (fun h => h0 ⟨h.1, by omega⟩)]
        exact hf _
      rw [hr, C56_u256_methods c k x y h0, assert_same _ (eq_refl_u c), if_pos rfl]
      simp [h0]

/-- The fuzzer reports no difference, whatever target it is given. -/
theorem C56_fuzz (c : Cfg) (t : Target) : fuzz c t = .ok () := by
  rw [fuzz]
  split
  · next h => exact (C56_interesting c t).2 h
  · rfl

example : fuzz dbg (.signed ⟨.mul, ⟨-1, 5⟩, ⟨7, 9⟩⟩) = .ok ()
    ∧ Target.is_interesting (.signed ⟨.mul, ⟨-1, 5⟩, ⟨7, 9⟩⟩) = true
    ∧ check rel (.signed ⟨.rem, Num.IMIN, Num.UMAX⟩) = throwPanic .explicit
    ∧ check rel (.unsigned ⟨.rem, Num.IMIN, Num.UMAX⟩) = .ok ()
    ∧ Panics (check rel (.unsigned ⟨.div, ⟨1, 2⟩, ⟨0, 0⟩⟩)) := by
  refine ⟨by decide +kernel, by decide +kernel, by decide +kernel, by decide +kernel, .divByZero, by decide +kernel⟩

end Ethnum
