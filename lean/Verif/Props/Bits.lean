import Verif.Proofs.Shift
import Verif.Proofs.Bits
import Verif.Proofs.Bv
import Verif.Proofs.Bytes
import Verif.Proofs.ShiftBy
import Verif.Props.Repr
import Verif.Props.UArith
import Mathlib.Data.Finset.Card
import Mathlib.Data.Nat.Bitwise

/-
C13 rotations, C14 bit counting, C15 byte and bit reversal, C18 powers of two.
-/

namespace Ethnum

/-! ### C13 -/

theorem toNat_sub_ff (n : U32) : ((256 - n) &&& 0xff).toNat = (256 - n.toNat % 256) % 256 := by
  rw [toNat_and_ff, BitVec.toNat_sub]
  show (2 ^ 32 - n.toNat + 256) % 2 ^ 32 % 256 = _
  have := n.isLt
  omega

theorem subC_ok' {c : Cfg} {a b : U32} (h : c.overflowChecks = true → b.toNat ≤ a.toNat) :
    subC c a b = .ok (a - b) := by
  by_cases hc : c.overflowChecks = true
  · exact subC_ok c (h hc)
  · simp [subC, hc]

theorem testBit_rot (a k i : Nat) (hk : k < 256) (hi : i < 256) (ha : a < 2 ^ 256) :
    (a * 2 ^ k % 2 ^ 256 ||| a / 2 ^ ((256 - k) % 256)).testBit ((i + k) % 256) = a.testBit i := by
  rw [Nat.testBit_or, Nat.testBit_mod_two_pow, Nat.testBit_mul_two_pow, Nat.testBit_div_two_pow]
  have hbig : ∀ j, 256 ≤ j → a.testBit j = false := fun j hj =>
    Nat.testBit_lt_two_pow (Nat.lt_of_lt_of_le ha (Nat.pow_le_pow_right (by omega) hj))
  by_cases h : i + k < 256
  · rw [Nat.mod_eq_of_lt h, show i + k - k = i by omega]
    rw [decide_eq_true h, decide_eq_true (show k ≤ i + k by omega)]
    rcases Nat.eq_zero_or_pos k with h0 | h0
    · subst h0; simp
    · rw [hbig (i + k + (256 - k) % 256) (by omega)]; simp
  · have e : (i + k) % 256 = i + k - 256 := by omega
    rw [e, decide_eq_false (show ¬ k ≤ i + k - 256 by omega)]
    rw [show i + k - 256 + (256 - k) % 256 = i by omega]; simp

theorem Native.rol3_bits (c : Cfg) (a : U256) (n : U32) (h : c.overflowChecks = true → n.toNat ≤ 256) :
    ∃ r, Native.rol3 c a n = .ok r
      ∧ ∀ i < 256, (r.toNat c).testBit ((i + n.toNat) % 256) = (a.toNat c).testBit i := by
  unfold Native.rol3
  have h1 : (n &&& 0xff).toNat < 256 := by rw [toNat_and_ff]; omega
  have h2 : ((256 - n) &&& 0xff).toNat < 256 := by rw [toNat_and_ff]; omega
  rw [U256.shl_eq c a _ h1, ok_bind, subC_ok' h, ok_bind, U256.shr_eq c a _ h2, ok_bind]
  refine ⟨_, rfl, fun i hi => ?_⟩
  have ha := U256.toNat_lt c a
  rw [U256.toNat_bitor, U256.toNat_ofNat, U256.toNat_ofNat_of_lt c (Nat.lt_of_le_of_lt (Nat.div_le_self _ _) ha),
    toNat_sub_ff, toNat_and_ff]
  have := testBit_rot (a.toNat c) (n.toNat % 256) i (by omega) hi ha
  rw [Nat.add_mod_mod] at this
  exact this

theorem testBit_ror (a k i : Nat) (hk : k < 256) (hi : i < 256) (ha : a < 2 ^ 256) :
    (a / 2 ^ k ||| a * 2 ^ ((256 - k) % 256) % 2 ^ 256).testBit i = a.testBit ((i + k) % 256) := by
  rw [Nat.testBit_or, Nat.testBit_mod_two_pow, Nat.testBit_mul_two_pow, Nat.testBit_div_two_pow, decide_eq_true hi,
    Bool.true_and]
  have hbig : ∀ j, 256 ≤ j → a.testBit j = false := fun j hj =>
    Nat.testBit_lt_two_pow (Nat.lt_of_lt_of_le ha (Nat.pow_le_pow_right (by omega) hj))
  by_cases h : i + k < 256
  · rw [Nat.mod_eq_of_lt h]
    rcases Nat.eq_zero_or_pos k with h0 | h0
    · subst h0; simp
    · rw [decide_eq_false (by omega)]; simp
  · have e : (i + k) % 256 = i + k - 256 := by omega
    rw [e, hbig (i + k) (by omega), decide_eq_true (by omega)]
    rw [show i - (256 - k) % 256 = i + k - 256 by omega]; simp

theorem Native.ror3_bits (c : Cfg) (a : U256) (n : U32) (h : c.overflowChecks = true → n.toNat ≤ 256) :
    ∃ r, Native.ror3 c a n = .ok r
      ∧ ∀ i < 256, (r.toNat c).testBit i = (a.toNat c).testBit ((i + n.toNat) % 256) := by
  unfold Native.ror3
  have h1 : (n &&& 0xff).toNat < 256 := by rw [toNat_and_ff]; omega
  have h2 : ((256 - n) &&& 0xff).toNat < 256 := by rw [toNat_and_ff]; omega
  rw [U256.shr_eq c a _ h1, ok_bind, subC_ok' h, ok_bind, U256.shl_eq c a _ h2, ok_bind]
  refine ⟨_, rfl, fun i hi => ?_⟩
  have ha := U256.toNat_lt c a
  rw [U256.toNat_bitor, U256.toNat_ofNat_of_lt c (Nat.lt_of_le_of_lt (Nat.div_le_self _ _) ha), U256.toNat_ofNat,
    toNat_sub_ff, toNat_and_ff]
  have := testBit_ror (a.toNat c) (n.toNat % 256) i (by omega) hi ha
  rw [Nat.add_mod_mod] at this
  exact this

theorem Llvm.rol3_bits (c : Cfg) (a : U256) (n : U32) {i : Nat} (hi : i < 256) :
    ((Llvm.rol3 c a n).toNat c).testBit ((i + n.toNat) % 256) = (a.toNat c).testBit i := by
  unfold Llvm.rol3 Template.rol
  have hj : (i + n.toNat) % 256 < 256 := by omega
  rw [Llvm.store_eq, U256.toNat_ofNat_of_lt c (BitVec.isLt _), Llvm.load_eq, U256.testBit_toNat, BitVec.testBit_toNat,
    BitVec.getLsbD_rotateLeft]
  by_cases hlt : (i + n.toNat) % 256 < n.toNat % 256
  · rw [decide_eq_true hlt, cond_true]; congr 1; omega
  · rw [decide_eq_false hlt, cond_false, decide_eq_true hj, Bool.true_and]; congr 1; omega
theorem Llvm.ror3_bits (c : Cfg) (a : U256) (n : U32) {i : Nat} (hi : i < 256) :
    ((Llvm.ror3 c a n).toNat c).testBit i = (a.toNat c).testBit ((i + n.toNat) % 256) := by
  unfold Llvm.ror3 Template.ror
  rw [Llvm.store_eq, U256.toNat_ofNat_of_lt c (BitVec.isLt _), Llvm.load_eq, U256.testBit_toNat, BitVec.testBit_toNat,
    BitVec.getLsbD_rotateRight]
  by_cases hlt : i < 256 - n.toNat % 256
  · rw [decide_eq_true hlt, cond_true]; congr 1; omega
  · rw [decide_eq_false hlt, cond_false, decide_eq_true hi, Bool.true_and]; congr 1; omega

theorem rol3_bits (c : Cfg) (a : U256) (n : U32) (h : c.overflowChecks = true → c.llvm = false → n.toNat ≤ 256) :
    ∃ r, Intr.rol3 c a n = .ok r
      ∧ ∀ i < 256, (r.toNat c).testBit ((i + n.toNat) % 256) = (a.toNat c).testBit i := by
  unfold Intr.rol3; split
  · exact ⟨_, rfl, fun i hi => Llvm.rol3_bits c a n hi⟩
  · rename_i hl; exact Native.rol3_bits c a n (fun hc => h hc (by simpa using hl))
theorem ror3_bits (c : Cfg) (a : U256) (n : U32) (h : c.overflowChecks = true → c.llvm = false → n.toNat ≤ 256) :
    ∃ r, Intr.ror3 c a n = .ok r
      ∧ ∀ i < 256, (r.toNat c).testBit i = (a.toNat c).testBit ((i + n.toNat) % 256) := by
  unfold Intr.ror3; split
  · exact ⟨_, rfl, fun i hi => Llvm.ror3_bits c a n hi⟩
  · rename_i hl; exact Native.ror3_bits c a n (fun hc => h hc (by simpa using hl))

/-- C13 for `U256`, amounts up to 256, or any amount in builds without overflow checks or with the LLVM back-end:
bit `i` moves to position `i + n` modulo 256, and back. Missing: amounts above 256 in builds of the native back-end with
overflow checks, where `C13_rotate_panics` shows that the code panics. -/
theorem C13_u256_rotate_partial (c : Cfg) (a : U256) (n : U32) (h : c.overflowChecks = true → c.llvm = false → n.toNat ≤ 256) :
    ∃ l r, a.rotate_left c n = .ok l ∧ a.rotate_right c n = .ok r
      ∧ (∀ i < 256, (l.toNat c).testBit ((i + n.toNat) % 256) = (a.toNat c).testBit i)
      ∧ (∀ i < 256, (r.toNat c).testBit i = (a.toNat c).testBit ((i + n.toNat) % 256)) := by
  obtain ⟨l, h1, h2⟩ := rol3_bits c a n h
  obtain ⟨r, h3, h4⟩ := ror3_bits c a n h
  exact ⟨l, r, h1, h3, h2, h4⟩

example : (dbg.overflowChecks = true → dbg.llvm = false → (200 : U32).toNat ≤ 256)
    ∧ (U256.ofNat dbg (2 ^ 100)).rotate_left dbg 200 = .ok (U256.ofNat dbg (2 ^ 44))
    ∧ (dll.overflowChecks = true → dll.llvm = false → (1000 : U32).toNat ≤ 256)
    ∧ (U256.ofNat dll (2 ^ 100)).rotate_left dll 1000 = .ok (U256.ofNat dll (2 ^ 76))
    ∧ (U256.ofNat rel (2 ^ 100)).rotate_right rel 200 = .ok (U256.ofNat rel (2 ^ 156)) := by decide +kernel

/-- C13 for `I256`, on the two's complement pattern. -/
theorem C13_i256_rotate_partial (c : Cfg) (a : I256) (n : U32) (h : c.overflowChecks = true → c.llvm = false → n.toNat ≤ 256) :
    ∃ l r, a.rotate_left c n = .ok l ∧ a.rotate_right c n = .ok r
      ∧ (∀ i < 256, (l.toNat c).testBit ((i + n.toNat) % 256) = (a.toNat c).testBit i)
      ∧ (∀ i < 256, (r.toNat c).testBit i = (a.toNat c).testBit ((i + n.toNat) % 256)) := by
  obtain ⟨l, h1, h2⟩ := rol3_bits c a.as_u256 n h
  obtain ⟨r, h3, h4⟩ := ror3_bits c a.as_u256 n h
  refine ⟨l.as_i256, r.as_i256, ?_, ?_, h2, h4⟩
  · unfold I256.rotate_left Intr.irol3; rw [h1]; rfl
  · unfold I256.rotate_right Intr.iror3; rw [h3]; rfl

example : (I256.MIN dbg).rotate_left dbg 1 = .ok (I256.ONE dbg) := by decide +kernel

/-- C13: `rotate_right(n)` undoes `rotate_left(n)` and conversely, on both types. -/
theorem C13_rotate_inverse_partial (c : Cfg) (a : U256) (s : I256) (n : U32)
    (h : c.overflowChecks = true → c.llvm = false → n.toNat ≤ 256) :
    (a.rotate_left c n >>= fun x => x.rotate_right c n) = .ok a
    ∧ (a.rotate_right c n >>= fun x => x.rotate_left c n) = .ok a
    ∧ (s.rotate_left c n >>= fun x => x.rotate_right c n) = .ok s
    ∧ (s.rotate_right c n >>= fun x => x.rotate_left c n) = .ok s := by
  have key : ∀ a : U256, (a.rotate_left c n >>= fun x => x.rotate_right c n) = .ok a
      ∧ (a.rotate_right c n >>= fun x => x.rotate_left c n) = .ok a := by
    intro a
    obtain ⟨l, r, h1, h2, h3, h4⟩ := C13_u256_rotate_partial c a n h
    obtain ⟨_, r', _, h6, _, h8⟩ := C13_u256_rotate_partial c l n h
    obtain ⟨l', _, h5', _, h7', _⟩ := C13_u256_rotate_partial c r n h
    rw [h1, h2, ok_bind, ok_bind, h6, h5']
    have hbig : ∀ (x : U256) j, 256 ≤ j → (x.toNat c).testBit j = false := fun x j hj =>
      Nat.testBit_lt_two_pow (Nat.lt_of_lt_of_le (U256.toNat_lt c x) (Nat.pow_le_pow_right (by omega) hj))
    constructor
    · congr 1
      apply U256.toNat_inj c
      apply Nat.eq_of_testBit_eq
      intro i
      by_cases hi : i < 256
      · rw [h8 i hi, h3 i hi]
      · rw [hbig _ i (by omega), hbig _ i (by omega)]
    · congr 1
      apply U256.toNat_inj c
      apply Nat.eq_of_testBit_eq
      intro i
      by_cases hi : i < 256
      · -- the bit that comes to position `i`
        obtain ⟨j, hj, hji⟩ : ∃ j < 256, (j + n.toNat) % 256 = i :=
          ⟨(i + (256 - n.toNat % 256)) % 256, by omega, by omega⟩
        rw [← hji, h7' j hj, h4 j hj]
      · rw [hbig _ i (by omega), hbig _ i (by omega)]
  refine ⟨(key a).1, (key a).2, ?_, ?_⟩
  · have := (key s.as_u256).1
    unfold I256.rotate_left I256.rotate_right Intr.irol3 Intr.iror3
    unfold U256.rotate_left U256.rotate_right at this
    cases hh : Intr.rol3 c s.as_u256 n with
    | error e => rw [hh] at this; exact absurd this (by simp [error_bind])
    | ok x =>
      rw [hh, ok_bind] at this
      show (Intr.ror3 c x n >>= fun y => Except.ok y.as_i256) = _
      rw [this]; rfl
  · have := (key s.as_u256).2
    unfold I256.rotate_left I256.rotate_right Intr.irol3 Intr.iror3
    unfold U256.rotate_left U256.rotate_right at this
    cases hh : Intr.ror3 c s.as_u256 n with
    | error e => rw [hh] at this; exact absurd this (by simp [error_bind])
    | ok x =>
      rw [hh, ok_bind] at this
      show (Intr.rol3 c x n >>= fun y => Except.ok y.as_i256) = _
      rw [this]; rfl

example : (rel.overflowChecks = true → rel.llvm = false → (300#32 : U32).toNat ≤ 256)
    ∧ ((U256.ofNat rel 5).rotate_left rel 300 >>= fun x => x.rotate_right rel 300) = .ok (U256.ofNat rel 5)
    ∧ (dbg.overflowChecks = true → dbg.llvm = false → (255#32 : U32).toNat ≤ 256)
    ∧ ((I256.ofInt dbg (-6)).rotate_left dbg 255 >>= fun x => x.rotate_right dbg 255) = .ok (I256.ofInt dbg (-6)) := by
  decide +kernel

/-- C13 is false in builds of the native back-end with overflow checks: every rotation by more than 256 panics. -/
theorem C13_rotate_panics (c : Cfg) (hc : c.overflowChecks = true) (hv : c.llvm = false) (a : U256) (s : I256) (n : U32) (hn : 256 < n.toNat) :
    Panics (a.rotate_left c n) ∧ Panics (a.rotate_right c n)
    ∧ Panics (s.rotate_left c n) ∧ Panics (s.rotate_right c n) := by
  have h1 : (n &&& 0xff).toNat < 256 := by rw [toNat_and_ff]; omega
  have hs : subC c 256 n = .error (.panic .subOverflow) := by
    unfold subC
    have : (256 : U32).toNat < n.toNat := hn
    rw [hc, decide_eq_true this]; rfl
  have hl : ∀ a : U256, Intr.rol3 c a n = .error (.panic .subOverflow) := fun a => by
    unfold Intr.rol3 Native.rol3
    rw [if_neg (by simp [hv]), U256.shl_eq c a _ h1, ok_bind, hs]; rfl
  have hr : ∀ a : U256, Intr.ror3 c a n = .error (.panic .subOverflow) := fun a => by
    unfold Intr.ror3 Native.ror3
    rw [if_neg (by simp [hv]), U256.shr_eq c a _ h1, ok_bind, hs]; rfl
  refine ⟨⟨_, hl a⟩, ⟨_, hr a⟩, ⟨.subOverflow, ?_⟩, ⟨.subOverflow, ?_⟩⟩
  · unfold I256.rotate_left Intr.irol3; rw [hl]; rfl
  · unfold I256.rotate_right Intr.iror3; rw [hr]; rfl

example : dbg.overflowChecks = true ∧ dbg.llvm = false ∧ 256 < (257 : U32).toNat
    ∧ (U256.ONE dbg).rotate_left dbg 257 = .error (.panic .subOverflow) := by decide +kernel

/-! ### C14 -/

/-- The top `r` binary digits of the 256-bit number `x` are equal to `b` and the next one is not. -/
def IsLeadingRun (b : Bool) (x r : Nat) : Prop :=
  r ≤ 256 ∧ (∀ i < r, x.testBit (255 - i) = b) ∧ (r < 256 → x.testBit (255 - r) = !b)

/-- The bottom `r` binary digits of the 256-bit number `x` are equal to `b` and the next one is not. -/
def IsTrailingRun (b : Bool) (x r : Nat) : Prop :=
  r ≤ 256 ∧ (∀ i < r, x.testBit i = b) ∧ (r < 256 → x.testBit r = !b)

theorem negC_ofBool (c : Cfg) (b : Bool) :
    negC c (ofBool 128 b) = .ok (if b then BitVec.allOnes 128 else 0) := by
  have : ofBool 128 b ≠ BitVec.intMin 128 := by cases b <;> decide
  unfold negC
  rw [decide_eq_false this, Bool.and_false]
  cases b <;> rfl

theorem addC_small (c : Cfg) {m : Nat} {x : U32} (h : m + x.toNat < 2 ^ 32) :
    ∃ r, addC c (u32 m) x = .ok r ∧ r.toNat = m + x.toNat := by
  have hm : (u32 m).toNat = m := toNat_u32 (by omega)
  unfold addC
  rw [hm, decide_eq_false (by omega), Bool.and_false]
  exact ⟨_, rfl, by rw [BitVec.toNat_add, hm]; omega⟩

theorem testBit_high (c : Cfg) (a : U256) (i : Nat) (hi : i < 128) :
    (a.toNat c).testBit (128 + i) = (a.high c).getLsbD i := by
  rw [U256.testBit_toNat, U256.getLsbD_bv, if_neg (by omega), Nat.add_sub_cancel_left]
theorem testBit_low (c : Cfg) (a : U256) (i : Nat) (hi : i < 128) :
    (a.toNat c).testBit i = (a.low c).getLsbD i := by
  rw [U256.testBit_toNat, U256.getLsbD_bv, if_pos hi]

theorem mask_all {w : Nat} (x y : BitVec w) : (x &&& ~~~(BitVec.allOnes w)) ||| (y &&& BitVec.allOnes w) = y := by simp
theorem mask_all' {w : Nat} (x y : BitVec w) : (y &&& BitVec.allOnes w) ||| (x &&& ~~~(BitVec.allOnes w)) = y := by simp
theorem mask_none {w : Nat} (x y : BitVec w) : (x &&& ~~~(0#w)) ||| (y &&& 0#w) = x := by simp
theorem mask_none' {w : Nat} (x y : BitVec w) : (y &&& 0#w) ||| (x &&& ~~~(0#w)) = x := by simp

theorem Native.ctlz_spec (c : Cfg) (a : U256) :
    ∃ r, Native.ctlz c a = .ok r ∧ IsLeadingRun false (a.toNat c) r.toNat := by
  unfold Native.ctlz
  rw [negC_ofBool, ok_bind]
  by_cases h : a.high c = 0
  · rw [decide_eq_true h, if_pos rfl]
    have e : (a.high c &&& ~~~(BitVec.allOnes 128)) ||| (a.low c &&& BitVec.allOnes 128) = a.low c := mask_all _ _
    rw [e]
    have hle := leadingZeros_le (a.low c)
    obtain ⟨r, h1, h2⟩ := addC_small c (m := leadingZeros (a.low c))
      (x := (BitVec.allOnes 128).setWidth 32 &&& 128) (by
        have : ((BitVec.allOnes 128).setWidth 32 &&& 128 : U32).toNat = 128 := by decide +kernel
        omega)
    have h128 : ((BitVec.allOnes 128).setWidth 32 &&& 128 : U32).toNat = 128 := by decide +kernel
    rw [h128] at h2
    refine ⟨r, h1, by omega, ?_, ?_⟩
    · intro i hi
      by_cases hi2 : i < 128
      · rw [show 255 - i = 128 + (127 - i) by omega, testBit_high c a _ (by omega), h]; simp
      · have := leadingZeros_clear (a.low c) (i := i - 128) (by omega)
        rw [BitVec.getMsbD] at this
        rw [testBit_low c a _ (by omega)]
        rw [decide_eq_true (by omega), Bool.true_and] at this
        rw [← this, show 128 - 1 - (i - 128) = 255 - i by omega]
    · intro hr
      have := leadingZeros_set (a.low c) (by omega)
      rw [BitVec.getMsbD, decide_eq_true (by omega), Bool.true_and] at this
      rw [testBit_low c a _ (by omega), Bool.not_false, ← this]; congr 1; omega
  · rw [decide_eq_false h, if_neg (by simp)]
    have e : (a.high c &&& ~~~(0 : U128)) ||| (a.low c &&& 0) = a.high c := mask_none _ _
    rw [e]
    have hle := leadingZeros_lt (x := a.high c) (fun hh => h (BitVec.eq_of_toNat_eq hh))
    obtain ⟨r, h1, h2⟩ := addC_small c (m := leadingZeros (a.high c))
      (x := (0 : U128).setWidth 32 &&& 128) (by
        have : ((0 : U128).setWidth 32 &&& 128 : U32).toNat = 0 := by decide +kernel
        omega)
    have h0 : ((0 : U128).setWidth 32 &&& 128 : U32).toNat = 0 := by decide +kernel
    rw [h0] at h2
    refine ⟨r, h1, by omega, ?_, ?_⟩
    · intro i hi
      have := leadingZeros_clear (a.high c) (i := i) (by omega)
      rw [BitVec.getMsbD, decide_eq_true (by omega), Bool.true_and] at this
      rw [show 255 - i = 128 + (127 - i) by omega, testBit_high c a _ (by omega), ← this]
    · intro hr
      have := leadingZeros_set (a.high c) hle
      rw [BitVec.getMsbD, decide_eq_true (by omega), Bool.true_and] at this
      rw [show 255 - r.toNat = 128 + (127 - r.toNat) by omega, testBit_high c a _ (by omega), Bool.not_false, ← this]
      congr 1; omega

theorem ctlz_spec (c : Cfg) (a : U256) : ∃ r, Intr.ctlz c a = .ok r ∧ IsLeadingRun false (a.toNat c) r.toNat := by
  unfold Intr.ctlz; split
  · refine ⟨_, rfl, ?_⟩
    have hle := leadingZeros_le (a.bv c)
    unfold Llvm.ctlz Template.ctlz
    rw [Llvm.load_eq, toNat_u32 (by omega)]
    refine ⟨hle, fun i hi => ?_, fun hi => ?_⟩
    · have := leadingZeros_clear (a.bv c) hi
      rw [BitVec.getMsbD, decide_eq_true (by omega), Bool.true_and] at this
      rw [U256.testBit_toNat]; exact this
    · have := leadingZeros_set (a.bv c) hi
      rw [BitVec.getMsbD, decide_eq_true (by omega), Bool.true_and] at this
      rw [U256.testBit_toNat]; exact this
  · exact Native.ctlz_spec c a

theorem trailingZeros_lt {w : Nat} {x : BitVec w} (hx : x.toNat ≠ 0) : trailingZeros x < w := by
  rcases Nat.lt_or_ge (trailingZeros x) w with h | h
  · exact h
  · exfalso
    apply hx
    have : x = 0#w := by
      apply BitVec.eq_of_getLsbD_eq
      intro i hi
      rw [trailingZeros_clear x (by omega)]; simp
    rw [this]; simp

theorem Native.cttz_spec (c : Cfg) (a : U256) :
    ∃ r, Native.cttz c a = .ok r ∧ IsTrailingRun false (a.toNat c) r.toNat := by
  unfold Native.cttz
  rw [negC_ofBool, ok_bind]
  by_cases h : a.low c = 0
  · rw [decide_eq_true h, if_pos rfl]
    have e : (a.high c &&& BitVec.allOnes 128) ||| (a.low c &&& ~~~(BitVec.allOnes 128)) = a.high c := mask_all' _ _
    rw [e]
    have hle := trailingZeros_le (a.high c)
    have h128 : ((BitVec.allOnes 128).setWidth 32 &&& 128 : U32).toNat = 128 := by decide +kernel
    obtain ⟨r, h1, h2⟩ := addC_small c (m := trailingZeros (a.high c))
      (x := (BitVec.allOnes 128).setWidth 32 &&& 128) (by omega)
    rw [h128] at h2
    refine ⟨r, h1, by omega, ?_, ?_⟩
    · intro i hi
      by_cases hi2 : i < 128
      · rw [testBit_low c a _ hi2, h]; simp
      · have := trailingZeros_clear (a.high c) (i := i - 128) (by omega)
        rw [show i = 128 + (i - 128) by omega, testBit_high c a _ (by omega), ← this]
    · intro hr
      have := trailingZeros_set (a.high c) (by omega)
      rw [h2, Nat.add_comm, testBit_high c a _ (by omega), this]; rfl
  · rw [decide_eq_false h, if_neg (by simp)]
    have e : (a.high c &&& 0) ||| (a.low c &&& ~~~(0 : U128)) = a.low c := mask_none' _ _
    rw [e]
    have hle := trailingZeros_lt (x := a.low c) (fun hh => h (BitVec.eq_of_toNat_eq hh))
    have h0 : ((0 : U128).setWidth 32 &&& 128 : U32).toNat = 0 := by decide +kernel
    obtain ⟨r, h1, h2⟩ := addC_small c (m := trailingZeros (a.low c))
      (x := (0 : U128).setWidth 32 &&& 128) (by omega)
    rw [h0] at h2
    refine ⟨r, h1, by omega, ?_, ?_⟩
    · intro i hi
      rw [testBit_low c a _ (by omega), trailingZeros_clear (a.low c) (by omega)]
    · intro hr
      rw [testBit_low c a _ (by omega), h2, Nat.add_zero, trailingZeros_set (a.low c) hle]; rfl

theorem cttz_spec (c : Cfg) (a : U256) : ∃ r, Intr.cttz c a = .ok r ∧ IsTrailingRun false (a.toNat c) r.toNat := by
  unfold Intr.cttz; split
  · refine ⟨_, rfl, ?_⟩
    have hle := trailingZeros_le (a.bv c)
    unfold Llvm.cttz Template.cttz
    rw [Llvm.load_eq, toNat_u32 (by omega)]
    refine ⟨hle, fun i hi => ?_, fun hi => ?_⟩
    · rw [U256.testBit_toNat]; exact trailingZeros_clear (a.bv c) hi
    · rw [U256.testBit_toNat]; exact trailingZeros_set (a.bv c) hi
  · exact Native.cttz_spec c a

theorem leadingRun_not (c : Cfg) (a : U256) (r : Nat) (h : IsLeadingRun false (a.not.toNat c) r) :
    IsLeadingRun true (a.toNat c) r := by
  obtain ⟨h1, h2, h3⟩ := h
  refine ⟨h1, fun i hi => ?_, fun hr => ?_⟩
  · have := h2 i hi
    rw [(C21_testBit c a a _ (by omega)).2.2.2] at this; simpa using this
  · have := h3 hr
    rw [(C21_testBit c a a _ (by omega)).2.2.2] at this; simpa using this

theorem trailingRun_not (c : Cfg) (a : U256) (r : Nat) (h : IsTrailingRun false (a.not.toNat c) r) :
    IsTrailingRun true (a.toNat c) r := by
  obtain ⟨h1, h2, h3⟩ := h
  refine ⟨h1, fun i hi => ?_, fun hr => ?_⟩
  · have := h2 i hi
    rw [(C21_testBit c a a _ (by omega)).2.2.2] at this; simpa using this
  · have := h3 hr
    rw [(C21_testBit c a a _ hr).2.2.2] at this; simpa using this

/-- The run lengths determine the counts. -/
theorem C14_runs_unique (b : Bool) (x r s : Nat) :
    (IsLeadingRun b x r → IsLeadingRun b x s → r = s) ∧ (IsTrailingRun b x r → IsTrailingRun b x s → r = s) := by
  constructor
  · rintro ⟨h1, h2, h3⟩ ⟨k1, k2, k3⟩
    rcases Nat.lt_trichotomy r s with h | h | h
    · have a := k2 r h; have b' := h3 (by omega); rw [a] at b'; cases b <;> simp at b'
    · exact h
    · have a := h2 s h; have b' := k3 (by omega); rw [a] at b'; cases b <;> simp at b'
  · rintro ⟨h1, h2, h3⟩ ⟨k1, k2, k3⟩
    rcases Nat.lt_trichotomy r s with h | h | h
    · have a := k2 r h; have b' := h3 (by omega); rw [a] at b'; cases b <;> simp at b'
    · exact h
    · have a := h2 s h; have b' := k3 (by omega); rw [a] at b'; cases b <;> simp at b'

example : IsLeadingRun false (2 ^ 200) 55 ∧ IsTrailingRun true (2 ^ 100 + 7) 3 := by
  unfold IsLeadingRun IsTrailingRun; decide +kernel

/-- C14: leading and trailing runs of the 256-bit pattern, `U256`. -/
theorem C14_u256_runs (c : Cfg) (a : U256) :
    (∃ r, a.leading_zeros c = .ok r ∧ IsLeadingRun false (a.toNat c) r.toNat)
    ∧ (∃ r, a.trailing_zeros c = .ok r ∧ IsTrailingRun false (a.toNat c) r.toNat)
    ∧ (∃ r, a.leading_ones c = .ok r ∧ IsLeadingRun true (a.toNat c) r.toNat)
    ∧ (∃ r, a.trailing_ones c = .ok r ∧ IsTrailingRun true (a.toNat c) r.toNat) := by
  refine ⟨ctlz_spec c a, cttz_spec c a, ?_, ?_⟩
  · obtain ⟨r, h1, h2⟩ := ctlz_spec c a.not
    exact ⟨r, h1, leadingRun_not c a _ h2⟩
  · obtain ⟨r, h1, h2⟩ := cttz_spec c a.not
    exact ⟨r, h1, trailingRun_not c a _ h2⟩

example : (U256.ofNat dbg (2 ^ 200 + 2 ^ 130)).leading_zeros dbg = .ok 55
    ∧ (U256.ofNat rel (2 ^ 200 + 2 ^ 130)).trailing_zeros rel = .ok 130
    ∧ U256.ZERO.leading_zeros dbg = .ok 256 ∧ U256.MAX.trailing_ones rel = .ok 256 := by decide +kernel

/-- C14: the same for the two's complement pattern of `I256`. -/
theorem C14_i256_runs (c : Cfg) (a : I256) :
    (∃ r, a.leading_zeros c = .ok r ∧ IsLeadingRun false (a.toNat c) r.toNat)
    ∧ (∃ r, a.trailing_zeros c = .ok r ∧ IsTrailingRun false (a.toNat c) r.toNat)
    ∧ (∃ r, a.leading_ones c = .ok r ∧ IsLeadingRun true (a.toNat c) r.toNat)
    ∧ (∃ r, a.trailing_ones c = .ok r ∧ IsTrailingRun true (a.toNat c) r.toNat) :=
  C14_u256_runs c a.as_u256

example : (I256.MINUS_ONE dbg).leading_ones dbg = .ok 256 ∧ (I256.MIN rel).trailing_zeros rel = .ok 255 := by decide +kernel

/-- The number of binary digits equal to `b` among the 256 of `x`. -/
def bitCount (b : Bool) (x : Nat) : Nat := (List.range 256).countP (fun i => x.testBit i == b)

theorem countP_range_split (p : Nat → Bool) :
    (List.range 256).countP p = (List.range 128).countP p + (List.range 128).countP (fun i => p (128 + i)) := by
  rw [show 256 = 128 + 128 from rfl, List.range_add, List.countP_append, List.countP_map]; rfl

theorem bitCount_words (c : Cfg) (a : U256) (b : Bool) :
    bitCount b (a.toNat c)
      = (List.range 128).countP (fun i => a.w0.getLsbD i == b) + (List.range 128).countP (fun i => a.w1.getLsbD i == b) := by
  unfold bitCount
  rw [countP_range_split]
  have e1 : (List.range 128).countP (fun i => (a.toNat c).testBit i == b)
      = (List.range 128).countP (fun i => (a.low c).getLsbD i == b) := by
    apply List.countP_congr
    intro i hi
    rw [testBit_low c a i (List.mem_range.1 hi)]
  have e2 : (List.range 128).countP (fun i => (a.toNat c).testBit (128 + i) == b)
      = (List.range 128).countP (fun i => (a.high c).getLsbD i == b) := by
    apply List.countP_congr
    intro i hi
    rw [testBit_high c a i (List.mem_range.1 hi)]
  rw [e1, e2]
  unfold U256.low U256.high
  split
  · rw [Nat.add_comm]
  · rfl

theorem addC_u32 (c : Cfg) (m n : Nat) (hm : m ≤ 128) (hn : n ≤ 128) :
    addC c (u32 m) (u32 n) = .ok (u32 (m + n)) := by
  unfold addC
  rw [toNat_u32 (by omega), toNat_u32 (by omega), decide_eq_false (by omega), Bool.and_false]
  show Except.ok (u32 m + u32 n) = _
  rw [u32, u32, u32, ← BitVec.ofNat_add]

theorem countP_le_128 (p : Nat → Bool) : (List.range 128).countP p ≤ 128 := by
  have := List.countP_le_length (p := p) (l := List.range 128)
  rwa [List.length_range] at this

/-- C14: the number of set and of clear bits; the counts add up to 256. -/
theorem C14_count (c : Cfg) (a : U256) (s : I256) :
    a.count_ones c = .ok (u32 (bitCount true (a.toNat c))) ∧ a.count_zeros c = .ok (u32 (bitCount false (a.toNat c)))
    ∧ s.count_ones c = .ok (u32 (bitCount true (s.toNat c))) ∧ s.count_zeros c = .ok (u32 (bitCount false (s.toNat c)))
    ∧ bitCount true (a.toNat c) + bitCount false (a.toNat c) = 256 := by
  have key : ∀ a : U256, a.count_ones c = .ok (u32 (bitCount true (a.toNat c)))
      ∧ a.count_zeros c = .ok (u32 (bitCount false (a.toNat c))) := by
    intro a
    constructor
    · unfold U256.count_ones
      rw [bitCount_words]
      simp only [beq_true]
      exact addC_u32 c _ _ (countP_le_128 _) (countP_le_128 _)
    · unfold U256.count_zeros
      rw [bitCount_words]
      simp only [beq_false]
      exact addC_u32 c _ _ (countP_le_128 _) (countP_le_128 _)
  refine ⟨(key a).1, (key a).2, (key s.as_u256).1, (key s.as_u256).2, ?_⟩
  have := List.length_eq_countP_add_countP (fun i => (a.toNat c).testBit i == true) (l := List.range 256)
  rw [List.length_range] at this
  rw [this]; unfold bitCount
  congr 1
  apply List.countP_congr
  intro i _
  cases (a.toNat c).testBit i <;> simp

example : (U256.ofNat dbg 0b1011).count_ones dbg = .ok 3 ∧ (I256.MINUS_ONE rel).count_zeros rel = .ok 0
    ∧ bitCount true 0b1011 = 3 := by decide +kernel

/-! ### C15 -/

/-- C15: `swap_bytes` reverses the 32 bytes of the value and is an involution, on both types. -/
theorem C15_swap_bytes (c : Cfg) (x : U256) (s : I256) :
    leBytes 32 (x.swap_bytes.toNat c) = (leBytes 32 (x.toNat c)).reverse
    ∧ leBytes 32 (s.swap_bytes.toNat c) = (leBytes 32 (s.toNat c)).reverse
    ∧ x.swap_bytes.swap_bytes = x ∧ s.swap_bytes.swap_bytes = s := by
  have key : ∀ x : U256, leBytes 32 (x.swap_bytes.toNat c) = (leBytes 32 (x.toNat c)).reverse := by
    intro x
    have hl : x.swap_bytes.low c = swapBytes128 (x.high c) := by
      unfold U256.swap_bytes U256.low U256.high; split <;> rfl
    have hh : x.swap_bytes.high c = swapBytes128 (x.low c) := by
      unfold U256.swap_bytes U256.low U256.high; split <;> rfl
    rw [U256.leBytes_toNat, U256.leBytes_toNat, hl, hh, leBytes_swapBytes128, leBytes_swapBytes128,
      List.reverse_append]
  have inv : ∀ x : U128, swapBytes128 (swapBytes128 x) = x := fun x => by
    apply leBytes_toNat_inj
    rw [leBytes_swapBytes128, leBytes_swapBytes128, List.reverse_reverse]
  refine ⟨key x, key s.as_u256, ?_, ?_⟩
  · unfold U256.swap_bytes
    simp only [inv]
  · unfold I256.swap_bytes
    simp only [inv]

example : (U256.ofNat dbg 0x0102).swap_bytes.toNat dbg = 0x0201 * 2 ^ 240
    ∧ (U256.ofNat rel 0x0102).swap_bytes.toNat rel = 0x0201 * 2 ^ 240 := by decide +kernel

/-- C15: `reverse_bits` reverses the 256 bits of the pattern and is an involution, on both types. -/
theorem C15_reverse_bits (c : Cfg) (x : U256) (s : I256) :
    (∀ i < 256, (x.reverse_bits.toNat c).testBit i = (x.toNat c).testBit (255 - i))
    ∧ (∀ i < 256, (s.reverse_bits.toNat c).testBit i = (s.toNat c).testBit (255 - i))
    ∧ x.reverse_bits.reverse_bits = x ∧ s.reverse_bits.reverse_bits = s := by
  have key : ∀ x : U256, ∀ i < 256, (x.reverse_bits.toNat c).testBit i = (x.toNat c).testBit (255 - i) := by
    intro x i hi
    have hl : x.reverse_bits.low c = (x.high c).reverse := by
      unfold U256.reverse_bits U256.low U256.high; split <;> rfl
    have hh : x.reverse_bits.high c = (x.low c).reverse := by
      unfold U256.reverse_bits U256.low U256.high; split <;> rfl
    by_cases h : i < 128
    · rw [testBit_low c _ i h, hl, BitVec.getLsbD_reverse, BitVec.getMsbD, decide_eq_true h, Bool.true_and,
        show 255 - i = 128 + (127 - i) by omega, testBit_high c _ _ (by omega)]
    · rw [show i = 128 + (i - 128) by omega, testBit_high c _ _ (by omega), hh, BitVec.getLsbD_reverse, BitVec.getMsbD,
        decide_eq_true (by omega), Bool.true_and, testBit_low c _ _ (by omega)]
      rw [show 255 - (128 + (i - 128)) = 128 - 1 - (i - 128) by omega]
  have inv : ∀ x : U256, x.reverse_bits.reverse_bits = x := fun x => by
    unfold U256.reverse_bits; simp
  exact ⟨key x, key s.as_u256, inv x, congrArg U256.as_i256 (inv s.as_u256)⟩

example : (U256.ofNat dbg 3).reverse_bits.toNat dbg = 3 * 2 ^ 254
    ∧ (U256.ofNat rel 3).reverse_bits.toNat rel = 3 * 2 ^ 254 := by decide +kernel

/-- C15: conversion from and to a fixed byte order is the identity on a target of that order and
`swap_bytes` on the other, and converting there and back is the identity. -/
theorem C15_endian (c : Cfg) (x : U256) (s : I256) :
    (c.bigEndian = true → x.to_be c = x ∧ x.from_be c = x ∧ x.to_le c = x.swap_bytes ∧ x.from_le c = x.swap_bytes)
    ∧ (c.bigEndian = false → x.to_le c = x ∧ x.from_le c = x ∧ x.to_be c = x.swap_bytes ∧ x.from_be c = x.swap_bytes)
    ∧ (c.bigEndian = true → s.to_be c = s ∧ s.from_be c = s ∧ s.to_le c = s.swap_bytes ∧ s.from_le c = s.swap_bytes)
    ∧ (c.bigEndian = false → s.to_le c = s ∧ s.from_le c = s ∧ s.to_be c = s.swap_bytes ∧ s.from_be c = s.swap_bytes)
    ∧ (x.to_be c).from_be c = x ∧ (x.to_le c).from_le c = x
    ∧ (s.to_be c).from_be c = s ∧ (s.to_le c).from_le c = s := by
  have hx := (C15_swap_bytes c x s).2.2.1
  have hs := (C15_swap_bytes c x s).2.2.2
  unfold U256.to_be U256.to_le U256.from_be U256.from_le I256.to_be I256.to_le I256.from_be I256.from_le
  cases c.bigEndian <;> simp [hx, hs]

example : (U256.ofNat dbg 1).to_be dbg = U256.ofNat dbg (2 ^ 248) ∧ (U256.ofNat rel 1).to_be rel = U256.ofNat rel 1 := by
  decide +kernel

/-! ### C18 -/

theorem countP_range_zero (p : Nat → Bool) (k : Nat) : (List.range k).countP p = 0 ↔ ∀ i < k, p i = false := by
  rw [List.countP_eq_zero]
  simp

theorem countP_range_one (p : Nat → Bool) (k : Nat) :
    (List.range k).countP p = 1 ↔ ∃ j < k, ∀ i < k, (p i = true ↔ i = j) := by
  induction k with
  | zero => simp
  | succ k ih =>
    rw [List.range_succ, List.countP_append, List.countP_singleton]
    by_cases h : p k = true
    · rw [if_pos h]
      have e : (List.range k).countP p + 1 = 1 ↔ (List.range k).countP p = 0 := by omega
      rw [e, countP_range_zero]
      constructor
      · intro hh
        refine ⟨k, by omega, fun i hi => ?_⟩
        rcases Nat.lt_or_ge i k with h1 | h1
        · rw [hh i h1]; simp; omega
        · have : i = k := by omega
          subst this; simp [h]
      · rintro ⟨j, hj, hh⟩ i hi
        have hjk : k = j := (hh k (by omega)).1 h
        cases hp : p i with
        | false => rfl
        | true => have := (hh i (by omega)).1 hp; omega
    · rw [if_neg h, Nat.add_zero, ih]
      constructor
      · rintro ⟨j, hj, hh⟩
        refine ⟨j, by omega, fun i hi => ?_⟩
        rcases Nat.lt_or_ge i k with h1 | h1
        · exact hh i h1
        · have : i = k := by omega
          subst this
          exact ⟨fun h' => absurd h' h, fun h' => by omega⟩
      · rintro ⟨j, hj, hh⟩
        have hjk : j ≠ k := fun e => h ((hh k (by omega)).2 e.symm)
        exact ⟨j, by omega, fun i hi => hh i (by omega)⟩

theorem bitCount_one_iff (x : Nat) (hx : x < 2 ^ 256) : bitCount true x = 1 ↔ ∃ k, x = 2 ^ k := by
  unfold bitCount
  rw [countP_range_one]
  constructor
  · rintro ⟨j, hj, hh⟩
    refine ⟨j, Nat.eq_of_testBit_eq fun i => ?_⟩
    rw [Nat.testBit_two_pow]
    by_cases hi : i < 256
    · have := hh i hi
      rw [beq_true] at this
      by_cases hij : j = i
      · rw [decide_eq_true hij]; exact this.2 hij.symm
      · rw [decide_eq_false hij]
        cases hb : x.testBit i with
        | false => rfl
        | true => exact absurd (this.1 hb).symm hij
    · rw [decide_eq_false (by omega)]
      exact Nat.testBit_lt_two_pow (Nat.lt_of_lt_of_le hx (Nat.pow_le_pow_right (by omega) (by omega)))
  · rintro ⟨k, rfl⟩
    have hk : k < 256 := (Nat.pow_lt_pow_iff_right (by omega)).1 hx
    refine ⟨k, hk, fun i _ => ?_⟩
    rw [Nat.testBit_two_pow, beq_true, decide_eq_true_eq]
    exact eq_comm

theorem leadingRun_bounds {x r : Nat} (h : IsLeadingRun false x r) (hx : x < 2 ^ 256) :
    x < 2 ^ (256 - r) ∧ (r < 256 → 2 ^ (255 - r) ≤ x) := by
  obtain ⟨h1, h2, h3⟩ := h
  constructor
  · apply Nat.lt_pow_two_of_testBit
    intro i hi
    by_cases h : i < 256
    · have := h2 (255 - i) (by omega)
      rwa [show 255 - (255 - i) = i by omega] at this
    · exact Nat.testBit_lt_two_pow (Nat.lt_of_lt_of_le hx (Nat.pow_le_pow_right (by omega) (by omega)))
  · intro hr
    exact Nat.ge_two_pow_of_testBit (by simpa using h3 hr)

/-- C18: `is_power_of_two` answers whether the value is a power of two. -/
theorem C18_is_power_of_two (c : Cfg) (a : U256) :
    ∃ b, a.is_power_of_two c = .ok b ∧ (b = true ↔ ∃ k, a.toNat c = 2 ^ k) := by
  unfold U256.is_power_of_two
  rw [(C14_count c a I256.ZERO).1, ok_bind]
  refine ⟨_, rfl, ?_⟩
  rw [decide_eq_true_eq, ← bitCount_one_iff _ (U256.toNat_lt c a)]
  have hle : bitCount true (a.toNat c) ≤ 256 := by
    have := List.countP_le_length (p := fun i => (a.toNat c).testBit i == true) (l := List.range 256)
    rwa [List.length_range] at this
  constructor
  · intro h
    have := congrArg BitVec.toNat h
    rw [toNat_u32 (by omega)] at this
    exact this
  · intro h; rw [h]; rfl

example : (U256.ofNat dbg (2 ^ 200)).is_power_of_two dbg = .ok true
    ∧ (U256.ofNat dbg (2 ^ 200 + 1)).is_power_of_two dbg = .ok false
    ∧ U256.ZERO.is_power_of_two rel = .ok false := by decide +kernel

/-- The smallest power of two that is at least `a`. -/
def IsNextPow2 (a p : Nat) : Prop := (∃ k, p = 2 ^ k) ∧ a ≤ p ∧ ∀ k, a ≤ 2 ^ k → p ≤ 2 ^ k

theorem one_less_eq (c : Cfg) (a : U256) :
    ∃ k, k ≤ 256 ∧ a.one_less_than_next_power_of_two c = .ok (U256.ofNat c (2 ^ k - 1))
      ∧ IsNextPow2 (a.toNat c) (2 ^ k) := by
  unfold U256.one_less_than_next_power_of_two
  rw [U256.le_prim_eq, toNat_1]
  by_cases h : a.toNat c ≤ 1
  · rw [if_pos (by simpa using h)]
    exact ⟨0, by omega, congrArg Except.ok (U256.eq_ofNat c (by rw [U256.toNat_ZERO]; rfl)), ⟨0, rfl⟩, h,
      fun k _ => Nat.pow_le_pow_right (by omega) (by omega)⟩
  · rw [if_neg (by simpa using h)]
    have ha := U256.toNat_lt c a
    unfold U256.withPrim
    rw [U256.sub_eq, U256.toNat_new, toNat_1, if_neg (by omega), ok_bind]
    have hp : (U256.ofInt c (a.toNat c - (1 : Nat))).toNat c = a.toNat c - 1 := by
      have := U256.toNat_ofInt c (a.toNat c - (1 : Nat))
      omega
    obtain ⟨z, hz, hr⟩ := ctlz_spec c (U256.ofInt c (a.toNat c - (1 : Nat)))
    rw [hp] at hr
    have hb := leadingRun_bounds hr (by omega)
    have hz256 : z.toNat < 256 := by
      rcases Nat.lt_or_ge z.toNat 256 with h1 | h1
      · exact h1
      · rw [Nat.sub_eq_zero_of_le h1, Nat.pow_zero] at hb; omega
    unfold U256.leading_zeros
    rw [hz, ok_bind, U256.shr_eq c _ _ hz256, U256.toNat_MAX]
    have hpow : 2 ^ (256 - z.toNat) * 2 ^ z.toNat = 2 ^ 256 := by rw [← Nat.pow_add]; congr 1; omega
    refine ⟨256 - z.toNat, by omega, ?_, ⟨_, rfl⟩, by omega, fun k hk => ?_⟩
    · rw [show (2 ^ 256 - 1) / 2 ^ z.toNat = 2 ^ (256 - z.toNat) - 1 from ?_]
      have hpos := Nat.two_pow_pos z.toNat
      have hpos2 := Nat.two_pow_pos (256 - z.toNat)
      rw [← hpow]
      apply Nat.div_eq_of_lt_le
      · rw [Nat.sub_mul]; omega
      · rw [Nat.sub_add_cancel hpos2]
        have := Nat.mul_pos hpos2 hpos
        omega
    · apply Nat.pow_le_pow_right (by omega)
      have h2 := hb.2 hz256
      by_contra hlt
      have : 2 ^ k ≤ 2 ^ (255 - z.toNat) := Nat.pow_le_pow_right (by omega) (by omega)
      omega

theorem C18_checked_add_aux (c : Cfg) (x : U256) :
    x.checked_add c (U256.ONE c) = if 2 ^ 256 ≤ x.toNat c + 1 then none else some (U256.ofNat c (x.toNat c + 1)) := by
  rw [(C02_checked c x _).1, U256.toNat_ONE]
  by_cases h : x.toNat c + 1 < 2 ^ 256
  · rw [if_pos h, if_neg (by omega)]
  · rw [if_neg h, if_pos (by omega)]

/-- C18: for every `a ≤ 2^255`, `next_power_of_two` is the least power of two that is at least `a`; above
`2^255` no such value exists, `checked_next_power_of_two` answers `None`, and `next_power_of_two` panics with debug
assertions and wraps to zero without. -/
theorem C18_next_power_of_two (c : Cfg) (a : U256) :
    (a.toNat c ≤ 2 ^ 255 → ∃ r, a.next_power_of_two c = .ok r ∧ a.checked_next_power_of_two c = .ok (some r)
      ∧ IsNextPow2 (a.toNat c) (r.toNat c))
    ∧ (2 ^ 255 < a.toNat c → a.checked_next_power_of_two c = .ok none
      ∧ (c.debugAssertions = true → Panics (a.next_power_of_two c))
      ∧ (c.debugAssertions = false → a.next_power_of_two c = .ok U256.ZERO)) := by
  obtain ⟨k, hk, he, hn⟩ := one_less_eq c a
  have hpos := Nat.two_pow_pos k
  have hle : 2 ^ k ≤ 2 ^ 256 := Nat.pow_le_pow_right (by omega) hk
  have hv : (U256.ofNat c (2 ^ k - 1)).toNat c = 2 ^ k - 1 := U256.toNat_ofNat_of_lt c (by omega)
  unfold U256.next_power_of_two U256.checked_next_power_of_two U256.withPrim
  rw [he, ok_bind, ok_bind, U256.add_eq, U256.toNat_new, toNat_1, hv, C18_checked_add_aux, hv, Nat.sub_add_cancel hpos]
  constructor
  · intro ha
    have hk' : 2 ^ k ≤ 2 ^ 255 := hn.2.2 255 ha
    rw [if_neg (by omega), if_neg (by omega)]
    refine ⟨_, rfl, rfl, ?_⟩
    rwa [U256.toNat_ofNat_of_lt c (by omega)]
  · intro ha
    have hk' : 2 ^ k = 2 ^ 256 := by
      congr 1
      by_contra hne
      have : 2 ^ k ≤ 2 ^ 255 := Nat.pow_le_pow_right (by omega) (by omega)
      have := hn.2.1
      omega
    rw [hk', if_pos (Nat.le_refl _)]
    refine ⟨rfl, fun h => ⟨.addOverflow, ?_⟩, fun h => ?_⟩
    · rw [if_pos ⟨h, Nat.le_refl _⟩]
    · rw [if_neg (by simp [h])]
      exact congrArg Except.ok (U256.eq_ofNat c (by rw [U256.toNat_ZERO]; rfl)).symm

example : (U256.ofNat dbg (2 ^ 130 + 1)).next_power_of_two dbg = .ok (U256.ofNat dbg (2 ^ 131))
    ∧ (U256.ofNat dbg (2 ^ 255)).next_power_of_two dbg = .ok (U256.ofNat dbg (2 ^ 255))
    ∧ U256.ZERO.next_power_of_two dbg = .ok (U256.ONE dbg)
    ∧ U256.MAX.checked_next_power_of_two rel = .ok none := by decide +kernel

end Ethnum
