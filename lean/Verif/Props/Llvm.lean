import Verif.Proofs.Llvm
import Verif.Proofs.DivMod
import Verif.Proofs.Ops
import Verif.Proofs.ShiftBy
import Verif.Props.Bits
import Verif.Props.Bytes

/-
C46: the native back-end computes what the LLVM back-end computes.
-/

namespace Ethnum
/-- C46: addition and subtraction, unsigned and signed, with and without the overflow flag: the native routines return
what the 256-bit instructions of the LLVM back-end return, for all operands and both byte orders. -/
theorem C46_add_sub (c : Cfg) (a b : U256) (s t : I256) :
    Native.add2 c a b = Llvm.add2 c a b ∧ Native.add3 c a b = Llvm.add3 c a b ∧ Native.uaddc c a b = Llvm.uaddc c a b
    ∧ Native.iaddc c s t = Llvm.iaddc c s t
    ∧ Native.sub2 c a b = Llvm.sub2 c a b ∧ Native.sub3 c a b = Llvm.sub3 c a b ∧ Native.usubc c a b = Llvm.usubc c a b
    ∧ Native.isubc c s t = Llvm.isubc c s t := by
  have ha := U256.toNat_lt c a; have hb := U256.toNat_lt c b
  have hadd : Native.add3 c a b = Llvm.add3 c a b := by
    unfold Llvm.add3 Template.add
    rw [Native.add3_eq, Llvm.store_eq, BitVec.toNat_add, Llvm.toNat_load, Llvm.toNat_load]
    apply U256.eq_ofNat
    rw [U256.toNat_ofNat]; omega
  have hsub : Native.sub3 c a b = Llvm.sub3 c a b := by
    unfold Llvm.sub3 Template.sub
    rw [Native.sub3_eq, Llvm.store_eq, BitVec.toNat_sub, Llvm.toNat_load, Llvm.toNat_load]
    apply U256.eq_ofNat
    have := U256.toNat_ofInt c (a.toNat c - b.toNat c)
    omega
  refine ⟨?_, hadd, ?_, ?_, ?_, hsub, ?_, ?_⟩
  · rw [Native.add2_eq, ← Native.add3_eq, hadd]; rfl
  · rw [Native.uaddc_eq, ← Native.add3_eq, hadd]
    show _ = (Llvm.add3 c a b, BitVec.uaddOverflow (Llvm.load c a) (Llvm.load c b))
    unfold BitVec.uaddOverflow
    rw [Llvm.toNat_load, Llvm.toNat_load]
  · rw [Native.iaddc_eq]
    show _ = (Llvm.istore c (Llvm.iload c s + Llvm.iload c t), BitVec.saddOverflow (Llvm.iload c s) (Llvm.iload c t))
    unfold BitVec.saddOverflow
    rw [Llvm.toInt_iload, Llvm.toInt_iload, Llvm.inI256_iff, Llvm.istore_eq, BitVec.toInt_add, Llvm.toInt_iload, Llvm.toInt_iload]
    congr 1
    apply I256.ofInt_congr
    rw [Int.bmod_def]; omega
  · rw [Native.sub2_eq, ← Native.sub3_eq, hsub]; rfl
  · rw [Native.usubc_eq, ← Native.sub3_eq, hsub]
    show _ = (Llvm.sub3 c a b, BitVec.usubOverflow (Llvm.load c a) (Llvm.load c b))
    unfold BitVec.usubOverflow
    rw [Llvm.toNat_load, Llvm.toNat_load]
  · rw [Native.isubc_eq]
    show _ = (Llvm.istore c (Llvm.iload c s - Llvm.iload c t), BitVec.ssubOverflow (Llvm.iload c s) (Llvm.iload c t))
    unfold BitVec.ssubOverflow
    rw [Llvm.toInt_iload, Llvm.toInt_iload, Llvm.inI256_iff, Llvm.istore_eq, BitVec.toInt_sub, Llvm.toInt_iload, Llvm.toInt_iload]
    congr 1
    apply I256.ofInt_congr
    rw [Int.bmod_def]; omega

example : Llvm.uaddc rel (U256.MAX) (U256.ofNat rel 3) = (U256.ofNat rel 2, true)
    ∧ Llvm.isubc dbg (I256.MIN dbg) (I256.ofInt dbg 1) = (I256.MAX dbg, true) := by decide +kernel

/-- C46: multiplication. The native routines never panic and return what the 256-bit multiplication returns; the
signed carry-reporting product, which both back-ends compute natively, also is the exact product wrapped, with the
flag of the 256-bit signed instruction. -/
theorem C46_mul (c : Cfg) (a b : U256) (s t : I256) :
    Native.mul2 c a b = .ok (Llvm.mul2 c a b) ∧ Native.mul3 c a b = .ok (Llvm.mul3 c a b)
    ∧ Native.umulc c a b = .ok (Llvm.umulc c a b)
    ∧ Intr.imulc c s t = .ok (Llvm.istore c (Llvm.iload c s * Llvm.iload c t),
        BitVec.smulOverflow (Llvm.iload c s) (Llvm.iload c t)) := by
  have hmul : U256.ofNat c (a.toNat c * b.toNat c) = Llvm.mul3 c a b := by
    unfold Llvm.mul3 Template.mul
    rw [Llvm.store_eq, BitVec.toNat_mul, Llvm.toNat_load, Llvm.toNat_load]
    apply U256.eq_ofNat
    rw [U256.toNat_ofNat, Nat.mod_mod]
  refine ⟨?_, ?_, ?_, ?_⟩
  · rw [Native.mul2_eq, hmul]; rfl
  · rw [Native.mul3_eq, hmul]
  · rw [Native.umulc_eq, hmul]
    show _ = Except.ok (Llvm.mul3 c a b, BitVec.umulOverflow (Llvm.load c a) (Llvm.load c b))
    unfold BitVec.umulOverflow
    rw [Llvm.toNat_load, Llvm.toNat_load]
  · rw [Intr.imulc_eq]
    unfold BitVec.smulOverflow
    rw [Llvm.toInt_iload, Llvm.toInt_iload, Llvm.inI256_iff, Llvm.istore_eq, BitVec.toInt_mul, Llvm.toInt_iload, Llvm.toInt_iload]
    congr 2
    apply I256.ofInt_congr
    rw [Int.bmod_def]; split <;> omega

example : Llvm.umulc rel (U256.MAX) (U256.ofNat rel 2) = (U256.ofNat rel (2 ^ 256 - 2), true)
    ∧ Native.mul3 dbg (U256.ofNat dbg 7) (U256.ofNat dbg 6) = .ok (U256.ofNat dbg 42) := by decide +kernel

/-- C46: division and remainder have no LLVM counterpart in the crate (both back-ends use the native routines); for a
nonzero divisor those return what 256-bit division instructions return. -/
theorem C46_div_rem (c : Cfg) (a b : U256) (s t : I256) (hb : b ≠ U256.ZERO) (ht : t ≠ I256.ZERO) :
    Intr.udiv2 c a b = .ok (Llvm.store c (Llvm.load c a / Llvm.load c b)) ∧ Intr.udiv3 c a b = Intr.udiv2 c a b
    ∧ Intr.urem2 c a b = .ok (Llvm.store c (Llvm.load c a % Llvm.load c b)) ∧ Intr.urem3 c a b = Intr.urem2 c a b
    ∧ Intr.idiv2 c s t = .ok (Llvm.istore c ((Llvm.iload c s).sdiv (Llvm.iload c t))) ∧ Intr.idiv3 c s t = Intr.idiv2 c s t
    ∧ Intr.irem2 c s t = .ok (Llvm.istore c ((Llvm.iload c s).srem (Llvm.iload c t)))
    ∧ Intr.irem3 c s t = Intr.irem2 c s t := by
  have h0 : b.toNat c ≠ 0 := fun h => hb (U256.toNat_inj c (by rw [h]; rw [U256.toNat_ZERO]))
  have h1 : t.toInt c ≠ 0 := fun h => ht (I256.toInt_inj c (by rw [h]; rw [I256.toInt_ZERO]))
  refine ⟨?_, ?_, ?_, ?_, ?_, ?_, ?_, ?_⟩
  · rw [Intr.udiv2_eq c h0, Llvm.store_eq, BitVec.toNat_udiv, Llvm.toNat_load, Llvm.toNat_load]
  · rw [Intr.udiv2_eq c h0, Intr.udiv3_eq c h0]
  · rw [Intr.urem2_eq c h0, Llvm.store_eq, BitVec.toNat_umod, Llvm.toNat_load, Llvm.toNat_load]
  · rw [Intr.urem2_eq c h0, Intr.urem3_eq c h0]
  · rw [Intr.idiv2_eq c h1, Llvm.istore_eq, BitVec.toInt_sdiv, Llvm.toInt_iload, Llvm.toInt_iload]
    congr 1
    apply I256.ofInt_congr
    rw [Int.bmod_def]; split <;> omega
  · rw [Intr.idiv2_eq c h1, Intr.idiv3_eq c h1]
  · rw [Intr.irem2_eq c h1, Llvm.istore_eq, BitVec.toInt_srem, Llvm.toInt_iload, Llvm.toInt_iload]
  · rw [Intr.irem2_eq c h1, Intr.irem3_eq c h1]

example : U256.ofNat rel 7 ≠ U256.ZERO ∧ I256.ofInt dbg (-2) ≠ I256.ZERO
    ∧ Intr.idiv2 dbg (I256.ofInt dbg 7) (I256.ofInt dbg (-2)) = .ok (I256.ofInt dbg (-3)) := by decide +kernel

/-- C46 (shifts, part): for amounts below 256, the contract of the routines, the native shifts return what the LLVM
shifts return. In builds without debug assertions the public operators also pass larger amounts;
`C46_shift_disagree` shows the back-ends then differ, `C46_shift_large_partial` where they still agree. -/
theorem C46_shift_partial (c : Cfg) (a : U256) (s : I256) (b : U32) (hb : b.toNat < 256) :
    Native.shl2 c a b = .ok (Llvm.shl2 c a b) ∧ Native.shl3 c a b = .ok (Llvm.shl3 c a b)
    ∧ Native.shr2 c a b = .ok (Llvm.shr2 c a b) ∧ Native.shr3 c a b = .ok (Llvm.shr3 c a b)
    ∧ Native.sar2 c s b = .ok (Llvm.sar2 c s b) ∧ Native.sar3 c s b = .ok (Llvm.sar3 c s b) := by
  have e1 := Llvm.shl3_eq c a b; have e2 := Llvm.shr3_eq c a b; have e3 := Llvm.sar3_eq c s b
  rw [Nat.mod_eq_of_lt hb] at e1 e2 e3
  refine ⟨?_, ?_, ?_, ?_, ?_, ?_⟩
  · rw [Native.shl2_eq c a b hb]; exact congrArg _ e1.symm
  · rw [Native.shl3_eq c a b hb, e1]
  · rw [Native.shr2_eq c a b hb]; exact congrArg _ e2.symm
  · rw [Native.shr3_eq c a b hb, e2]
  · rw [Native.sar2_eq c s b hb]; exact congrArg _ e3.symm
  · rw [Native.sar3_eq c s b hb, e3]

example : (200 : U32).toNat < 256 ∧ Llvm.shl3 rel (U256.ofNat rel 3) 200 = U256.ofNat rel (3 * 2 ^ 200)
    ∧ Llvm.sar3 dbg (I256.ofInt dbg (-5)) 1 = I256.ofInt dbg (-3) := by decide +kernel

/-- C46 (shifts, part): without debug assertions the native routines accept every amount; they agree with the LLVM
back-end on oversized amounts whose value modulo 256 is at least 128. -/
theorem C46_shift_large_partial (c : Cfg) (hc : c.debugAssertions = false) (a : U256) (s : I256) (b : U32)
    (hb : 128 ≤ b.toNat % 256) :
    Native.shl2 c a b = .ok (Llvm.shl2 c a b) ∧ Native.shl3 c a b = .ok (Llvm.shl3 c a b)
    ∧ Native.shr2 c a b = .ok (Llvm.shr2 c a b) ∧ Native.shr3 c a b = .ok (Llvm.shr3 c a b)
    ∧ Native.sar2 c s b = .ok (Llvm.sar2 c s b) ∧ Native.sar3 c s b = .ok (Llvm.sar3 c s b) := by
  have e1 := Llvm.shl3_eq c a b; have e2 := Llvm.shr3_eq c a b; have e3 := Llvm.sar3_eq c s b
  have hm : b.toNat % 256 = 128 + b.toNat % 128 := by omega
  rw [hm] at e1 e2 e3
  have hlt : (Native.highShift b).toNat < 256 := by rw [Native.toNat_highShift]; omega
  have h1 : Native.shl3 c a b = .ok (Llvm.shl3 c a b) := by
    rw [Native.shl3_high c hc a (by omega), Native.shl3_eq c a _ hlt, Native.toNat_highShift, e1]
  have h2 : Native.shr3 c a b = .ok (Llvm.shr3 c a b) := by
    rw [Native.shr3_high c hc a (by omega), Native.shr3_eq c a _ hlt, Native.toNat_highShift, e2]
  have h3 : Native.sar3 c s b = .ok (Llvm.sar3 c s b) := by
    rw [Native.sar3_high c hc s (by omega), Native.sar3_eq c s _ hlt, Native.toNat_highShift, e3]
  exact ⟨by rw [Native.shl2_eq_shl3]; exact h1, h1, by rw [Native.shr2_eq_shr3]; exact h2, h2,
    by rw [Native.sar2_eq_sar3]; exact h3, h3⟩

example : rel.debugAssertions = false ∧ 128 ≤ (400 : U32).toNat % 256
    ∧ Llvm.shr3 rel (U256.MAX) 400 = U256.ofNat rel (2 ^ 112 - 1) := by decide +kernel

/-- The operators `<<` and `>>` of a build without debug assertions pass oversized amounts on; the native back-end then
shifts by 128 plus the low seven bits and the LLVM back-end by the low eight bits: `U256::ONE << 256` is 2^128 with one
and 1 with the other. -/
theorem C46_shift_disagree (c : Cfg) (hc : c.debugAssertions = false) :
    (U256.ONE c).shl { c with llvm := false } 256 = .ok (U256.ofNat c (2 ^ 128))
    ∧ (U256.ONE c).shl { c with llvm := true } 256 = .ok (U256.ofNat c 1)
    ∧ (I256.MIN c).shr { c with llvm := false } 256 = .ok (I256.ofInt c (- 2 ^ 127))
    ∧ (I256.MIN c).shr { c with llvm := true } 256 = .ok (I256.MIN c) := by
  rcases c with ⟨_ | _, _ | _, _ | _, _ | _ | _, _ | _⟩ <;> first | (cases hc; done) | decide +kernel

example : rel.debugAssertions = false := rfl

/-- C46 (shifts, exact): the amounts for which the two back-ends return the same for every operand are those below 256
and, without debug assertions, those that are at least 128 modulo 256. -/
theorem C46_shift_agree_iff (c : Cfg) (b : U32) :
    ((∀ a, Native.shl3 c a b = .ok (Llvm.shl3 c a b)) ↔
      b.toNat < 256 ∨ (c.debugAssertions = false ∧ 128 ≤ b.toNat % 256))
    ∧ ((∀ a, Native.shr3 c a b = .ok (Llvm.shr3 c a b)) ↔
      b.toNat < 256 ∨ (c.debugAssertions = false ∧ 128 ≤ b.toNat % 256))
    ∧ ((∀ a, Native.sar3 c a b = .ok (Llvm.sar3 c a b)) ↔
      b.toNat < 256 ∨ (c.debugAssertions = false ∧ 128 ≤ b.toNat % 256)) := by
  by_cases h1 : b.toNat < 256
  · have H := fun a s => C46_shift_partial c a s b h1
    exact ⟨⟨fun _ => .inl h1, fun _ a => (H a I256.ZERO).2.1⟩,
      ⟨fun _ => .inl h1, fun _ a => (H a I256.ZERO).2.2.2.1⟩,
      ⟨fun _ => .inl h1, fun _ a => (H U256.ZERO a).2.2.2.2.2⟩⟩
  by_cases hd : c.debugAssertions = true
  · have hb : decide (b < 256) = false := by
      rw [decide_eq_false_iff_not]; intro h; exact h1 ((u32_lt_iff b 256 (by omega)).1 h)
    have hda : debugAssert c (decide (b < 256)) = throwPanic .debugAssert := by unfold debugAssert; rw [hd, hb]; rfl
    have n1 : ∀ a, Native.shl3 c a b ≠ .ok (Llvm.shl3 c a b) := fun a h => by
      unfold Native.shl3 at h; rw [hda] at h; cases h
    have n2 : ∀ a, Native.shr3 c a b ≠ .ok (Llvm.shr3 c a b) := fun a h => by
      unfold Native.shr3 at h; rw [hda] at h; cases h
    have n3 : ∀ a, Native.sar3 c a b ≠ .ok (Llvm.sar3 c a b) := fun a h => by
      unfold Native.sar3 at h; rw [hda] at h; cases h
    have no : ¬ (b.toNat < 256 ∨ (c.debugAssertions = false ∧ 128 ≤ b.toNat % 256)) := by simp [h1, hd]
    exact ⟨⟨fun h => absurd (h U256.ZERO) (n1 _), fun h => absurd h no⟩,
      ⟨fun h => absurd (h U256.ZERO) (n2 _), fun h => absurd h no⟩,
      ⟨fun h => absurd (h I256.ZERO) (n3 _), fun h => absurd h no⟩⟩
  have hd : c.debugAssertions = false := by simpa using hd
  by_cases h2 : 128 ≤ b.toNat % 256
  · have H := fun a s => C46_shift_large_partial c hd a s b h2
    exact ⟨⟨fun _ => .inr ⟨hd, h2⟩, fun _ a => (H a I256.ZERO).2.1⟩,
      ⟨fun _ => .inr ⟨hd, h2⟩, fun _ a => (H a I256.ZERO).2.2.2.1⟩,
      ⟨fun _ => .inr ⟨hd, h2⟩, fun _ a => (H U256.ZERO a).2.2.2.2.2⟩⟩
  have no : ¬ (b.toNat < 256 ∨ (c.debugAssertions = false ∧ 128 ≤ b.toNat % 256)) := by
    intro h; rcases h with h | h <;> omega
  have hlt : (Native.highShift b).toNat < 256 := by rw [Native.toNat_highShift]; omega
  have hm : b.toNat % 256 = b.toNat % 128 := by omega
  have hk : b.toNat % 128 < 128 := by omega
  have p1 : (2 : Nat) ^ (128 + b.toNat % 128) < 2 ^ 256 := Nat.pow_lt_pow_right (by omega) (by omega)
  have p2 : (2 : Nat) ^ (b.toNat % 128) < 2 ^ (128 + b.toNat % 128) := Nat.pow_lt_pow_right (by omega) (by omega)
  refine ⟨⟨fun h => ?_, fun h => absurd h no⟩, ⟨fun h => ?_, fun h => absurd h no⟩, ⟨fun h => ?_, fun h => absurd h no⟩⟩
  · exfalso
    have := h (U256.ofNat c 1)
    rw [Native.shl3_high c hd _ (by omega), Native.shl3_eq c _ _ hlt, Native.toNat_highShift, Llvm.shl3_eq, hm,
      U256.toNat_ofNat_of_lt c (by decide), Nat.one_mul, Nat.one_mul] at this
    have := U256.ofNat_inj_of_lt c p1 (by omega) (Except.ok.inj this)
    omega
  · exfalso
    have := h (U256.ofNat c (2 ^ (128 + b.toNat % 128)))
    rw [Native.shr3_high c hd _ (by omega), Native.shr3_eq c _ _ hlt, Native.toNat_highShift, Llvm.shr3_eq, hm,
      U256.toNat_ofNat_of_lt c p1, Nat.div_self (by positivity), Nat.pow_add, Nat.mul_div_cancel _ (by positivity)] at this
    have := U256.ofNat_inj_of_lt c (by decide) (by decide) (Except.ok.inj this)
    omega
  · exfalso
    have h3 := h (I256.ofInt c (- 2 ^ (128 + b.toNat % 128)))
    have hin : ∀ k : Nat, k ≤ 255 → InI256 (- 2 ^ k) := fun k hk => by
      have : (2 : Int) ^ k ≤ 2 ^ 255 := pow_le_pow_right₀ (by omega) hk
      have : (0 : Int) < 2 ^ k := by positivity
      constructor <;> omega
    rw [Native.sar3_high c hd _ (by omega), Native.sar3_eq c _ _ hlt, Native.toNat_highShift, Llvm.sar3_eq, hm,
      I256.toInt_ofInt_of_in c (hin _ (by omega)), Int.neg_ediv_of_dvd (dvd_refl _), Int.ediv_self (by positivity),
      Int.neg_ediv_of_dvd (pow_dvd_pow 2 (by omega)), pow_add, Int.mul_ediv_cancel _ (by positivity)] at h3
    have h4 := congrArg (I256.toInt c) (Except.ok.inj h3)
    rw [I256.toInt_ofInt_of_in c (by constructor <;> decide), I256.toInt_ofInt_of_in c (hin 128 (by omega))] at h4
    revert h4; decide

example : ¬ (∀ a, Native.shl3 rel a 300 = .ok (Llvm.shl3 rel a 300))
    ∧ (∀ a, Native.shl3 rel a 400 = .ok (Llvm.shl3 rel a 400)) :=
  ⟨fun h => absurd ((C46_shift_agree_iff rel 300).1.1 h) (by decide), (C46_shift_agree_iff rel 400).1.2 (by decide)⟩

/-- C46 (rotations): whenever the native rotation returns, it returns what the LLVM rotation returns. With overflow
checks it panics for amounts above 256 (`C13_rotate_panics`); the LLVM back-end never does. -/
theorem C46_rotate_partial (c : Cfg) (a : U256) (n : U32) (h : c.overflowChecks = true → n.toNat ≤ 256) :
    Native.rol3 c a n = .ok (Llvm.rol3 c a n) ∧ Native.ror3 c a n = .ok (Llvm.ror3 c a n) := by
  have key : ∀ (r : U256) (v : BitVec 256), (∀ j < 256, (r.toNat c).testBit j = v.getLsbD j) → r = Llvm.store c v := by
    intro r v hj
    apply U256.bv_inj c
    apply BitVec.eq_of_getLsbD_eq
    intro j hlt
    rw [← U256.testBit_toNat, ← U256.testBit_toNat, hj j hlt, Llvm.store_eq, U256.toNat_ofNat_of_lt c v.isLt]
    rfl
  constructor
  · obtain ⟨r, h1, h2⟩ := Native.rol3_bits c a n h
    rw [h1]; congr 1
    apply key
    intro j hj
    have := h2 ((j + (256 - n.toNat % 256)) % 256) (by omega)
    rw [show ((j + (256 - n.toNat % 256)) % 256 + n.toNat) % 256 = j by omega] at this
    rw [this, Llvm.load_eq, U256.testBit_toNat]
    unfold Template.rol
    rw [BitVec.getLsbD_rotateLeft]
    by_cases hlt : j < n.toNat % 256
    · rw [decide_eq_true hlt, cond_true]; congr 1; omega
    · rw [decide_eq_false hlt, cond_false, decide_eq_true hj, Bool.true_and]; congr 1; omega
  · obtain ⟨r, h1, h2⟩ := Native.ror3_bits c a n h
    rw [h1]; congr 1
    apply key
    intro j hj
    rw [h2 j hj, Llvm.load_eq, U256.testBit_toNat]
    unfold Template.ror
    rw [BitVec.getLsbD_rotateRight]
    by_cases hlt : j < 256 - n.toNat % 256
    · rw [decide_eq_true hlt, cond_true]; congr 1; omega
    · rw [decide_eq_false hlt, cond_false, decide_eq_true hj, Bool.true_and]; congr 1; omega

example : (rel.overflowChecks = true → (1000 : U32).toNat ≤ 256)
    ∧ Llvm.rol3 rel (U256.ONE rel) 1000 = U256.ofNat rel (2 ^ 232) := by decide +kernel

theorem leadingRun_unique {b : Bool} {x r s : Nat} (hr : IsLeadingRun b x r) (hs : IsLeadingRun b x s) : r = s := by
  rcases Nat.lt_trichotomy r s with h | h | h
  · have h1 := hs.2.1 r h; have h2 := hr.2.2 (by have := hs.1; omega); rw [h1] at h2; cases b <;> cases h2
  · exact h
  · have h1 := hr.2.1 s h; have h2 := hs.2.2 (by have := hr.1; omega); rw [h1] at h2; cases b <;> cases h2
theorem trailingRun_unique {b : Bool} {x r s : Nat} (hr : IsTrailingRun b x r) (hs : IsTrailingRun b x s) : r = s := by
  rcases Nat.lt_trichotomy r s with h | h | h
  · have h1 := hs.2.1 r h; have h2 := hr.2.2 (by have := hs.1; omega); rw [h1] at h2; cases b <;> cases h2
  · exact h
  · have h1 := hr.2.1 s h; have h2 := hs.2.2 (by have := hr.1; omega); rw [h1] at h2; cases b <;> cases h2

/-- C46: counting zeros, for all operands. -/
theorem C46_count_zeros (c : Cfg) (a : U256) :
    Native.ctlz c a = .ok (Llvm.ctlz c a) ∧ Native.cttz c a = .ok (Llvm.cttz c a) := by
  constructor
  · obtain ⟨r, h1, h2⟩ := Native.ctlz_spec c a
    rw [h1]; congr 1
    have hle := leadingZeros_le (a.bv c)
    have : IsLeadingRun false (a.toNat c) (leadingZeros (a.bv c)) := by
      refine ⟨hle, fun i hi => ?_, fun hi => ?_⟩
      · have := leadingZeros_clear (a.bv c) hi
        rw [BitVec.getMsbD, decide_eq_true (by omega), Bool.true_and] at this
        rw [U256.testBit_toNat]; exact this
      · have := leadingZeros_set (a.bv c) hi
        rw [BitVec.getMsbD, decide_eq_true (by omega), Bool.true_and] at this
        rw [U256.testBit_toNat]; exact this
    apply BitVec.eq_of_toNat_eq
    unfold Llvm.ctlz Template.ctlz
    rw [Llvm.load_eq, toNat_u32 (by omega)]
    exact leadingRun_unique h2 this
  · obtain ⟨r, h1, h2⟩ := Native.cttz_spec c a
    rw [h1]; congr 1
    have hle := trailingZeros_le (a.bv c)
    have : IsTrailingRun false (a.toNat c) (trailingZeros (a.bv c)) := by
      refine ⟨hle, fun i hi => ?_, fun hi => ?_⟩
      · rw [U256.testBit_toNat]; exact trailingZeros_clear (a.bv c) hi
      · rw [U256.testBit_toNat]; exact trailingZeros_set (a.bv c) hi
    apply BitVec.eq_of_toNat_eq
    unfold Llvm.cttz Template.cttz
    rw [Llvm.load_eq, toNat_u32 (by omega)]
    exact trailingRun_unique h2 this

example : Llvm.ctlz rel (U256.ofNat rel (2 ^ 200)) = 55 ∧ Llvm.cttz dbg (U256.ofNat dbg (3 * 2 ^ 200)) = 200 := by
  decide +kernel

end Ethnum
