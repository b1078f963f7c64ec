import Verif.Proofs.ConstParse
import Verif.Props.Repr

/-
C31 compile-time literals: the const parser behind `uint!`, `int!` and `const_from_str_prefixed`.

`Literal l n` (Verif/SpecText.lean) says that `l` is a well-formed literal without sign that denotes `n`; a panic of the
const parser is a compile error. The English claim is false of the code in two ways, shown by `C31_rejects_in_range`
and `C31_accepts_without_digits`; the other theorems say what does hold, and `C31_u256_exact` and `C31_i256_exact` give
the exact set of accepted texts.
-/

namespace Ethnum

/-- The two's complement step and the sign test of `int::parse::const_from_str_prefixed`. -/
theorem const_sign (c : Cfg) (neg : Bool) (u : U256) :
    (let (hi, lo) :=
      if neg then
        let (hi, lo) := u.into_words c
        let (lo, carry) := overflowingAdd (~~~lo) 1
        (~~~hi + ofBool 128 carry, lo)
      else u.into_words c
    let int := I256.from_words c hi lo
    let s := int.signum128 c
    (if (neg = false ∧ s = -1) ∨ (neg = true ∧ s = 1) then throwPanic .explicit else return int : Res I256))
    = if InI256 (sgn neg (u.toNat c)) then .ok (I256.ofInt c (sgn neg (u.toNat c))) else .error (.panic .explicit) := by
  have hv := U256.toNat_eq c u
  have h1 := (u.high c).isLt; have h2 := (u.low c).isLt
  have hm1 : ∀ s : U128, s = -1 ↔ s.toInt = -1 := fun s =>
    ⟨fun h => by rw [h]; decide, fun h => BitVec.eq_of_toInt_eq (by rw [h]; decide)⟩
  have hp1 : ∀ s : U128, s = 1 ↔ s.toInt = 1 := fun s =>
    ⟨fun h => by rw [h]; decide, fun h => BitVec.eq_of_toInt_eq (by rw [h]; decide)⟩
  rw [U256.into_words_eq]
  cases neg with
  | false =>
    simp only [Bool.false_eq_true, if_false, false_and, or_false, true_and, sgn]
    have e : I256.from_words c (u.high c) (u.low c) = I256.ofInt c (u.toNat c : Int) := by
      apply I256.eq_ofInt c
      rw [I256.toNat_from_words]; omega
    rw [e]
    simp only [hm1, I256.signum128_toInt, Int.sign_eq_neg_one_iff_neg]
    have ho := I256.toInt_ofInt c (u.toNat c : Int)
    by_cases h : InI256 (u.toNat c : Int)
    · rw [if_pos h, if_neg (by rw [I256.toInt_ofInt_of_in c h]; omega)]; rfl
    · rw [if_neg h, if_pos (by unfold InI256 at h; omega)]; rfl
  | true =>
    simp only [if_true, Bool.true_eq_false, false_and, false_or, true_and, sgn]
    unfold overflowingAdd
    dsimp only
    have e1 : (1 : U128).toNat = 1 := rfl
    have e : I256.from_words c (~~~(u.high c) + ofBool 128 (decide (2 ^ 128 ≤ (~~~(u.low c)).toNat + (1 : U128).toNat)))
        (~~~(u.low c) + 1) = I256.ofInt c (-(u.toNat c : Int)) := by
      apply I256.eq_ofInt c
      rw [I256.toNat_from_words, BitVec.toNat_add, BitVec.toNat_add, BitVec.toNat_not, BitVec.toNat_not, toNat_ofBool128, e1]
      by_cases hc : 2 ^ 128 ≤ 2 ^ 128 - 1 - (u.low c).toNat + 1
      · rw [if_pos (by simpa using hc)]; omega
      · rw [if_neg (by simpa using hc)]; omega
    rw [e]
    simp only [hp1, I256.signum128_toInt, Int.sign_eq_one_iff_pos]
    have ho := I256.toInt_ofInt c (-(u.toNat c : Int))
    by_cases h : InI256 (-(u.toNat c : Int))
    · rw [if_pos h, if_neg (by rw [I256.toInt_ofInt_of_in c h]; omega)]; rfl
    · rw [if_neg h, if_pos (by unfold InI256 at h; omega)]; rfl

/-- C31: the exact set of texts that the const parser of `U256` accepts, and the value it returns. Everything else is
refused with a panic. -/
theorem C31_u256_exact (c : Cfg) (s : List U8) :
    (∀ x, U256.const_from_str_prefixed c s = .ok x ↔ Const.Accepts (dropPlus s) (x.toNat c))
    ∧ (∀ e, U256.const_from_str_prefixed c s = .error e → e = .panic .explicit) := by
  unfold U256.const_from_str_prefixed
  cases s with
  | nil =>
    refine ⟨fun x => ⟨fun h => (by cases h), ?_⟩, fun e h => by cases h; rfl⟩
    rintro ⟨r, d, h, _⟩
    unfold LiteralForm at h
    simp [dropPlus] at h
  | cons b t => exact Const.from_str_prefixed_iff c _

/-- C31: the same for `I256`. -/
theorem C31_i256_exact (c : Cfg) (s : List U8) :
    (∀ x, I256.const_from_str_prefixed c s = .ok x
      ↔ (s.head? ≠ some 45 ∧ ∃ n : Nat, n < 2 ^ 256 ∧ Const.Accepts (dropPlus s) n ∧ x.toInt c = n)
        ∨ (∃ t, ∃ n : Nat, n < 2 ^ 256 ∧ s = 45 :: t ∧ Const.Accepts t n ∧ x.toInt c = -n))
    ∧ (∀ e, I256.const_from_str_prefixed c s = .error e → e = .panic .explicit) := by
  unfold I256.const_from_str_prefixed
  cases s with
  | nil =>
    refine ⟨fun x => ⟨fun h => (by cases h), ?_⟩, fun e h => by cases h; rfl⟩
    rintro (⟨_, _, _, ⟨r, d, h, _⟩, _⟩ | ⟨_, _, _, h, _⟩)
    · unfold LiteralForm at h
      simp [dropPlus] at h
    · cases h
  | cons b t =>
    -- the sign and the rest
    have key : ∀ (neg : Bool) (l : List U8),
        (∀ x, ((do
          let uint ← Const.from_str_prefixed c l
          let (hi, lo) :=
            if neg then
              let (hi, lo) := uint.into_words c
              let (lo, carry) := overflowingAdd (~~~lo) 1
              (~~~hi + ofBool 128 carry, lo)
            else uint.into_words c
          let int := I256.from_words c hi lo
          let s := int.signum128 c
          (if (neg = false ∧ s = -1) ∨ (neg = true ∧ s = 1) then throwPanic .explicit else return int)) : Res I256) = .ok x
          ↔ ∃ n : Nat, n < 2 ^ 256 ∧ Const.Accepts l n ∧ x.toInt c = sgn neg n)
        ∧ (∀ e, ((do
          let uint ← Const.from_str_prefixed c l
          let (hi, lo) :=
            if neg then
              let (hi, lo) := uint.into_words c
              let (lo, carry) := overflowingAdd (~~~lo) 1
              (~~~hi + ofBool 128 carry, lo)
            else uint.into_words c
          let int := I256.from_words c hi lo
          let s := int.signum128 c
          (if (neg = false ∧ s = -1) ∨ (neg = true ∧ s = 1) then throwPanic .explicit else return int)) : Res I256) = .error e
          → e = .panic .explicit) := by
      intro neg l
      have hl := Const.from_str_prefixed_iff c l
      cases hc : Const.from_str_prefixed c l with
      | error e =>
        simp only [error_bind]
        refine ⟨fun x => ⟨fun h => (by cases h), ?_⟩, fun e' h => ?_⟩
        · rintro ⟨n, hn, ha, _⟩
          have := (hl.1 (U256.ofNat c n)).2 (by rw [U256.toNat_ofNat_of_lt c hn]; exact ha)
          rw [hc] at this; cases this
        · have := hl.2 e hc; cases h; exact this
      | ok u =>
        simp only [ok_bind]
        have hs := const_sign c neg u
        have hu := (hl.1 u).1 hc
        have hult := U256.toNat_lt c u
        constructor
        · intro x
          refine Iff.trans (Eq.congr_left hs) ?_
          constructor
          · intro h
            by_cases hin : InI256 (sgn neg (u.toNat c))
            · rw [if_pos hin] at h
              have : I256.ofInt c (sgn neg (u.toNat c)) = x := by cases h; rfl
              exact ⟨_, hult, hu, by rw [← this, I256.toInt_ofInt_of_in c hin]⟩
            · rw [if_neg hin] at h; cases h
          · rintro ⟨n, hn, ha, hx⟩
            have := (hl.1 (U256.ofNat c n)).2 (by rw [U256.toNat_ofNat_of_lt c hn]; exact ha)
            rw [hc] at this
            have hun : u = U256.ofNat c n := by cases this; rfl
            have e : u.toNat c = n := by rw [hun, U256.toNat_ofNat_of_lt c hn]
            rw [e, ← hx, if_pos (I256.toInt_in c x), I256.ofInt_toInt]
        · intro e h
          have h := hs.symm.trans h
          split at h <;> cases h
          rfl
    dsimp only
    by_cases h43 : b = 43
    · subst h43
      rw [if_pos rfl]
      have hk := key false t
      refine ⟨fun x => (hk.1 x).trans ?_, hk.2⟩
      have hd : dropPlus (43 :: t) = t := rfl
      rw [hd]
      constructor
      · rintro ⟨n, h1, h2, h3⟩; exact Or.inl ⟨by simp, n, h1, h2, h3⟩
      · rintro (⟨_, n, h1, h2, h3⟩ | ⟨_, _, _, h, _⟩)
        · exact ⟨n, h1, h2, h3⟩
        · simp at h
    · rw [if_neg h43]
      by_cases h45 : b = 45
      · subst h45
        rw [if_pos rfl]
        have hk := key true t
        refine ⟨fun x => (hk.1 x).trans ?_, hk.2⟩
        constructor
        · rintro ⟨n, h1, h2, h3⟩; exact Or.inr ⟨t, n, h1, rfl, h2, h3⟩
        · rintro (⟨h, _⟩ | ⟨t', n, h1, h, h2, h3⟩)
          · simp at h
          · cases h; exact ⟨n, h1, h2, h3⟩
      · rw [if_neg h45]
        have hk := key false (b :: t)
        refine ⟨fun x => (hk.1 x).trans ?_, hk.2⟩
        have hd : dropPlus (b :: t) = b :: t := by unfold dropPlus; dsimp only; rw [if_neg h43]
        rw [hd]
        constructor
        · rintro ⟨n, h1, h2, h3⟩; exact Or.inl ⟨by simpa using h45, n, h1, h2, h3⟩
        · rintro (⟨_, n, h1, h2, h3⟩ | ⟨_, _, _, h, _⟩)
          · exact ⟨n, h1, h2, h3⟩
          · cases h; exact absurd rfl h45

/-- C31, soundness: whatever the const parsers return is the denoted value of a well-formed literal, or the text has no
digits and the value is zero. -/
theorem C31_sound (c : Cfg) (s : List U8) :
    (∀ x, U256.const_from_str_prefixed c s = .ok x → Literal (dropPlus s) (x.toNat c)
      ∨ (∃ r, LiteralForm (dropPlus s) r []) ∧ x.toNat c = 0)
    ∧ (∀ x, I256.const_from_str_prefixed c s = .ok x → SignedLiteral s (x.toInt c)
      ∨ (∃ l r, (s = 45 :: l ∨ l = dropPlus s) ∧ LiteralForm l r []) ∧ x.toInt c = 0) := by
  have key : ∀ l n, Const.Accepts l n → Literal l n ∨ (∃ r, LiteralForm l r []) ∧ n = 0 := by
    rintro l n ⟨r, d, h1, h2, _⟩
    rcases h2 with ⟨rfl, rfl⟩ | h2
    · exact Or.inr ⟨⟨r, h1⟩, rfl⟩
    · exact Or.inl ⟨r, d, h1, h2⟩
  constructor
  · intro x hx
    exact key _ _ (((C31_u256_exact c s).1 x).1 hx)
  · intro x hx
    rcases ((C31_i256_exact c s).1 x).1 hx with ⟨_, n, _, h2, h3⟩ | ⟨t, n, _, h0, h2, h3⟩
    · rcases key _ _ h2 with h | ⟨⟨r, h⟩, rfl⟩
      · exact Or.inl (Or.inl ⟨n, h, h3⟩)
      · exact Or.inr ⟨⟨_, r, Or.inr rfl, h⟩, by rw [h3]; rfl⟩
    · rcases key _ _ h2 with h | ⟨⟨r, h⟩, rfl⟩
      · exact Or.inl (Or.inr ⟨t, n, h0, h, h3⟩)
      · exact Or.inr ⟨⟨t, r, Or.inl h0, h⟩, by rw [h3]; rfl⟩

theorem accepts_of_literal {l : List U8} {r n : Nat} {d : List U8} (hf : LiteralForm l r d) (hn : Numeral r d n)
    (h : r ≠ 10 ∨ n < 2 ^ 128) : Const.Accepts l n := by
  refine ⟨r, d, hf, Or.inr hn, fun h10 q u hq hne hu => ?_⟩
  rcases h with h | h
  · exact absurd h10 h
  · subst h10
    apply Const.noCarry_small
    obtain ⟨t, ht⟩ := hq
    cases t with
    | nil => exact absurd (by simpa using ht) hne
    | cons b t =>
      have h1 : Num0 10 ((q ++ [b]) ++ t) n := by
        have : q ++ [b] ++ t = d := by rw [← ht]; simp
        rw [this]; exact Or.inr hn
      obtain ⟨v, h2, h3⟩ := num0_prefix (by omega) h1
      obtain ⟨u', x, h4, _, h5⟩ := num0_snoc.1 h2
      rw [← num0_unique (Or.inr hu) h4] at h5
      omega

/-- C31, completeness, in part: a well-formed literal in range is accepted if it has a radix prefix, or if it is decimal
and its magnitude is below `2^128`. Missing: decimals from `2^128` on, some of which the code refuses; see
`C31_rejects_in_range`, and `C31_u256_exact` for which. -/
theorem C31_complete_partial (c : Cfg) (s : List U8) :
    (∀ r d n, LiteralForm (dropPlus s) r d → Numeral r d n → (r ≠ 10 ∨ n < 2 ^ 128) → n < 2 ^ 256 →
      U256.const_from_str_prefixed c s = .ok (U256.ofNat c n))
    ∧ (∀ r d n, LiteralForm (dropPlus s) r d → Numeral r d n → (r ≠ 10 ∨ n < 2 ^ 128) → n < 2 ^ 255 →
      I256.const_from_str_prefixed c s = .ok (I256.ofInt c n))
    ∧ (∀ t r d n, s = 45 :: t → LiteralForm t r d → Numeral r d n → (r ≠ 10 ∨ n < 2 ^ 128) → n ≤ 2 ^ 255 →
      I256.const_from_str_prefixed c s = .ok (I256.ofInt c (-n))) := by
  refine ⟨fun r d n h1 h2 h3 h4 => ?_, fun r d n h1 h2 h3 h4 => ?_, fun t r d n h0 h1 h2 h3 h4 => ?_⟩
  · rw [(C31_u256_exact c s).1, U256.toNat_ofNat_of_lt c h4]
    exact accepts_of_literal h1 h2 h3
  · rw [(C31_i256_exact c s).1, I256.toInt_ofInt_of_in c (by unfold InI256; omega)]
    refine Or.inl ⟨?_, n, by omega, accepts_of_literal h1 h2 h3, rfl⟩
    -- a literal does not begin with `-`
    intro hs
    cases s with
    | nil => simp at hs
    | cons b t =>
      simp only [List.head?_cons, Option.some.injEq] at hs
      subst hs
      have hd : dropPlus (45 :: t) = 45 :: t := rfl
      rw [hd] at h1
      unfold LiteralForm at h1
      rcases h1 with ⟨t, _, h, _⟩ | ⟨t, _, h, _⟩ | ⟨t, _, h, _⟩ | ⟨_, _, hr, hd⟩
      · simp at h
      · simp at h
      · simp at h
      · subst hr hd
        have hf : digitsOf (45 :: t) = [45] ++ digitsOf t := by
          unfold digitsOf; rw [List.filter_cons_of_pos (by decide)]; rfl
        rw [hf] at h2
        obtain ⟨v, hv, _⟩ := num0_prefix (by omega) (Or.inr h2 : Num0 10 _ n)
        obtain ⟨_, x, _, hx, _⟩ := num0_snoc (l := []) |>.1 hv
        unfold IsDigit at hx
        have : (45 : U8).toNat = 45 := rfl
        rw [this] at hx; omega
  · rw [(C31_i256_exact c s).1, I256.toInt_ofInt_of_in c (by unfold InI256; omega)]
    exact Or.inr ⟨t, n, by omega, h0, accepts_of_literal h1 h2 h3, rfl⟩

/-- C31 is false as stated: `340282366920938463463374607431768211466`, that is `2^128 + 10`, is a well-formed literal far
below `2^256`, and the const parsers refuse it in every configuration. -/
theorem C31_rejects_in_range (c : Cfg) :
    Literal (dropPlus (str "340282366920938463463374607431768211466")) (2 ^ 128 + 10)
    ∧ U256.const_from_str_prefixed c (str "340282366920938463463374607431768211466") = .error (.panic .explicit)
    ∧ I256.const_from_str_prefixed c (str "340282366920938463463374607431768211466") = .error (.panic .explicit) := by
  have hacc : ∀ n, ¬ Const.Accepts (str "340282366920938463463374607431768211466") n := by
    rintro n ⟨r, d, h1, h2, h3⟩
    rw [Const.radixOf_iff (by decide)] at h1
    have e : Const.radixOf (str "340282366920938463463374607431768211466")
      = (10, str "340282366920938463463374607431768211466") := by decide
    rw [e] at h1
    have hd : digitsOf (str "340282366920938463463374607431768211466") = str "340282366920938463463374607431768211466" := by
      decide
    obtain ⟨h10, rfl⟩ := h1
    have h10 : r = 10 := h10
    subst h10
    rw [hd] at h3
    have hcs : Const.cscan 10 (str "340282366920938463463374607431768211466") 0 = none := by decide +kernel
    have hok := (Const.cscan_iff (r := 10) (by omega) (by omega) (str "340282366920938463463374607431768211466") [] 0
      (2 ^ 128 + 10) (num0_nil.2 rfl) (by omega)).2 ⟨?_, by omega, ?_⟩
    · rw [hcs] at hok; cases hok
    · have : scan (2 ^ 256) 10 .posOverflow (str "340282366920938463463374607431768211466") 0 = .ok (2 ^ 128 + 10) := by
        decide +kernel
      exact ((scan_ok (by omega) (by omega) _ [] 0 _ (num0_nil.2 rfl) (by omega)).1 this).1
    · intro q u hq hne hu
      rw [List.nil_append] at hu
      rcases hu with ⟨_, rfl⟩ | hu
      · decide
      · exact h3 rfl q u hq hne hu
  have hdp : dropPlus (str "340282366920938463463374607431768211466") = str "340282366920938463463374607431768211466" := by
    decide
  refine ⟨?_, ?_, ?_⟩
  · rw [hdp]
    refine ⟨10, str "340282366920938463463374607431768211466", ?_, ?_⟩
    · rw [Const.radixOf_iff (by decide)]; decide
    · have : scan (2 ^ 256) 10 .posOverflow (str "340282366920938463463374607431768211466") 0 = .ok (2 ^ 128 + 10) := by
        decide +kernel
      have := ((scan_ok (by omega) (by omega) _ [] 0 _ (num0_nil.2 rfl) (by omega)).1 this).1
      rw [List.nil_append, num0_of_ne (by decide)] at this
      exact this
  · cases h : U256.const_from_str_prefixed c (str "340282366920938463463374607431768211466") with
    | error e => rw [(C31_u256_exact c _).2 e h]
    | ok x => exact absurd (((C31_u256_exact c _).1 x).1 h) (by rw [hdp]; exact hacc _)
  · cases h : I256.const_from_str_prefixed c (str "340282366920938463463374607431768211466") with
    | error e => rw [(C31_i256_exact c _).2 e h]
    | ok x =>
      rcases ((C31_i256_exact c _).1 x).1 h with ⟨_, n, _, h2, _⟩ | ⟨t, n, _, h2, _⟩
      · exact absurd h2 (by rw [hdp]; exact hacc _)
      · have : (str "340282366920938463463374607431768211466").head? = some 45 := by rw [h2]; rfl
        exact absurd this (by decide)

/-- C31 is false as stated: texts without any digit are accepted, with the value zero. -/
theorem C31_accepts_without_digits (c : Cfg) :
    U256.const_from_str_prefixed c (str "_") = .ok U256.ZERO
    ∧ U256.const_from_str_prefixed c (str "0x_") = .ok U256.ZERO
    ∧ I256.const_from_str_prefixed c (str "- ") = .ok I256.ZERO
    ∧ (∀ n, ¬ Literal (dropPlus (str "_")) n) ∧ (∀ n, ¬ Literal (dropPlus (str "0x_")) n) := by
  have key : ∀ (l : List U8), l ≠ [] → digitsOf (Const.radixOf l).2 = [] → Const.Accepts l 0 := fun l hl h =>
    ⟨_, _, (Const.radixOf_iff hl _ _).2 ⟨rfl, rfl⟩, Or.inl ⟨h, rfl⟩, fun _ q u hq hne => by
      rw [h, List.prefix_nil] at hq; rw [h] at hne; exact absurd hq hne⟩
  have hno : ∀ (l : List U8), l ≠ [] → digitsOf (Const.radixOf l).2 = [] → ∀ n, ¬ Literal l n := by
    rintro l hl h n ⟨r, d, h1, h2⟩
    rw [Const.radixOf_iff hl] at h1
    obtain ⟨rfl, rfl⟩ := h1
    exact h2.ne_nil h
  refine ⟨?_, ?_, ?_, hno _ (by decide) (by decide), hno _ (by decide) (by decide)⟩
  · rw [(C31_u256_exact c _).1, U256.toNat_ZERO]; exact key _ (by decide) (by decide)
  · rw [(C31_u256_exact c _).1, U256.toNat_ZERO]; exact key _ (by decide) (by decide)
  · rw [(C31_i256_exact c _).1, I256.toInt_ZERO]
    exact Or.inr ⟨[32], 0, by omega, by decide, key _ (by decide) (by decide), rfl⟩

example : U256.const_from_str_prefixed dbg (str "0xffff_ffff ffff") = .ok (U256.ofNat dbg (2 ^ 48 - 1))
    ∧ U256.const_from_str_prefixed rel
        (str "115792089237316195423570985008687907853269984665640564039457584007913129639935") = .ok U256.MAX
    ∧ U256.const_from_str_prefixed rel
        (str "115792089237316195423570985008687907853269984665640564039457584007913129639936")
          = .error (.panic .explicit)
    ∧ I256.const_from_str_prefixed dbg (str "-1_000") = .ok (I256.ofInt dbg (-1000))
    ∧ I256.const_from_str_prefixed rel (str "-0x8000000000000000000000000000000000000000000000000000000000000000")
      = .ok (I256.MIN rel)
    ∧ I256.const_from_str_prefixed rel (str "0x8000000000000000000000000000000000000000000000000000000000000000")
      = .error (.panic .explicit)
    ∧ U256.const_from_str_prefixed dbg (str "0x") = .error (.panic .explicit) := by decide +kernel

end Ethnum
