import Verif.Model.Literals
import Verif.Props.ConstParse
import Verif.Props.Parse

/-
C31 the literal macros, and how they compare with parsing at run time.
-/

namespace Ethnum

private theorem digit_bytes {r : Nat} {l : List U8} {v : Nat} (h : Numeral r l v) :
    ∀ b ∈ l, ∃ d, IsDigit r b d := by
  induction h with
  | one h => intro b hb; rw [List.mem_singleton] at hb; subst hb; exact ⟨_, h⟩
  | snoc _ h ih =>
    intro b hb
    rcases List.mem_append.1 hb with hb | hb
    · exact ih b hb
    · rw [List.mem_singleton] at hb; subst hb; exact ⟨_, h⟩

private theorem digitsOf_numeral {r : Nat} {l : List U8} {v : Nat} (h : Numeral r l v) : digitsOf l = l := by
  unfold digitsOf
  rw [List.filter_eq_self]
  intro b hb
  obtain ⟨d, hd⟩ := digit_bytes h b hb
  rw [decide_eq_true_eq]
  unfold IsDigit at hd
  unfold IsSeparator
  rintro (rfl | rfl | rfl | rfl | rfl | rfl) <;> revert hd <;> simp <;> omega

/-- A numeral with an optional prefix is a literal. -/
private theorem literalForm {l : List U8} {n : Nat} (h : PrefixedNumeral l n) :
    ∃ r d, LiteralForm l r d ∧ Numeral r d n ∧ (r = 10 → Numeral 10 l n) := by
  rcases h with ⟨t, rfl, h⟩ | ⟨t, rfl, h⟩ | ⟨t, rfl, h⟩ | h
  · exact ⟨2, t, Or.inl ⟨t, h.ne_nil, rfl, rfl, (digitsOf_numeral h).symm⟩, h, fun e => by omega⟩
  · exact ⟨8, t, Or.inr (Or.inl ⟨t, h.ne_nil, rfl, rfl, (digitsOf_numeral h).symm⟩), h, fun e => by omega⟩
  · exact ⟨16, t, Or.inr (Or.inr (Or.inl ⟨t, h.ne_nil, rfl, rfl, (digitsOf_numeral h).symm⟩)), h, fun e => by omega⟩
  · refine ⟨10, l, Or.inr (Or.inr (Or.inr ⟨h.ne_nil, ?_, rfl, (digitsOf_numeral h).symm⟩)), h, fun _ => h⟩
    rintro a t - rfl
    obtain ⟨d, hd⟩ := digit_bytes h a (by simp)
    unfold IsDigit at hd
    refine ⟨?_, ?_, ?_⟩ <;> rintro rfl <;> revert hd <;> simp <;> omega

private theorem literal_unique {l : List U8} {r : Nat} {d : List U8} {n m : Nat} (h1 : LiteralForm l r d) (h2 : Numeral r d n)
    (h3 : Literal l m) : n = m := by
  obtain ⟨r', d', h4, h5⟩ := h3
  have hl : l ≠ [] := by
    rintro rfl
    unfold LiteralForm at h1
    simp at h1
  rw [Const.radixOf_iff hl] at h1 h4
  obtain ⟨rfl, rfl⟩ := h1
  obtain ⟨rfl, rfl⟩ := h4
  exact num0_unique (Or.inr h2) (Or.inr h5)

private theorem no_digits {l : List U8} {r r' : Nat} {d : List U8} {n : Nat} (h1 : LiteralForm l r d) (h2 : Numeral r d n)
    (h3 : LiteralForm l r' []) : False := by
  have hl : l ≠ [] := by
    rintro rfl
    unfold LiteralForm at h1
    simp at h1
  rw [Const.radixOf_iff hl] at h1 h3
  rw [h1.2, ← h3.2] at h2
  exact absurd rfl h2.ne_nil

private theorem minus_digits (t : List U8) : digitsOf (45 :: t) = 45 :: digitsOf t := by
  unfold digitsOf; rw [List.filter_cons_of_pos (by decide)]

private theorem minus_form {t d : List U8} {r : Nat} (h : LiteralForm (45 :: t) r d) : r = 10 ∧ d = 45 :: digitsOf t := by
  rcases h with ⟨t, _, h, _⟩ | ⟨t, _, h, _⟩ | ⟨t, _, h, _⟩ | ⟨_, _, hr, hd⟩
  · simp at h
  · simp at h
  · simp at h
  · exact ⟨hr, hd.trans (minus_digits t)⟩

private theorem minus_numeral {t : List U8} {r n : Nat} (h : Numeral r (45 :: t) n) : False := by
  obtain ⟨d, hd⟩ := digit_bytes h 45 (by simp)
  unfold IsDigit at hd
  revert hd
  simp
  omega

private theorem minus_literal {t : List U8} {n : Nat} (h : Literal (45 :: t) n) : False := by
  obtain ⟨r, d, h1, h2⟩ := h
  obtain ⟨rfl, rfl⟩ := minus_form h1
  exact minus_numeral h2

/-- C31: the macros. A call compiles exactly if the parser accepts the text, and has its value. -/
theorem C31_macros (c : Cfg) (s : List U8) :
    (∀ x, uintLiteral c s = some x ↔ Const.Accepts (dropPlus s) (x.toNat c))
    ∧ (∀ x, intLiteral c s = some x
      ↔ (s.head? ≠ some 45 ∧ ∃ n : Nat, n < 2 ^ 256 ∧ Const.Accepts (dropPlus s) n ∧ x.toInt c = n)
        ∨ (∃ t, ∃ n : Nat, n < 2 ^ 256 ∧ s = 45 :: t ∧ Const.Accepts t n ∧ x.toInt c = -n)) := by
  have key : ∀ {α : Type} (r : Res α) (x : α), constant r = some x ↔ r = .ok x := by
    intro α r x; cases r <;> simp [constant]
  exact ⟨fun x => by rw [uintLiteral, key]; exact (C31_u256_exact c s).1 x,
    fun x => by rw [intLiteral, key]; exact (C31_i256_exact c s).1 x⟩

/-- C31: what `from_str_prefixed` accepts at run time the macros accept at compile time, with the same value, except for
decimal texts from `2^128` on, which the macros may refuse. The macros never disagree on the value. -/
theorem C31_agrees_with_run_time (c : Cfg) (s : List U8) :
    (∀ x, U256.from_str_prefixed c s = .ok (.ok x) → uintLiteral c s = some x
      ∨ uintLiteral c s = none ∧ Numeral 10 (dropPlus s) (x.toNat c) ∧ 2 ^ 128 ≤ x.toNat c)
    ∧ (∀ x, I256.from_str_prefixed c s = .ok (.ok x) → intLiteral c s = some x
      ∨ intLiteral c s = none ∧ SignedNumeral [] 10 s (x.toInt c) ∧ (2 ^ 128 ≤ x.toInt c ∨ x.toInt c ≤ -2 ^ 128)) := by
  refine ⟨fun x h => ?_, fun x h => ?_⟩
  · have h := ((C30_u256_from_str_prefixed c s).2.1 x).1 h
    obtain ⟨r, d, h1, h2, h3⟩ := literalForm h
    have hx := x.toNat_lt c
    by_cases hr : r ≠ 10 ∨ x.toNat c < 2 ^ 128
    · left
      rw [uintLiteral, (C31_complete_partial c s).1 r d _ h1 h2 hr hx, U256.ofNat_toNat]
      rfl
    · rw [not_or, not_not] at hr
      unfold uintLiteral
      cases e : U256.const_from_str_prefixed c s with
      | error e => exact Or.inr ⟨rfl, h3 hr.1, by omega⟩
      | ok y =>
        left
        have hy : x.toNat c = y.toNat c := by
          rcases (C31_sound c s).1 y e with hs | ⟨⟨r', hf⟩, _⟩
          · exact literal_unique h1 h2 hs
          · exact (no_digits h1 h2 hf).elim
        rw [U256.toNat_inj c hy]
        rfl
  · have h := ((C30_i256_from_str_prefixed c s).2.1 x).1 h
    have hx := x.toInt_in c
    unfold InI256 at hx
    rcases h with ⟨n, hp, hn⟩ | ⟨t, n, rfl, hp, hn⟩
    · obtain ⟨r, d, h1, h2, h3⟩ := literalForm hp
      by_cases hr : r ≠ 10 ∨ n < 2 ^ 128
      · left
        rw [intLiteral, (C31_complete_partial c s).2.1 r d n h1 h2 hr (by omega), ← hn, I256.ofInt_toInt]
        rfl
      · rw [not_or, not_not] at hr
        unfold intLiteral
        cases e : I256.const_from_str_prefixed c s with
        | error e => exact Or.inr ⟨rfl, Or.inl ⟨dropPlus s, n, rfl, h3 hr.1, hn⟩, by omega⟩
        | ok y =>
          left
          have hy : x.toInt c = y.toInt c := by
            rcases (C31_sound c s).2 y e with (⟨m, hs, hm⟩ | ⟨t, m, rfl, hs, hm⟩) | ⟨⟨l, r', hl, hf⟩, _⟩
            · rw [hn, hm, literal_unique h1 h2 hs]
            · exact (minus_literal ⟨r, d, h1, h2⟩).elim
            · rcases hl with rfl | rfl
              · exact (minus_literal ⟨r, d, h1, h2⟩).elim
              · exact (no_digits h1 h2 hf).elim
          rw [I256.toInt_inj c hy]
          rfl
    · obtain ⟨r, d, h1, h2, h3⟩ := literalForm hp
      by_cases hr : r ≠ 10 ∨ n < 2 ^ 128
      · left
        rw [intLiteral, (C31_complete_partial c (45 :: t)).2.2 t r d n rfl h1 h2 hr (by omega), ← hn, I256.ofInt_toInt]
        rfl
      · rw [not_or, not_not] at hr
        unfold intLiteral
        cases e : I256.const_from_str_prefixed c (45 :: t) with
        | error e => exact Or.inr ⟨rfl, Or.inr ⟨t, n, rfl, h3 hr.1, hn⟩, by omega⟩
        | ok y =>
          left
          have hy : x.toInt c = y.toInt c := by
            rcases (C31_sound c (45 :: t)).2 y e with (⟨m, hs, hm⟩ | ⟨t', m, ht, hs, hm⟩) | ⟨⟨l, r', hl, hf⟩, _⟩
            · exact (minus_literal hs).elim
            · have ht := (List.cons.inj ht).2
              subst ht
              rw [hn, hm, literal_unique h1 h2 hs]
            · rcases hl with hl | rfl
              · have hl := (List.cons.inj hl).2
                subst hl
                exact (no_digits h1 h2 hf).elim
              · exact absurd (minus_form hf).2 (by simp)
          rw [I256.toInt_inj c hy]
          rfl

example : U256.from_str_prefixed dbg (str "0xff") = .ok (.ok (U256.ofNat dbg 255))
    ∧ uintLiteral dbg (str "0xff") = some (U256.ofNat dbg 255)
    ∧ U256.from_str_prefixed dbg (str "340282366920938463463374607431768211466") = .ok (.ok (U256.ofNat dbg (2 ^ 128 + 10)))
    ∧ uintLiteral dbg (str "340282366920938463463374607431768211466") = none
    ∧ I256.from_str_prefixed rel (str "-0b101") = .ok (.ok (I256.ofInt rel (-5)))
    ∧ intLiteral rel (str "-0b101") = some (I256.ofInt rel (-5))
    ∧ intLiteral rel (str "-0b1_0 1") = some (I256.ofInt rel (-5)) ∧ uintLiteral dbg (str "-5") = none := by decide +kernel

end Ethnum
