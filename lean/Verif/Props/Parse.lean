import Verif.Proofs.ParseSpec
import Verif.Props.Repr

/-
C28 and C29 parsing with a radix, C30 hexadecimal and prefixed parsing.

`Numeral r t n` (Verif/SpecText.lean) says that `t` is a non-empty string of base `r` digits and denotes `n`;
`dropPlus s` is `s` without a leading `+`. Every statement has the form `call = .ok result ↔ …`, where `result` is the
`Result` that the call returns; a panic would be `call = .error …`.
-/

namespace Ethnum

/-! ### Signs -/

theorem signSplit_false {s l : List U8} {neg : Bool} (hs : s ≠ []) :
    signSplit (decide (0 < 0)) s = (neg, l) ↔ neg = false ∧ dropPlus s = l := by
  cases s with
  | nil => exact absurd rfl hs
  | cons b t =>
    unfold signSplit dropPlus
    dsimp only
    by_cases h : b = 43
    · rw [if_pos h, if_pos h]; simp only [Prod.mk.injEq, eq_comm]
    · rw [if_neg h, if_neg h, if_neg (by simp)]; simp only [Prod.mk.injEq, eq_comm]

theorem signSplit_true {s l : List U8} {neg : Bool} (hs : s ≠ []) :
    signSplit (decide (0 < 2 ^ 255)) s = (neg, l)
      ↔ neg = false ∧ dropPlus s = l ∧ s.head? ≠ some 45 ∨ neg = true ∧ s = 45 :: l := by
  rw [decide_eq_true (Nat.pow_pos (by decide))]
  cases s with
  | nil => exact absurd rfl hs
  | cons b t =>
    unfold signSplit dropPlus
    dsimp only
    by_cases h : b = 43
    · subst h
      rw [if_pos rfl, if_pos rfl]
      constructor
      · intro h; cases h; exact Or.inl ⟨rfl, rfl, by simp⟩
      · rintro (⟨rfl, rfl, _⟩ | ⟨_, h⟩)
        · rfl
        · simp at h
    · rw [if_neg h, if_neg h]
      by_cases h2 : b = 45
      · subst h2
        rw [if_pos ⟨rfl, rfl⟩]
        constructor
        · intro h; cases h; exact Or.inr ⟨rfl, rfl⟩
        · rintro (⟨_, _, h⟩ | ⟨rfl, h⟩)
          · simp at h
          · cases h; rfl
      · rw [if_neg (fun hh => h2 hh.1)]
        constructor
        · intro h; cases h; exact Or.inl ⟨rfl, rfl, by simpa using h2⟩
        · rintro (⟨rfl, rfl, _⟩ | ⟨_, h⟩)
          · rfl
          · cases h; exact absurd rfl h2

theorem Numeral.head {r : Nat} {b : U8} {t : List U8} {v : Nat} (h : Numeral r (b :: t) v) (hr : 0 < r) :
    ∃ d, IsDigit r b d := by
  have : Num0 r ([b] ++ t) v := Or.inr h
  obtain ⟨u, h1, _⟩ := num0_prefix hr this
  obtain ⟨_, d, _, hd, _⟩ := num0_snoc (l := []) |>.1 h1
  exact ⟨d, hd⟩

theorem not_digit_45 {r d : Nat} : ¬ IsDigit r (45 : U8) d := by
  unfold IsDigit
  have : (45 : U8).toNat = 45 := rfl
  rw [this]; omega

theorem not_digit_43 {r d : Nat} : ¬ IsDigit r (43 : U8) d := by
  unfold IsDigit
  have : (43 : U8).toNat = 43 := rfl
  rw [this]; omega

/-- A prefix that does not begin with `-`. -/
theorem head_ne_45 {s pfx t p : List U8} {r w : Nat} (hr : 0 < r) (hpfx : pfx.head? ≠ some 45)
    (h : dropPlus s = pfx ++ t) (hp : p <+: t) (hn : Numeral r p w) : s.head? ≠ some 45 := by
  intro hs
  cases s with
  | nil => simp at hs
  | cons b u =>
    simp only [List.head?_cons, Option.some.injEq] at hs
    subst hs
    have e : dropPlus (45 :: u) = 45 :: u := rfl
    rw [e] at h
    cases pfx with
    | cons a q => simp at h; exact hpfx (by simp [h.1])
    | nil =>
      rw [List.nil_append] at h
      rw [← h] at hp
      cases p with
      | nil => exact hn.ne_nil rfl
      | cons a q =>
        rw [List.cons_prefix_cons] at hp
        obtain ⟨rfl, _⟩ := hp
        obtain ⟨d, hd⟩ := hn.head hr
        exact not_digit_45 hd

/-! ### U256 -/

section
variable (c : Cfg) {pfx : List U8} {r : Nat} {s : List U8} (hr : 0 < r) (hr2 : r ≤ 36)
include hr hr2

theorem ne_nil_of_dropPlus {s pfx t p : List U8} {w r : Nat} (h : dropPlus s = pfx ++ t) (hp : p <+: t)
    (hn : Numeral r p w) : s ≠ [] := by
  rintro rfl
  have : t = [] := by
    unfold dropPlus at h
    have := congrArg List.length h
    simp at this
    exact List.eq_nil_of_length_eq_zero (by omega)
  rw [this, List.prefix_nil] at hp
  exact hn.ne_nil hp

theorem u_ok {x : U256} : parseSpec 0 (2 ^ 256 - 1) (U256.ofInt c) pfx r s = .ok x
    ↔ ∃ t, dropPlus s = pfx ++ t ∧ Numeral r t (x.toNat c) := by
  rw [parseSpec_ok hr hr2]
  constructor
  · rintro ⟨neg, t, w, hs, h1, h2, h3, rfl⟩
    rw [signSplit_false hs] at h1
    obtain ⟨rfl, h1⟩ := h1
    refine ⟨t, h1, ?_⟩
    have : (U256.ofInt c (sgn false w)).toNat c = w := by
      show (U256.ofInt c (w : Int)).toNat c = w
      rw [U256.ofInt_natCast, U256.toNat_ofNat_of_lt c (by simp only [Bool.false_eq_true, if_false] at h3; omega)]
    rw [this]; exact h2
  · rintro ⟨t, h1, h2⟩
    have hs := ne_nil_of_dropPlus hr hr2 h1 (List.prefix_refl t) h2
    refine ⟨false, t, x.toNat c, hs, (signSplit_false hs).2 ⟨rfl, h1⟩, h2, ?_, ?_⟩
    · have := U256.toNat_lt c x
      simp only [Bool.false_eq_true, if_false]; omega
    · show x = U256.ofInt c (x.toNat c : Int)
      rw [U256.ofInt_natCast, U256.ofNat_toNat]

theorem u_pos : parseSpec 0 (2 ^ 256 - 1) (U256.ofInt c) pfx r s = .error .posOverflow
    ↔ ∃ t p v, dropPlus s = pfx ++ t ∧ p <+: t ∧ Numeral r p v ∧ 2 ^ 256 ≤ v := by
  rw [parseSpec_over (Or.inl rfl) hr hr2]
  constructor
  · rintro ⟨neg, t, p, w, hs, h1, h2, h3, h4, _⟩
    rw [signSplit_false hs] at h1
    obtain ⟨rfl, h1⟩ := h1
    exact ⟨t, p, w, h1, h2, h3, by simp only [Bool.false_eq_true, if_false] at h4; omega⟩
  · rintro ⟨t, p, w, h1, h2, h3, h4⟩
    have hs := ne_nil_of_dropPlus hr hr2 h1 h2 h3
    exact ⟨false, t, p, w, hs, (signSplit_false hs).2 ⟨rfl, h1⟩, h2, h3,
      by simp only [Bool.false_eq_true, if_false]; omega, rfl⟩

theorem u_neg : parseSpec 0 (2 ^ 256 - 1) (U256.ofInt c) pfx r s ≠ .error .negOverflow := by
  rw [Ne, parseSpec_over (Or.inr rfl) hr hr2]
  rintro ⟨neg, t, p, w, hs, h1, h2, h3, h4, h5⟩
  rw [signSplit_false hs] at h1
  obtain ⟨rfl, h1⟩ := h1
  cases h5

/-! ### I256 -/

variable (hpfx : pfx.head? ≠ some 45)
include hpfx

theorem i_ok {x : I256} : parseSpec (2 ^ 255) (2 ^ 255 - 1) (I256.ofInt c) pfx r s = .ok x
    ↔ SignedNumeral pfx r s (x.toInt c) := by
  rw [parseSpec_ok hr hr2]
  constructor
  · rintro ⟨neg, t, w, hs, h1, h2, h3, rfl⟩
    rw [signSplit_true hs] at h1
    rcases h1 with ⟨rfl, h1, _⟩ | ⟨rfl, h1⟩
    · simp only [Bool.false_eq_true, if_false] at h3
      left
      refine ⟨t, w, h1, h2, ?_⟩
      show (I256.ofInt c (w : Int)).toInt c = w
      exact I256.toInt_ofInt_of_in c (by unfold InI256; omega)
    · simp only [if_true] at h3
      right
      refine ⟨t, w, h1, h2, ?_⟩
      show (I256.ofInt c (-(w : Int))).toInt c = _
      exact I256.toInt_ofInt_of_in c (by unfold InI256; omega)
  · have hlt := I256.toInt_lt c x
    have hle := I256.le_toInt c x
    rintro (⟨t, n, h1, h2, h3⟩ | ⟨t, n, h1, h2, h3⟩)
    · have hs := ne_nil_of_dropPlus hr hr2 h1 (List.prefix_refl t) h2
      refine ⟨false, t, n, hs, (signSplit_true hs).2 (Or.inl ⟨rfl, h1, ?_⟩), h2, ?_, ?_⟩
      · exact head_ne_45 hr hpfx h1 (List.prefix_refl t) h2
      · simp only [Bool.false_eq_true, if_false]; omega
      · show x = I256.ofInt c (n : Int)
        rw [← h3, I256.ofInt_toInt]
    · have hs : s ≠ [] := by rw [h1]; simp
      refine ⟨true, t, n, hs, (signSplit_true hs).2 (Or.inr ⟨rfl, h1⟩), h2, ?_, ?_⟩
      · simp only [if_true]; omega
      · show x = I256.ofInt c (-(n : Int))
        rw [← h3, I256.ofInt_toInt]

theorem i_pos : parseSpec (2 ^ 255) (2 ^ 255 - 1) (I256.ofInt c) pfx r s = .error .posOverflow
    ↔ ∃ t p v, dropPlus s = pfx ++ t ∧ p <+: t ∧ Numeral r p v ∧ 2 ^ 255 ≤ v := by
  rw [parseSpec_over (Or.inl rfl) hr hr2]
  constructor
  · rintro ⟨neg, t, p, w, hs, h1, h2, h3, h4, h5⟩
    rw [signSplit_true hs] at h1
    rcases h1 with ⟨rfl, h1, _⟩ | ⟨rfl, h1⟩
    · exact ⟨t, p, w, h1, h2, h3, by simp only [Bool.false_eq_true, if_false] at h4; omega⟩
    · cases h5
  · rintro ⟨t, p, w, h1, h2, h3, h4⟩
    have hs := ne_nil_of_dropPlus hr hr2 h1 h2 h3
    exact ⟨false, t, p, w, hs, (signSplit_true hs).2 (Or.inl ⟨rfl, h1, head_ne_45 hr hpfx h1 h2 h3⟩), h2, h3,
      by simp only [Bool.false_eq_true, if_false]; omega, rfl⟩

omit hpfx in
theorem i_neg : parseSpec (2 ^ 255) (2 ^ 255 - 1) (I256.ofInt c) pfx r s = .error .negOverflow
    ↔ ∃ t p v, s = 45 :: (pfx ++ t) ∧ p <+: t ∧ Numeral r p v ∧ 2 ^ 255 < v := by
  rw [parseSpec_over (Or.inr rfl) hr hr2]
  constructor
  · rintro ⟨neg, t, p, w, hs, h1, h2, h3, h4, h5⟩
    rw [signSplit_true hs] at h1
    rcases h1 with ⟨rfl, h1, _⟩ | ⟨rfl, h1⟩
    · cases h5
    · exact ⟨t, p, w, h1, h2, h3, by simp only [if_true] at h4; exact h4⟩
  · rintro ⟨t, p, w, h1, h2, h3, h4⟩
    have hs : s ≠ [] := by rw [h1]; simp
    exact ⟨true, t, p, w, hs, (signSplit_true hs).2 (Or.inr ⟨rfl, h1⟩), h2, h3,
      by simp only [if_true]; exact h4, rfl⟩

end

theorem ok_inj {α : Type} {a b : α} : (Except.ok a : Res α) = .ok b ↔ a = b := ⟨fun h => by cases h; rfl, fun h => by rw [h]⟩

/-! ### C28 -/

/-- C28: `U256::from_str_radix`. The digits are read from left to right, so an overflow is reported only if the digits
before the first bad character already exceed the range; every string not covered by the first three cases is an
`InvalidDigit`. -/
theorem C28_from_str_radix (c : Cfg) (s : List U8) (r : U32) (hr : 2 ≤ r.toNat ∧ r.toNat ≤ 36) :
    (∃ res, U256.from_str_radix c s r = .ok res)
    ∧ (∀ x, U256.from_str_radix c s r = .ok (.ok x) ↔ Numeral r.toNat (dropPlus s) (x.toNat c))
    ∧ (U256.from_str_radix c s r = .ok (.error .empty) ↔ s = [])
    ∧ (U256.from_str_radix c s r = .ok (.error .posOverflow)
        ↔ ∃ p v, p <+: dropPlus s ∧ Numeral r.toNat p v ∧ 2 ^ 256 ≤ v)
    ∧ U256.from_str_radix c s r ≠ .ok (.error .negOverflow) := by
  unfold U256.from_str_radix
  rw [U256.parse_eq c s r none hr]
  simp only [ok_inj, Ne]
  refine ⟨⟨_, rfl⟩, fun x => ?_, parseSpec_empty, ?_, u_neg c (by omega) hr.2⟩
  · rw [u_ok c (by omega) hr.2]
    simp
  · rw [u_pos c (by omega) hr.2]
    simp

/-- C28: a value that is in range is always returned, whichever spelling is used. -/
theorem C28_complete (c : Cfg) (s : List U8) (r : U32) (hr : 2 ≤ r.toNat ∧ r.toNat ≤ 36) (n : Nat) (hn : n < 2 ^ 256)
    (h : Numeral r.toNat (dropPlus s) n) : U256.from_str_radix c s r = .ok (.ok (U256.ofNat c n)) := by
  rw [(C28_from_str_radix c s r hr).2.1, U256.toNat_ofNat_of_lt c hn]; exact h

/-- C28: a radix outside 2..=36 panics. -/
theorem C28_bad_radix (c : Cfg) (s : List U8) (r : U32) (hr : ¬ (2 ≤ r.toNat ∧ r.toNat ≤ 36)) :
    U256.from_str_radix c s r = .error (.panic .explicit) := by
  unfold U256.from_str_radix from_str_radix
  rw [if_pos hr]; rfl

example : ¬ (2 ≤ (37 : U32).toNat ∧ (37 : U32).toNat ≤ 36)
    ∧ U256.from_str_radix dbg (str "1") 37 = .error (.panic .explicit) := by decide +kernel

/-- C28: `FromStr` is decimal parsing. -/
theorem C28_from_str (c : Cfg) (s : List U8) : U256.from_str c s = U256.from_str_radix c s 10 := rfl

example : U256.from_str_radix dbg (str "+zZ") 36 = .ok (.ok (U256.ofNat dbg (35 * 36 + 35)))
    ∧ U256.from_str_radix dbg (str "-1") 10 = .ok (.error .invalidDigit)
    ∧ U256.from_str_radix dbg (str "12x") 10 = .ok (.error .invalidDigit)
    ∧ U256.from_str_radix dbg (str "+") 10 = .ok (.error .invalidDigit)
    ∧ U256.from_str_radix rel
        (str "115792089237316195423570985008687907853269984665640564039457584007913129639935") 10 = .ok (.ok U256.MAX)
    ∧ U256.from_str_radix rel
        (str "115792089237316195423570985008687907853269984665640564039457584007913129639936") 10
          = .ok (.error .posOverflow) := by decide +kernel

example : Numeral 10 (dropPlus (str "+12")) 12 := by
  have h1 : IsDigit 10 (49 : U8) 1 := by unfold IsDigit; decide
  have h2 : IsDigit 10 (50 : U8) 2 := by unfold IsDigit; decide
  exact .snoc (.one h1) h2

/-! ### C29 -/

/-- C29: `I256::from_str_radix`. -/
theorem C29_from_str_radix (c : Cfg) (s : List U8) (r : U32) (hr : 2 ≤ r.toNat ∧ r.toNat ≤ 36) :
    (∃ res, I256.from_str_radix c s r = .ok res)
    ∧ (∀ x, I256.from_str_radix c s r = .ok (.ok x) ↔ SignedNumeral [] r.toNat s (x.toInt c))
    ∧ (I256.from_str_radix c s r = .ok (.error .empty) ↔ s = [])
    ∧ (I256.from_str_radix c s r = .ok (.error .posOverflow)
        ↔ ∃ p v, p <+: dropPlus s ∧ Numeral r.toNat p v ∧ 2 ^ 255 ≤ v)
    ∧ (I256.from_str_radix c s r = .ok (.error .negOverflow)
        ↔ ∃ t p v, s = 45 :: t ∧ p <+: t ∧ Numeral r.toNat p v ∧ 2 ^ 255 < v) := by
  unfold I256.from_str_radix
  rw [I256.parse_eq c s r none hr]
  simp only [ok_inj]
  refine ⟨⟨_, rfl⟩, fun x => i_ok c (by omega) hr.2 (by simp), parseSpec_empty, ?_, ?_⟩
  · rw [i_pos c (by omega) hr.2 (by simp)]
    simp
  · rw [i_neg c (by omega) hr.2]
    simp

/-- C29: a value that is in range is always returned. -/
theorem C29_complete (c : Cfg) (s : List U8) (r : U32) (hr : 2 ≤ r.toNat ∧ r.toNat ≤ 36) (z : Int) (hz : InI256 z)
    (h : SignedNumeral [] r.toNat s z) : I256.from_str_radix c s r = .ok (.ok (I256.ofInt c z)) := by
  rw [(C29_from_str_radix c s r hr).2.1, I256.toInt_ofInt_of_in c hz]; exact h

/-- C29: a radix outside 2..=36 panics. -/
theorem C29_bad_radix (c : Cfg) (s : List U8) (r : U32) (hr : ¬ (2 ≤ r.toNat ∧ r.toNat ≤ 36)) :
    I256.from_str_radix c s r = .error (.panic .explicit) := by
  unfold I256.from_str_radix from_str_radix
  rw [if_pos hr]; rfl

example : ¬ (2 ≤ (1 : U32).toNat ∧ (1 : U32).toNat ≤ 36)
    ∧ I256.from_str_radix rel (str "-1") 1 = .error (.panic .explicit) := by decide +kernel

/-- C29: `FromStr` is decimal parsing. -/
theorem C29_from_str (c : Cfg) (s : List U8) : I256.from_str c s = I256.from_str_radix c s 10 := rfl

example : I256.from_str_radix dbg (str "-ff") 16 = .ok (.ok (I256.ofInt dbg (-255)))
    ∧ I256.from_str_radix dbg (str "-") 10 = .ok (.error .invalidDigit)
    ∧ I256.from_str_radix dbg (str "--1") 10 = .ok (.error .invalidDigit)
    ∧ I256.from_str_radix rel
        (str "-57896044618658097711785492504343953926634992332820282019728792003956564819968") 10 = .ok (.ok (I256.MIN rel))
    ∧ I256.from_str_radix rel
        (str "57896044618658097711785492504343953926634992332820282019728792003956564819968") 10
          = .ok (.error .posOverflow)
    ∧ I256.from_str_radix rel
        (str "-57896044618658097711785492504343953926634992332820282019728792003956564819969") 10
          = .ok (.error .negOverflow) := by decide +kernel

example : SignedNumeral [] 10 (str "-7") (-7) :=
  Or.inr ⟨[55], 7, rfl, .one (by unfold IsDigit; decide), rfl⟩

/-! ### C30 -/

/-- C30: `from_str_hex`. -/
theorem C30_from_str_hex (c : Cfg) (s : List U8) :
    (∃ res, U256.from_str_hex c s = .ok res) ∧ (∃ res, I256.from_str_hex c s = .ok res)
    ∧ (∀ x, U256.from_str_hex c s = .ok (.ok x) ↔ ∃ t, dropPlus s = str "0x" ++ t ∧ Numeral 16 t (x.toNat c))
    ∧ (∀ x, I256.from_str_hex c s = .ok (.ok x) ↔ SignedNumeral (str "0x") 16 s (x.toInt c))
    ∧ (U256.from_str_hex c s = .ok (.error .empty) ↔ s = [])
    ∧ (I256.from_str_hex c s = .ok (.error .empty) ↔ s = [])
    ∧ (U256.from_str_hex c s = .ok (.error .posOverflow)
        ↔ ∃ t p v, dropPlus s = str "0x" ++ t ∧ p <+: t ∧ Numeral 16 p v ∧ 2 ^ 256 ≤ v)
    ∧ (I256.from_str_hex c s = .ok (.error .posOverflow)
        ↔ ∃ t p v, dropPlus s = str "0x" ++ t ∧ p <+: t ∧ Numeral 16 p v ∧ 2 ^ 255 ≤ v)
    ∧ U256.from_str_hex c s ≠ .ok (.error .negOverflow)
    ∧ (I256.from_str_hex c s = .ok (.error .negOverflow)
        ↔ ∃ t p v, s = 45 :: (str "0x" ++ t) ∧ p <+: t ∧ Numeral 16 p v ∧ 2 ^ 255 < v) := by
  have h16 : (16 : U32).toNat = 16 := rfl
  unfold U256.from_str_hex I256.from_str_hex
  rw [U256.parse_eq c s 16 _ (by decide), I256.parse_eq c s 16 _ (by decide)]
  simp only [ok_inj, Ne, h16, Option.getD_some]
  exact ⟨⟨_, rfl⟩, ⟨_, rfl⟩, fun x => u_ok c (by omega) (by omega), fun x => i_ok c (by omega) (by omega) (by decide),
    parseSpec_empty, parseSpec_empty, u_pos c (by omega) (by omega), i_pos c (by omega) (by omega) (by decide),
    u_neg c (by omega) (by omega), i_neg c (by omega) (by omega)⟩

example : U256.from_str_hex dbg (str "+0xfF") = .ok (.ok (U256.ofNat dbg 255))
    ∧ U256.from_str_hex dbg (str "ff") = .ok (.error .invalidDigit)
    ∧ U256.from_str_hex dbg (str "0x") = .ok (.error .invalidDigit)
    ∧ I256.from_str_hex rel (str "-0x10") = .ok (.ok (I256.ofInt rel (-16)))
    ∧ I256.from_str_hex rel (str "0x-10") = .ok (.error .invalidDigit) := by decide +kernel

theorem orElse_ok {T : Type} (a b : ParseResult T) : orElse (.ok a) (.ok b)
    = .ok (match a with | .ok v => .ok v | .error _ => b) := by
  cases a <;> rfl

/-- The four attempts of `from_str_prefixed`, of which at most one can succeed. -/
theorem prefixed_ok {T : Type} {a b d e : ParseResult T} {A B D E : T → Prop} (hA : ∀ x, a = .ok x ↔ A x)
    (hB : ∀ x, b = .ok x ↔ B x) (hD : ∀ x, d = .ok x ↔ D x) (hE : ∀ x, e = .ok x ↔ E x)
    (hAB : ∀ x y, A x → B y → False) (hAD : ∀ x y, A x → D y → False) (hAE : ∀ x y, A x → E y → False)
    (hBD : ∀ x y, B x → D y → False) (hBE : ∀ x y, B x → E y → False) (hDE : ∀ x y, D x → E y → False) (x : T) :
    orElse (orElse (orElse (.ok a) (.ok b)) (.ok d)) (.ok e) = .ok (.ok x) ↔ A x ∨ B x ∨ D x ∨ E x := by
  rw [orElse_ok, orElse_ok, orElse_ok, ok_inj]
  rw [← hA, ← hB, ← hD, ← hE]
  cases a with
  | ok y =>
    have hy := (hA y).1 rfl
    constructor
    · intro h; exact Or.inl h
    · rintro (h | h | h | h)
      · exact h
      · exact (hAB _ _ hy ((hB x).1 h)).elim
      · exact (hAD _ _ hy ((hD x).1 h)).elim
      · exact (hAE _ _ hy ((hE x).1 h)).elim
  | error _ =>
    cases b with
    | ok y =>
      have hy := (hB y).1 rfl
      constructor
      · intro h; exact Or.inr (Or.inl h)
      · rintro (h | h | h | h)
        · cases h
        · exact h
        · exact (hBD _ _ hy ((hD x).1 h)).elim
        · exact (hBE _ _ hy ((hE x).1 h)).elim
    | error _ =>
      cases d with
      | ok y =>
        have hy := (hD y).1 rfl
        constructor
        · intro h; exact Or.inr (Or.inr (Or.inl h))
        · rintro (h | h | h | h)
          · cases h
          · cases h
          · exact h
          · exact (hDE _ _ hy ((hE x).1 h)).elim
      | error _ =>
        constructor
        · intro h; exact Or.inr (Or.inr (Or.inr h))
        · rintro (h | h | h | h)
          · cases h
          · cases h
          · cases h
          · exact h

theorem prefixed_error {T : Type} {a b d e : ParseResult T} (k : IntErrorKind) :
    orElse (orElse (orElse (.ok a) (.ok b)) (.ok d)) (.ok e) = .ok (.error k)
      ↔ (∀ x, orElse (orElse (orElse (.ok a) (.ok b)) (.ok d)) (.ok e) ≠ .ok (.ok x)) ∧ e = .error k := by
  rw [orElse_ok, orElse_ok, orElse_ok]
  simp only [Ne, ok_inj]
  cases a <;> cases b <;> cases d <;> cases e <;> simp

theorem decimal_not_prefixed {s t : List U8} {a : U8} {v : Nat} (hd : Numeral 10 s v) (h : s = [48, a] ++ t)
    (ha : 57 < a.toNat) : False := by
  subst h
  have : Num0 10 ([48, a] ++ t) v := Or.inr hd
  obtain ⟨u, h1, _⟩ := num0_prefix (by omega) this
  obtain ⟨_, d, _, hd, _⟩ := num0_snoc (l := [48]) |>.1 h1
  unfold IsDigit at hd; omega

theorem prefix_ne {s t u : List U8} {a b : U8} (h : a ≠ b) (h1 : s = [48, a] ++ t) (h2 : s = [48, b] ++ u) : False := by
  rw [h1] at h2; simp at h2; exact h h2.1

/-- Two ways to split a sign and a prefix off a string agree on what follows the sign. -/
theorem signed_prefix_ne {s p q : List U8} {r r' : Nat} {z z' : Int} (hr : 0 < r) (hr' : 0 < r')
    (hp : p.head? ≠ some 45) (hq : q.head? ≠ some 45)
    (h1 : SignedNumeral p r s z) (h2 : SignedNumeral q r' s z') :
    ∃ l t u n m, l = p ++ t ∧ l = q ++ u ∧ Numeral r t n ∧ Numeral r' u m := by
  rcases h1 with ⟨t, n, a1, a2, _⟩ | ⟨t, n, a1, a2, _⟩
  · rcases h2 with ⟨u, m, b1, b2, _⟩ | ⟨u, m, b1, b2, _⟩
    · exact ⟨_, t, u, n, m, a1, b1, a2, b2⟩
    · exact absurd (by rw [b1]; rfl) (head_ne_45 hr hp a1 (List.prefix_refl t) a2)
  · rcases h2 with ⟨u, m, b1, b2, _⟩ | ⟨u, m, b1, b2, _⟩
    · exact absurd (by rw [a1]; rfl) (head_ne_45 hr' hq b1 (List.prefix_refl u) b2)
    · exact ⟨_, t, u, n, m, rfl, by rw [a1] at b1; exact (List.cons.inj b1).2, a2, b2⟩

theorem signedPrefixed_iff {s : List U8} {z : Int} : SignedPrefixedNumeral s z
    ↔ SignedNumeral [48, 98] 2 s z ∨ SignedNumeral [48, 111] 8 s z ∨ SignedNumeral [48, 120] 16 s z
      ∨ SignedNumeral [] 10 s z := by
  unfold SignedPrefixedNumeral PrefixedNumeral SignedNumeral
  constructor
  · rintro (⟨n, h, hz⟩ | ⟨t, n, h0, h, hz⟩)
    · rcases h with ⟨t, h1, h2⟩ | ⟨t, h1, h2⟩ | ⟨t, h1, h2⟩ | h
      · exact Or.inl (Or.inl ⟨t, n, h1, h2, hz⟩)
      · exact Or.inr (Or.inl (Or.inl ⟨t, n, h1, h2, hz⟩))
      · exact Or.inr (Or.inr (Or.inl (Or.inl ⟨t, n, h1, h2, hz⟩)))
      · exact Or.inr (Or.inr (Or.inr (Or.inl ⟨_, n, rfl, h, hz⟩)))
    · rcases h with ⟨t, h1, h2⟩ | ⟨t, h1, h2⟩ | ⟨t, h1, h2⟩ | h
      · exact Or.inl (Or.inr ⟨t, n, h1 ▸ h0, h2, hz⟩)
      · exact Or.inr (Or.inl (Or.inr ⟨t, n, h1 ▸ h0, h2, hz⟩))
      · exact Or.inr (Or.inr (Or.inl (Or.inr ⟨t, n, h1 ▸ h0, h2, hz⟩)))
      · exact Or.inr (Or.inr (Or.inr (Or.inr ⟨_, n, h0, h, hz⟩)))
  · rintro ((⟨t, n, h1, h2, hz⟩ | ⟨t, n, h1, h2, hz⟩) | (⟨t, n, h1, h2, hz⟩ | ⟨t, n, h1, h2, hz⟩)
      | (⟨t, n, h1, h2, hz⟩ | ⟨t, n, h1, h2, hz⟩) | (⟨t, n, h1, h2, hz⟩ | ⟨t, n, h1, h2, hz⟩))
    · exact Or.inl ⟨n, Or.inl ⟨t, h1, h2⟩, hz⟩
    · exact Or.inr ⟨_, n, h1, Or.inl ⟨t, rfl, h2⟩, hz⟩
    · exact Or.inl ⟨n, Or.inr (Or.inl ⟨t, h1, h2⟩), hz⟩
    · exact Or.inr ⟨_, n, h1, Or.inr (Or.inl ⟨t, rfl, h2⟩), hz⟩
    · exact Or.inl ⟨n, Or.inr (Or.inr (Or.inl ⟨t, h1, h2⟩)), hz⟩
    · exact Or.inr ⟨_, n, h1, Or.inr (Or.inr (Or.inl ⟨t, rfl, h2⟩)), hz⟩
    · exact Or.inl ⟨n, Or.inr (Or.inr (Or.inr (by rw [h1]; exact h2))), hz⟩
    · exact Or.inr ⟨_, n, h1, Or.inr (Or.inr (Or.inr h2)), hz⟩

theorem str_0b : str "0b" = [48, 98] := rfl
theorem str_0o : str "0o" = [48, 111] := rfl
theorem str_0x : str "0x" = [48, 120] := rfl

/-- C30: `U256::from_str_prefixed`: what is accepted, and the error when nothing is, which is always the one of the
decimal attempt. -/
theorem C30_u256_from_str_prefixed (c : Cfg) (s : List U8) :
    (∃ res, U256.from_str_prefixed c s = .ok res)
    ∧ (∀ x, U256.from_str_prefixed c s = .ok (.ok x) ↔ PrefixedNumeral (dropPlus s) (x.toNat c))
    ∧ (∀ e, U256.from_str_prefixed c s = .ok (.error e)
        ↔ (∀ n < 2 ^ 256, ¬ PrefixedNumeral (dropPlus s) n) ∧ U256.from_str_radix c s 10 = .ok (.error e)) := by
  have h2 : (2 : U32).toNat = 2 := rfl
  have h8 : (8 : U32).toNat = 8 := rfl
  have h10 : (10 : U32).toNat = 10 := rfl
  have h16 : (16 : U32).toNat = 16 := rfl
  unfold U256.from_str_prefixed from_str_prefixed U256.from_str_radix
  rw [U256.parse_eq c s 2 _ (by decide), U256.parse_eq c s 8 _ (by decide), U256.parse_eq c s 16 _ (by decide),
    U256.parse_eq c s 10 _ (by decide)]
  simp only [h2, h8, h10, h16, Option.getD_some, Option.getD_none, str_0b, str_0o, str_0x]
  have hok := fun x => prefixed_ok (fun x => u_ok c (pfx := [48, 98]) (s := s) (x := x) (r := 2) (by omega) (by omega))
    (fun x => u_ok c (pfx := [48, 111]) (s := s) (x := x) (r := 8) (by omega) (by omega))
    (fun x => u_ok c (pfx := [48, 120]) (s := s) (x := x) (r := 16) (by omega) (by omega))
    (fun x => (u_ok c (pfx := []) (s := s) (x := x) (r := 10) (by omega) (by omega)))
    (fun x y ⟨t, h1, _⟩ ⟨u, h2, _⟩ => prefix_ne (by decide) h1 h2)
    (fun x y ⟨t, h1, _⟩ ⟨u, h2, _⟩ => prefix_ne (by decide) h1 h2)
    (fun x y ⟨t, h1, _⟩ ⟨u, h2, h3⟩ => decimal_not_prefixed h3 (h2 ▸ h1) (by decide))
    (fun x y ⟨t, h1, _⟩ ⟨u, h2, _⟩ => prefix_ne (by decide) h1 h2)
    (fun x y ⟨t, h1, _⟩ ⟨u, h2, h3⟩ => decimal_not_prefixed h3 (h2 ▸ h1) (by decide))
    (fun x y ⟨t, h1, _⟩ ⟨u, h2, h3⟩ => decimal_not_prefixed h3 (h2 ▸ h1) (by decide)) x
  have hP : ∀ n, ((∃ t, dropPlus s = [48, 98] ++ t ∧ Numeral 2 t n) ∨ (∃ t, dropPlus s = [48, 111] ++ t ∧ Numeral 8 t n)
      ∨ (∃ t, dropPlus s = [48, 120] ++ t ∧ Numeral 16 t n) ∨ ∃ t, dropPlus s = [] ++ t ∧ Numeral 10 t n)
      ↔ PrefixedNumeral (dropPlus s) n := by
    intro n; unfold PrefixedNumeral; simp
  refine ⟨?_, fun x => (hok x).trans (hP _), fun e => ?_⟩
  · rw [orElse_ok, orElse_ok, orElse_ok]; exact ⟨_, rfl⟩
  · rw [prefixed_error, ok_inj]
    refine and_congr ?_ Iff.rfl
    constructor
    · intro h n hn hp
      refine h (U256.ofNat c n) ((hok _).2 ((hP _).2 ?_))
      rw [U256.toNat_ofNat_of_lt c hn]; exact hp
    · intro h x hx
      exact h _ (U256.toNat_lt c x) ((hP _).1 ((hok x).1 hx))

/-- C30: `I256::from_str_prefixed`. -/
theorem C30_i256_from_str_prefixed (c : Cfg) (s : List U8) :
    (∃ res, I256.from_str_prefixed c s = .ok res)
    ∧ (∀ x, I256.from_str_prefixed c s = .ok (.ok x) ↔ SignedPrefixedNumeral s (x.toInt c))
    ∧ (∀ e, I256.from_str_prefixed c s = .ok (.error e)
        ↔ (∀ z, InI256 z → ¬ SignedPrefixedNumeral s z) ∧ I256.from_str_radix c s 10 = .ok (.error e)) := by
  have h2 : (2 : U32).toNat = 2 := rfl
  have h8 : (8 : U32).toNat = 8 := rfl
  have h10 : (10 : U32).toNat = 10 := rfl
  have h16 : (16 : U32).toNat = 16 := rfl
  unfold I256.from_str_prefixed from_str_prefixed I256.from_str_radix
  rw [I256.parse_eq c s 2 _ (by decide), I256.parse_eq c s 8 _ (by decide), I256.parse_eq c s 16 _ (by decide),
    I256.parse_eq c s 10 _ (by decide)]
  simp only [h2, h8, h10, h16, Option.getD_some, Option.getD_none, str_0b, str_0o, str_0x]
  have hne : ∀ {a b : U8} {r r' : Nat} {x y : I256}, a ≠ b → 0 < r → 0 < r' → SignedNumeral [48, a] r s (x.toInt c) →
      SignedNumeral [48, b] r' s (y.toInt c) → False := by
    intro a b r r' x y hab h1 h2 h3 h4
    obtain ⟨l, t, u, n, m, e1, e2, _, _⟩ := signed_prefix_ne h1 h2 (by simp) (by simp) h3 h4
    exact prefix_ne hab e1 e2
  have hdec : ∀ {a : U8} {r : Nat} {x y : I256}, 57 < a.toNat → 0 < r → SignedNumeral [48, a] r s (x.toInt c) →
      SignedNumeral [] 10 s (y.toInt c) → False := by
    intro a r x y ha h1 h3 h4
    obtain ⟨l, t, u, n, m, e1, e2, _, hm⟩ := signed_prefix_ne h1 (by omega) (by simp) (by simp) h3 h4
    rw [List.nil_append] at e2
    exact decimal_not_prefixed (e2 ▸ hm) e1 ha
  have hok := fun x => prefixed_ok
    (fun x => i_ok c (pfx := [48, 98]) (s := s) (x := x) (r := 2) (by omega) (by omega) (by simp))
    (fun x => i_ok c (pfx := [48, 111]) (s := s) (x := x) (r := 8) (by omega) (by omega) (by simp))
    (fun x => i_ok c (pfx := [48, 120]) (s := s) (x := x) (r := 16) (by omega) (by omega) (by simp))
    (fun x => i_ok c (pfx := []) (s := s) (x := x) (r := 10) (by omega) (by omega) (by simp))
    (fun x y => hne (by decide) (by omega) (by omega)) (fun x y => hne (by decide) (by omega) (by omega))
    (fun x y => hdec (by decide) (by omega)) (fun x y => hne (by decide) (by omega) (by omega))
    (fun x y => hdec (by decide) (by omega)) (fun x y => hdec (by decide) (by omega)) x
  refine ⟨?_, fun x => (hok x).trans signedPrefixed_iff.symm, fun e => ?_⟩
  · rw [orElse_ok, orElse_ok, orElse_ok]; exact ⟨_, rfl⟩
  · rw [prefixed_error, ok_inj]
    refine and_congr ?_ Iff.rfl
    constructor
    · intro h z hz hp
      refine h (I256.ofInt c z) ((hok _).2 (signedPrefixed_iff.1 ?_))
      rw [I256.toInt_ofInt_of_in c hz]; exact hp
    · intro h x hx
      exact h _ ⟨I256.le_toInt c x, I256.toInt_lt c x⟩ (signedPrefixed_iff.2 ((hok x).1 hx))

/-- C30: a string denotes at most one number. -/
theorem C30_unambiguous (l : List U8) (n m : Nat) (h1 : PrefixedNumeral l n) (h2 : PrefixedNumeral l m) : n = m := by
  have key : ∀ {a b : U8} {r r' n m : Nat}, (a = b → r = r') → (∃ t, l = [48, a] ++ t ∧ Numeral r t n) →
      (∃ t, l = [48, b] ++ t ∧ Numeral r' t m) → n = m := by
    rintro a b r r' n m hab ⟨t, h1, h2⟩ ⟨u, h3, h4⟩
    rw [h1] at h3
    simp at h3
    obtain ⟨rfl, rfl⟩ := h3
    have := hab rfl
    subst this
    exact num0_unique (Or.inr h2) (Or.inr h4)
  have hdec : ∀ {a : U8} {r n m : Nat}, 57 < a.toNat → (∃ t, l = [48, a] ++ t ∧ Numeral r t n) → Numeral 10 l m → False := by
    rintro a r n m ha ⟨t, h1, h2⟩ h3
    exact decimal_not_prefixed h3 h1 ha
  rcases h1 with h1 | h1 | h1 | h1 <;> rcases h2 with h2 | h2 | h2 | h2
  all_goals first
    | exact key (by decide) h1 h2
    | exact (hdec (by decide) h1 h2).elim
    | exact (hdec (by decide) h2 h1).elim
    | exact num0_unique (Or.inr h1) (Or.inr h2)

/-- C30: an out-of-range number with a prefix is reported as an invalid digit, not as an overflow. -/
theorem C30_prefixed_overflow_kind (c : Cfg) (t : List U8) (v : Nat) (h : Numeral 16 t v) (hv : 2 ^ 256 ≤ v) :
    U256.from_str_hex c (str "0x" ++ t) = .ok (.error .posOverflow)
    ∧ U256.from_str_prefixed c (str "0x" ++ t) = .ok (.error .invalidDigit) := by
  have hd : dropPlus (str "0x" ++ t) = str "0x" ++ t := rfl
  constructor
  · rw [(C30_from_str_hex c _).2.2.2.2.2.2.1]
    exact ⟨t, t, v, hd, List.prefix_refl t, h, hv⟩
  · rw [(C30_u256_from_str_prefixed c _).2.2]
    constructor
    · intro n hn hp
      have := C30_unambiguous _ _ _ hp (Or.inr (Or.inr (Or.inl ⟨t, rfl, h⟩)))
      omega
    · have hb : ∀ b e, scan b 10 e (str "0x" ++ t) 0 = .error .invalidDigit ∨ b < 48 := fun b e => by
        rw [str_0x]
        show scan b 10 e (48 :: 120 :: t) 0 = _ ∨ _
        unfold scan
        have h0 : toDigit 48 10 = some 0 := rfl
        rw [h0]; dsimp only
        rw [if_neg (by omega)]
        unfold scan
        have h0 : toDigit 120 10 = none := rfl
        rw [h0]; exact Or.inl rfl
      unfold U256.from_str_radix
      rw [U256.parse_eq c _ 10 none (by decide), ok_inj]
      unfold parseSpec
      rw [if_neg (by rw [str_0x]; simp)]
      have hsp : signSplit (decide (0 < 0)) (str "0x" ++ t) = (false, str "0x" ++ t) := by
        rw [signSplit_false (by rw [str_0x]; simp)]; exact ⟨rfl, hd⟩
      rw [hsp]
      have hst : stripPrefix (Option.getD none []) (str "0x" ++ t) = some (str "0x" ++ t) := by
        rw [stripPrefix_iff]; rfl
      dsimp only
      rw [hst]
      dsimp only
      rw [if_neg (by rw [str_0x]; simp)]
      rcases hb (if false = true then 0 else 2 ^ 256 - 1) (if false = true then .negOverflow else .posOverflow) with h | h
      · have h10 : (10 : U32).toNat = 10 := rfl
        rw [h10, h]; rfl
      · simp at h

example : U256.from_str_prefixed dbg (str "0b101") = .ok (.ok (U256.ofNat dbg 5))
    ∧ U256.from_str_prefixed dbg (str "+0o17") = .ok (.ok (U256.ofNat dbg 15))
    ∧ U256.from_str_prefixed rel (str "0xAb") = .ok (.ok (U256.ofNat rel 171))
    ∧ U256.from_str_prefixed rel (str "0123") = .ok (.ok (U256.ofNat rel 123))
    ∧ U256.from_str_prefixed rel (str "0x1" ++ List.replicate 64 48) = .ok (.error .invalidDigit)
    ∧ I256.from_str_prefixed rel (str "-0x1f") = .ok (.ok (I256.ofInt rel (-31)))
    ∧ I256.from_str_prefixed dbg (str "-0") = .ok (.ok I256.ZERO) := by decide +kernel

end Ethnum
