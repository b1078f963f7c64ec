import Verif.Props.Fmt
import Verif.Props.Parse

/-
C34 format and parse round trips: what a formatting trait writes, read back by the parser for that notation, is the
same value. `f.width = none ∨ f.sign_aware_zero_pad` says that the text is not padded with fill characters: the format
has no width, or pads with zeros. `text.map asc` are the bytes of the text.
-/

namespace Ethnum

/-! ### Numerals -/

theorem Radix.isDigit (r : Radix) (d : Nat) (h : d < r.b) : IsDigit r.b (asc (r.digitCh d)) d := by
  have key : ∀ r : Radix, ∀ d < r.b, d < r.b ∧ (d < 10 ∧ (asc (r.digitCh d)).toNat = 48 + d
      ∨ 10 ≤ d ∧ d < 36 ∧ ((asc (r.digitCh d)).toNat = 97 + (d - 10) ∨ (asc (r.digitCh d)).toNat = 65 + (d - 10))) := by
    intro r; cases r <;> decide
  exact key r d h

theorem Radix.numeral_denotes (r : Radix) (n : Nat) : Numeral r.b ((r.numeral n).map asc) n := by
  induction n using Nat.strongRecOn with
  | ind n ih =>
    have hb := r.one_lt_b
    rw [r.numeral_eq]
    split
    · rename_i h; exact .one (r.isDigit n h)
    · rename_i h
      rw [List.map_append]
      have h1 := Numeral.snoc (ih (n / r.b) (Nat.div_lt_self (by omega) hb)) (r.isDigit (n % r.b) (Nat.mod_lt n (by omega)))
      have e : n / r.b * r.b + n % r.b = n := by rw [Nat.mul_comm]; exact Nat.div_add_mod n r.b
      rw [e] at h1; exact h1

theorem decimal_denotes (n : Nat) : Numeral 10 ((Nat.toDigits 10 n).map asc) n := by
  have hdig : ∀ d < 10, d < 10 ∧ (d < 10 ∧ (asc (Nat.digitChar d)).toNat = 48 + d
      ∨ 10 ≤ d ∧ d < 36 ∧ ((asc (Nat.digitChar d)).toNat = 97 + (d - 10) ∨ (asc (Nat.digitChar d)).toNat = 65 + (d - 10))) := by
    decide
  induction n using Nat.strongRecOn with
  | ind n ih =>
    rw [Nat.toDigits_eq_if (by decide)]
    split
    · rename_i h; exact .one (hdig n h)
    · rename_i h
      rw [List.map_append]
      have h1 := Numeral.snoc (ih (n / 10) (by omega)) (hdig (n % 10) (by omega))
      have e : n / 10 * 10 + n % 10 = n := by omega
      rw [e] at h1; exact h1

theorem Numeral.zero_cons {r : Nat} (hr : 0 < r) {l : List U8} {v : Nat} (h : Numeral r l v) : Numeral r (48 :: l) v := by
  have h0 : IsDigit r (48 : U8) 0 := ⟨hr, Or.inl ⟨by omega, rfl⟩⟩
  induction h with
  | one hd =>
    have := Numeral.snoc (Numeral.one h0) hd
    rwa [Nat.zero_mul, Nat.zero_add] at this
  | snoc _ hd ih => exact Numeral.snoc ih hd

theorem Numeral.zeros {r : Nat} (hr : 0 < r) {l : List U8} {v : Nat} (h : Numeral r l v) (k : Nat) :
    Numeral r ((List.replicate k '0').map asc ++ l) v := by
  induction k with
  | zero => exact h
  | succ k ih => exact ih.zero_cons hr

theorem Numeral.dropPlus_eq {r : Nat} (hr : 0 < r) {l : List U8} {v : Nat} (h : Numeral r l v) : dropPlus l = l := by
  cases l with
  | nil => rfl
  | cons b t =>
    unfold dropPlus
    dsimp only
    rw [if_neg]
    rintro rfl
    obtain ⟨d, hd⟩ := h.head hr
    exact not_digit_43 hd

/-! ### Padding -/

/-- No fill characters. -/
theorem Formatter.pad_eq (f : Formatter) (hw : f.width = none ∨ f.sign_aware_zero_pad = true) (nn : Bool)
    (pfx buf : List Char) : ∃ k, f.pad_integral nn pfx buf
      = (if !nn then ['-'] else if f.sign_plus then ['+'] else []) ++ (if f.alternate then pfx else [])
        ++ List.replicate k '0' ++ buf := by
  unfold Formatter.pad_integral
  dsimp only
  cases hwd : f.width with
  | none => exact ⟨0, by simp⟩
  | some m =>
    dsimp only
    have h : f.sign_aware_zero_pad = true := by
      rcases hw with h | h
      · rw [hwd] at h; cases h
      · exact h
    rw [if_pos h]
    generalize (if (!nn) = true then ['-'] else if f.sign_plus = true then ['+'] else []) = sg
    split_ifs
    · exact ⟨0, by simp⟩
    · exact ⟨_, rfl⟩
    · exact ⟨0, by simp⟩
    · exact ⟨_, rfl⟩

/-- The text of a non-negative number, without its sign. -/
theorem nonneg_text (f : Formatter) (hw : f.width = none ∨ f.sign_aware_zero_pad = true) {r v : Nat} (hr : 0 < r)
    (pfx buf : List Char) (h : Numeral r (buf.map asc) v) (hp : pfx = [] ∨ ∃ ch, pfx = ['0', ch]) :
    ∃ t, dropPlus ((f.pad_integral true pfx buf).map asc) = (if f.alternate then pfx.map asc else []) ++ t
      ∧ Numeral r t v := by
  obtain ⟨k, hk⟩ := f.pad_eq hw true pfx buf
  rw [hk]
  simp only [Bool.not_true, Bool.false_eq_true, if_false, List.map_append]
  refine ⟨(List.replicate k '0').map asc ++ buf.map asc, ?_, h.zeros hr k⟩
  have hbody : dropPlus ((if f.alternate then pfx.map asc else [])
      ++ ((List.replicate k '0').map asc ++ buf.map asc))
      = (if f.alternate then pfx.map asc else []) ++ ((List.replicate k '0').map asc ++ buf.map asc) := by
    by_cases ha : f.alternate = true
    · rw [if_pos ha]
      rcases hp with rfl | ⟨ch, rfl⟩
      · exact (h.zeros hr k).dropPlus_eq hr
      · rfl
    · rw [if_neg ha]; exact (h.zeros hr k).dropPlus_eq hr
  have hpm : (if f.alternate = true then pfx else []).map asc = if f.alternate = true then pfx.map asc else [] := by
    split <;> rfl
  rw [hpm]
  by_cases hs : f.sign_plus = true
  · rw [if_pos hs]
    simp only [List.append_assoc]
    rfl
  · rw [if_neg hs, List.map_nil, List.nil_append, List.append_assoc, hbody]

/-- The text of a negative number. -/
theorem neg_text (f : Formatter) (hw : f.width = none ∨ f.sign_aware_zero_pad = true) {r v : Nat} (hr : 0 < r)
    (pfx buf : List Char) (h : Numeral r (buf.map asc) v) :
    ∃ t, (f.pad_integral false pfx buf).map asc = 45 :: ((if f.alternate then pfx.map asc else []) ++ t)
      ∧ Numeral r t v := by
  obtain ⟨k, hk⟩ := f.pad_eq hw false pfx buf
  rw [hk]
  simp only [Bool.not_false, if_true, List.map_append]
  refine ⟨(List.replicate k '0').map asc ++ buf.map asc, ?_, h.zeros hr k⟩
  have hpm : (if f.alternate = true then pfx else []).map asc = if f.alternate = true then pfx.map asc else [] := by
    split <;> rfl
  rw [hpm, List.append_assoc, List.append_assoc]
  rfl

theorem ite_nil {α : Type} (p : Prop) [Decidable p] : (if p then ([] : List α) else []) = [] := by split <;> rfl

/-! ### C34 -/

/-- C34: `Display` and then decimal parsing, by `FromStr`, `from_str_radix` or `from_str_prefixed`. -/
theorem C34_decimal (c : Cfg) (x : U256) (s : I256) (f : Formatter)
    (hw : f.width = none ∨ f.sign_aware_zero_pad = true) :
    (∃ text, x.display c f = .ok text ∧ U256.from_str c (text.map asc) = .ok (.ok x)
      ∧ U256.from_str_radix c (text.map asc) 10 = .ok (.ok x) ∧ U256.from_str_prefixed c (text.map asc) = .ok (.ok x))
    ∧ (∃ text, s.display c f = .ok text ∧ I256.from_str c (text.map asc) = .ok (.ok s)
      ∧ I256.from_str_radix c (text.map asc) 10 = .ok (.ok s) ∧ I256.from_str_prefixed c (text.map asc) = .ok (.ok s)) := by
  have h10 : (10 : U32).toNat = 10 := rfl
  constructor
  · refine ⟨_, (C32_display c x s f).1, ?_⟩
    obtain ⟨t, h1, h2⟩ := nonneg_text f hw (by omega) [] _ (decimal_denotes (x.toNat c)) (Or.inl rfl)
    rw [List.map_nil, ite_nil, List.nil_append] at h1
    rw [C28_from_str]
    have hr : U256.from_str_radix c ((f.pad_integral true [] (Nat.toDigits 10 (x.toNat c))).map asc) 10 = .ok (.ok x) := by
      rw [(C28_from_str_radix c _ 10 (by decide)).2.1, h1, h10]; exact h2
    refine ⟨hr, hr, ?_⟩
    rw [(C30_u256_from_str_prefixed c _).2.1, h1]
    exact Or.inr (Or.inr (Or.inr h2))
  · refine ⟨_, (C32_display c x s f).2, ?_⟩
    rw [C29_from_str]
    have hs : SignedNumeral [] 10 ((f.pad_integral (decide (0 ≤ s.toInt c)) []
        (Nat.toDigits 10 (s.toInt c).natAbs)).map asc) (s.toInt c) := by
      by_cases h : 0 ≤ s.toInt c
      · rw [decide_eq_true h]
        obtain ⟨t, h1, h2⟩ := nonneg_text f hw (by omega) [] _ (decimal_denotes (s.toInt c).natAbs) (Or.inl rfl)
        rw [List.map_nil, ite_nil] at h1
        exact Or.inl ⟨t, _, h1, h2, by omega⟩
      · rw [decide_eq_false h]
        obtain ⟨t, h1, h2⟩ := neg_text f hw (by omega) [] _ (decimal_denotes (s.toInt c).natAbs)
        rw [List.map_nil, ite_nil] at h1
        exact Or.inr ⟨t, _, h1, h2, by omega⟩
    have hr : I256.from_str_radix c ((f.pad_integral (decide (0 ≤ s.toInt c)) []
        (Nat.toDigits 10 (s.toInt c).natAbs)).map asc) 10 = .ok (.ok s) := by
      rw [(C29_from_str_radix c _ 10 (by decide)).2.1]; exact hs
    refine ⟨hr, hr, ?_⟩
    rw [(C30_i256_from_str_prefixed c _).2.1, signedPrefixed_iff]
    exact Or.inr (Or.inr (Or.inr hs))

example : (I256.ofInt dbg (-42)).display dbg (fmtAll 8 (some 6)) = .ok "-00042".toList
    ∧ I256.from_str dbg ("-00042".toList.map asc) = .ok (.ok (I256.ofInt dbg (-42)))
    ∧ (fmtAll 8 (some 6)).sign_aware_zero_pad = true := by decide +kernel

theorem Radix.base_toNat (r : Radix) : r.base.toNat = r.b := by cases r <;> rfl

theorem Radix.prefix_form (r : Radix) : r.pfx = [] ∨ ∃ ch, r.pfx = ['0', ch] := by
  cases r <;> exact Or.inr ⟨_, rfl⟩

/-- C34: a `U256` in binary, octal or hexadecimal: without `#` read by `from_str_radix`, with `#` by `from_str_prefixed`,
and in hexadecimal also by `from_str_hex`. -/
theorem C34_u256_radix (c : Cfg) (r : Radix) (x : U256) (f : Formatter)
    (hw : f.width = none ∨ f.sign_aware_zero_pad = true) :
    ∃ text, x.fmtRadix c r f = .ok text
      ∧ (f.alternate = false → U256.from_str_radix c (text.map asc) r.base = .ok (.ok x))
      ∧ (f.alternate = true → U256.from_str_prefixed c (text.map asc) = .ok (.ok x))
      ∧ (f.alternate = true → r.b = 16 → U256.from_str_hex c (text.map asc) = .ok (.ok x)) := by
  refine ⟨_, C33_u256_radix c r x f, ?_⟩
  obtain ⟨t, h1, h2⟩ := nonneg_text f hw (by have := r.one_lt_b; omega) r.pfx _ (r.numeral_denotes (x.toNat c))
    r.prefix_form
  refine ⟨fun ha => ?_, fun ha => ?_, fun ha h16 => ?_⟩
  · rw [ha, if_neg (by simp), List.nil_append] at h1
    rw [(C28_from_str_radix c _ r.base (by cases r <;> decide)).2.1, h1, r.base_toNat]; exact h2
  · rw [ha, if_pos rfl] at h1
    rw [(C30_u256_from_str_prefixed c _).2.1, h1]
    cases r with
    | binary => exact Or.inl ⟨t, rfl, h2⟩
    | octal => exact Or.inr (Or.inl ⟨t, rfl, h2⟩)
    | lowerHex => exact Or.inr (Or.inr (Or.inl ⟨t, rfl, h2⟩))
    | upperHex => exact Or.inr (Or.inr (Or.inl ⟨t, rfl, h2⟩))
  · rw [ha, if_pos rfl] at h1
    rw [(C30_from_str_hex c _).2.2.1]
    refine ⟨t, ?_, h16 ▸ h2⟩
    rw [h1]
    cases r with
    | binary => cases h16
    | octal => cases h16
    | lowerHex => rfl
    | upperHex => rfl

example : (U256.ofNat rel 64).fmtRadix rel .octal .default = .ok "100".toList
    ∧ Formatter.default.width = none ∧ Formatter.default.alternate = false
    ∧ U256.from_str_radix rel ("100".toList.map asc) Radix.octal.base = .ok (.ok (U256.ofNat rel 64)) := by decide +kernel

/-- C34: an `I256` in binary, octal or hexadecimal with the `-` flag (or not negative). -/
theorem C34_i256_radix (c : Cfg) (r : Radix) (s : I256) (f : Formatter)
    (hw : f.width = none ∨ f.sign_aware_zero_pad = true) (hm : f.sign_minus = true ∨ 0 ≤ s.toInt c) :
    ∃ text, s.fmtRadix c r f = .ok text
      ∧ (f.alternate = false → I256.from_str_radix c (text.map asc) r.base = .ok (.ok s))
      ∧ (f.alternate = true → I256.from_str_prefixed c (text.map asc) = .ok (.ok s))
      ∧ (f.alternate = true → r.b = 16 → I256.from_str_hex c (text.map asc) = .ok (.ok s)) := by
  refine ⟨_, C33_i256_radix c r s f, ?_⟩
  have hb : 0 < r.b := by have := r.one_lt_b; omega
  have key : SignedNumeral (if f.alternate then r.pfx.map asc else []) r.b
      ((if s.toInt c < 0 ∧ f.sign_minus = true then f.pad_integral false r.pfx (r.numeral (s.toInt c).natAbs)
        else f.pad_integral true r.pfx (r.numeral (s.toInt c % 2 ^ 256).toNat)).map asc) (s.toInt c) := by
    by_cases h : s.toInt c < 0
    · have hc : s.toInt c < 0 ∧ f.sign_minus = true := ⟨h, by rcases hm with hm | hm; exact hm; omega⟩
      rw [if_pos hc]
      obtain ⟨t, h1, h2⟩ := neg_text f hw hb r.pfx _ (r.numeral_denotes (s.toInt c).natAbs)
      exact Or.inr ⟨t, _, h1, h2, by omega⟩
    · have hc : ¬ (s.toInt c < 0 ∧ f.sign_minus = true) := fun hh => h hh.1
      rw [if_neg hc]
      obtain ⟨t, h1, h2⟩ := nonneg_text f hw hb r.pfx _ (r.numeral_denotes (s.toInt c % 2 ^ 256).toNat) r.prefix_form
      refine Or.inl ⟨t, _, h1, h2, ?_⟩
      have := I256.toInt_lt c s
      omega
  refine ⟨fun ha => ?_, fun ha => ?_, fun ha h16 => ?_⟩
  · rw [ha, if_neg (by simp)] at key
    rw [(C29_from_str_radix c _ r.base (by cases r <;> decide)).2.1, r.base_toNat]; exact key
  · rw [ha, if_pos rfl] at key
    rw [(C30_i256_from_str_prefixed c _).2.1, signedPrefixed_iff]
    cases r with
    | binary => exact Or.inl key
    | octal => exact Or.inr (Or.inl key)
    | lowerHex => exact Or.inr (Or.inr (Or.inl key))
    | upperHex => exact Or.inr (Or.inr (Or.inl key))
  · rw [ha, if_pos rfl, h16] at key
    rw [(C30_from_str_hex c _).2.2.2.1]
    cases r with
    | binary => cases h16
    | octal => cases h16
    | lowerHex => exact key
    | upperHex => exact key

/-- C34: without the `-` flag the digits of an `I256` are those of its two's complement pattern, so reading them as a
`U256` gives the `as_u256` cast. -/
theorem C34_i256_pattern (c : Cfg) (r : Radix) (s : I256) (f : Formatter)
    (hw : f.width = none ∨ f.sign_aware_zero_pad = true) (hm : f.sign_minus = false) (ha : f.alternate = false) :
    ∃ text, s.fmtRadix c r f = .ok text ∧ U256.from_str_radix c (text.map asc) r.base = .ok (.ok s.as_u256) := by
  refine ⟨_, C33_i256_radix c r s f, ?_⟩
  rw [if_neg (by rw [hm]; simp)]
  obtain ⟨t, h1, h2⟩ := nonneg_text f hw (by have := r.one_lt_b; omega) r.pfx _
    (r.numeral_denotes (s.toInt c % 2 ^ 256).toNat) r.prefix_form
  rw [ha, if_neg (by simp), List.nil_append] at h1
  rw [(C28_from_str_radix c _ r.base (by cases r <;> decide)).2.1, h1, r.base_toNat]
  have : s.as_u256.toNat c = (s.toInt c % 2 ^ 256).toNat := by
    rw [I256.toNat_as_u256]; have := I256.toNat_toInt c s; omega
  rw [this]; exact h2

example : (I256.ofInt dbg (-255)).fmtRadix dbg .lowerHex (fmtAll 6) = .ok "-0xff".toList
    ∧ (fmtAll 6).sign_minus = true ∧ (fmtAll 6).alternate = true ∧ (fmtAll 6).width = none
    ∧ I256.from_str_hex dbg ("-0xff".toList.map asc) = .ok (.ok (I256.ofInt dbg (-255))) := by decide +kernel

end Ethnum
