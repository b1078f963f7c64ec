import Verif.Proofs.Fmt
import Verif.Proofs.IntApi
import Verif.Props.Repr
import Verif.Props.IArith

/-
C32 decimal formatting, C33 binary, octal, hexadecimal and debug formatting.

The numerals are those of Lean's `Nat.toDigits`; `pad_integral` is the standard library's padding, defined in
Verif/Model/Fmt.lean. Every statement has the form `call = .ok text`, so it also says that the call does not panic,
write outside its buffer, read uninitialised bytes, or build a string that is not UTF-8.
-/

namespace Ethnum

/-- `+`, `-`, `#`, `0` and the hexadecimal debug flags, for examples. -/
def fmtAll (flags : U32) (width : Option Nat := none) (align : Option Align := none) : Formatter :=
  ⟨flags, width, '*', align⟩

theorem neg_abs_toNat (c : Cfg) (s : I256) (h : s.toInt c < 0) :
    (U256.wrapping_add c (U256.not s.as_u256) (U256.ONE c)).toNat c = (s.toInt c).natAbs := by
  have h1 := I256.le_toInt c s; have h2 := I256.toNat_toInt c s; have h3 := U256.toNat_lt c s.as_u256
  rw [(C02_wrapping c _ _).1, U256.toNat_ofNat, U256.toNat_not, U256.toNat_ONE]
  rw [I256.toNat_as_u256] at h3 ⊢
  omega

/-- C32: `Display` prints the decimal numeral of the value, with the sign and padding the settings ask for. -/
theorem C32_display (c : Cfg) (x : U256) (s : I256) (f : Formatter) :
    x.display c f = .ok (f.pad_integral true [] (Nat.toDigits 10 (x.toNat c)))
    ∧ s.display c f = .ok (f.pad_integral (decide (0 ≤ s.toInt c)) [] (Nat.toDigits 10 (s.toInt c).natAbs)) := by
  constructor
  · unfold U256.display
    rw [U256.ge_prim_eq, toNat_0, decide_eq_true (Nat.zero_le _)]
    dsimp only
    rw [if_pos rfl, fmt_u256_eq]
  · unfold I256.display
    rw [I256.ge_prim_eq, toInt_0]
    dsimp only
    rw [fmt_u256_eq]
    by_cases h : 0 ≤ s.toInt c
    · rw [decide_eq_true h, if_pos rfl]
      have h2 := I256.toNat_toInt c s
      have h3 := I256.toInt_lt c s
      have : s.as_u256.toNat c = (s.toInt c).natAbs := by rw [I256.toNat_as_u256]; omega
      rw [this]
    · rw [decide_eq_false h, if_neg (by simp), neg_abs_toNat c s (by omega)]

/-- C32, with the plain `{}`: the text is the one Lean prints for the number. -/
theorem C32_display_plain (c : Cfg) (x : U256) (s : I256) :
    x.display c .default = .ok (toString (x.toNat c)).toList
    ∧ s.display c .default = .ok (toString (s.toInt c)).toList := by
  have h := C32_display c x s .default
  refine ⟨?_, ?_⟩
  · rw [h.1, Nat.toString_eq_repr, Nat.toList_repr]; rfl
  · rw [h.2]
    cases hz : s.toInt c with
    | ofNat n => show Except.ok (Nat.toDigits 10 n) = .ok (toString n).toList; rw [Nat.toString_eq_repr, Nat.toList_repr]
    | negSucc n =>
      show Except.ok ('-' :: Nat.toDigits 10 (n + 1)) = .ok ("-" ++ toString (n + 1)).toList
      rw [String.toList_append, Nat.toString_eq_repr, Nat.toList_repr]; rfl

example : (I256.MIN dbg).display dbg .default
      = .ok "-57896044618658097711785492504343953926634992332820282019728792003956564819968".toList
    ∧ U256.MAX.display rel .default
      = .ok "115792089237316195423570985008687907853269984665640564039457584007913129639935".toList
    ∧ U256.ZERO.display rel .default = .ok ['0']
    ∧ (I256.ofInt dbg (-42)).display dbg (fmtAll 8 (some 6)) = .ok "-00042".toList
    ∧ (I256.ofInt dbg 42).display dbg (fmtAll 1 (some 7) (some .center)) = .ok "**+42**".toList := by decide +kernel

/-- C33: `{:b}`, `{:o}`, `{:x}` and `{:X}` of a `U256`. -/
theorem C33_u256_radix (c : Cfg) (r : Radix) (x : U256) (f : Formatter) :
    x.fmtRadix c r f = .ok (f.pad_integral true r.pfx (r.numeral (x.toNat c))) := by
  unfold U256.fmtRadix
  rw [U256.lt_prim_eq, toNat_0, decide_eq_false (Nat.not_lt_zero _)]
  exact r.fmt_u256_eq c x true f

example : (U256.ofNat rel 255).fmtRadix rel .lowerHex .default = .ok "ff".toList
    ∧ (U256.ofNat rel 5).fmtRadix rel .binary .default = .ok "101".toList := by decide +kernel

/-- C33: `{:b}`, `{:o}`, `{:x}` and `{:X}` of an `I256`: the numeral of the two's complement pattern, except that
with the `-` flag a negative number prints `-` and the numeral of its magnitude. -/
theorem C33_i256_radix (c : Cfg) (r : Radix) (s : I256) (f : Formatter) :
    s.fmtRadix c r f = .ok (if s.toInt c < 0 ∧ f.sign_minus = true
      then f.pad_integral false r.pfx (r.numeral (s.toInt c).natAbs)
      else f.pad_integral true r.pfx (r.numeral (s.toInt c % 2 ^ 256).toNat)) := by
  unfold I256.fmtRadix
  rw [I256.lt_prim_eq, toInt_0]
  have h1 := I256.le_toInt c s; have h2 := I256.toNat_toInt c s; have h3 := I256.toInt_lt c s
  by_cases h : s.toInt c < 0 ∧ f.sign_minus = true
  · rw [if_pos h, decide_eq_true h.1, h.2, Bool.and_true, if_pos rfl]
    dsimp only
    rw [r.fmt_u256_eq]
    have : (I256.wrapping_neg c s).as_u256.toNat c = (s.toInt c).natAbs := by
      unfold I256.wrapping_neg I256.wrapping_sub
      rw [Intr.isub3_eq, I256.toInt_ZERO, I256.toNat_as_u256]
      have := I256.toNat_toInt c (I256.ofInt c (0 - s.toInt c))
      have e := I256.toNat_ofInt c (0 - s.toInt c)
      omega
    rw [this]
  · rw [if_neg h]
    have hc : (decide (s.toInt c < 0) && f.sign_minus) = false := by
      cases hs : f.sign_minus
      · simp
      · rw [hs] at h; simp at h; simpa using h
    rw [hc, if_neg (by simp)]
    dsimp only
    rw [r.fmt_u256_eq]
    have : s.as_u256.toNat c = (s.toInt c % 2 ^ 256).toNat := by rw [I256.toNat_as_u256]; omega
    rw [this]

example : (U256.ofNat dbg (2 ^ 130 + 10)).fmtRadix dbg .upperHex (fmtAll 4) = .ok "0x40000000000000000000000000000000A".toList
    ∧ (I256.ofInt rel (-1)).fmtRadix rel .binary .default = .ok (List.replicate 256 '1')
    ∧ (I256.ofInt dbg (-255)).fmtRadix dbg .lowerHex (fmtAll 6) = .ok "-0xff".toList
    ∧ (U256.ofNat dbg 8).fmtRadix dbg .octal (fmtAll 12 (some 7)) = .ok "0o00010".toList := by decide +kernel

theorem layout_pad_integral (f : Formatter) (neg : Prop) [Decidable neg] (pfx digits : List Char) :
    Layout f (signText f neg ++ if f.alternate = true then pfx else []) digits
      (f.pad_integral (decide (¬ neg)) pfx digits) := by
  have hs : (if (!decide (¬ neg)) = true then ['-'] else if f.sign_plus = true then ['+'] else []) = signText f neg := by
    unfold signText
    by_cases h : neg <;> simp [h]
  unfold Formatter.pad_integral
  dsimp only
  rw [hs]
  generalize signText f neg ++ (if f.alternate = true then pfx else []) = head
  cases hw : f.width with
  | none => exact ⟨0, 0, 0, by simp, by simp [hw], by simp, by simp, by simp, by simp, by simp⟩
  | some m =>
    dsimp only
    split
    · next hm => exact ⟨0, 0, 0, by simp, by simp [hw]; omega, by simp, by simp, by simp, by simp, by simp⟩
    · next hm =>
      cases hz : f.sign_aware_zero_pad with
      | true => exact ⟨0, m - (head.length + digits.length), 0, by simp, by simp [hw], by simp, by simp [hz],
          by simp, by simp, by simp⟩
      | false =>
        rw [if_neg (by simp)]
        cases ha : f.align with
        | none => exact ⟨m - (head.length + digits.length), 0, 0, by simp, by simp [hw], by simp [hz], by simp,
            by simp [ha], by simp, by simp [ha]⟩
        | some a =>
          cases a
          · exact ⟨0, 0, m - (head.length + digits.length), by simp, by simp [hw], by simp [hz], by simp,
              by simp, by simp [ha], by simp [ha]⟩
          · exact ⟨m - (head.length + digits.length), 0, 0, by simp, by simp [hw], by simp [hz], by simp,
              by simp [ha], by simp, by simp [ha]⟩
          · exact ⟨(m - (head.length + digits.length)) / 2, 0, (m - (head.length + digits.length) + 1) / 2,
              by simp, by simp [hw]; omega, by simp [hz], by simp, by simp [ha], by simp [ha], fun _ => by omega⟩

/-- The settings leave no freedom: there is one text with the layout they ask for. -/
theorem C32_layout_unique (f : Formatter) (head digits t t' : List Char) (h : Layout f head digits t)
    (h' : Layout f head digits t') : t = t' := by
  obtain ⟨l, z, r, rfl, hs, h1, h2, h3, h4, h5⟩ := h
  obtain ⟨l', z', r', rfl, hs', h1', h2', h3', h4', h5'⟩ := h'
  have : l = l' ∧ z = z' ∧ r = r' := by
    cases hz : f.sign_aware_zero_pad with
    | true => have := h1 hz; have := h1' hz; omega
    | false =>
      have := h2 hz; have := h2' hz
      cases ha : f.align with
      | none => have := h4 (.inr ha); have := h4' (.inr ha); omega
      | some a =>
        cases a
        · have := h3 ha; have := h3' ha; omega
        · have := h4 (.inl ha); have := h4' (.inl ha); omega
        · have := h5 ha; have := h5' ha; omega
  obtain ⟨rfl, rfl, rfl⟩ := this
  rfl

/-- C32: every part of the text `Display` prints, for every setting: the sign, the decimal numeral of the magnitude, and
the padding. -/
theorem C32_layout (c : Cfg) (x : U256) (s : I256) (f : Formatter) :
    (∃ t, x.display c f = .ok t ∧ Layout f (signText f False) (Nat.toDigits 10 (x.toNat c)) t)
    ∧ (∃ t, s.display c f = .ok t ∧ Layout f (signText f (s.toInt c < 0)) (Nat.toDigits 10 (s.toInt c).natAbs) t) := by
  have h := C32_display c x s f
  refine ⟨⟨_, h.1, ?_⟩, ⟨_, h.2, ?_⟩⟩
  · simpa using layout_pad_integral f False [] (Nat.toDigits 10 (x.toNat c))
  · simpa using layout_pad_integral f (s.toInt c < 0) [] (Nat.toDigits 10 (s.toInt c).natAbs)

example : Layout (fmtAll 1 (some 7) (some .center)) (signText (fmtAll 1 (some 7) (some .center)) ((42 : Int) < 0))
    (Nat.toDigits 10 42) "**+42**".toList := ⟨2, 0, 2, by decide +kernel⟩

/-- C33: every part of the text the radix formats print, for every setting: the sign, the prefix under `#`, the numeral,
and the padding. An `I256` prints its two's complement pattern, unless it is negative and the `-` flag is set. -/
theorem C33_layout (c : Cfg) (r : Radix) (x : U256) (s : I256) (f : Formatter) :
    (∃ t, x.fmtRadix c r f = .ok t
      ∧ Layout f (signText f False ++ if f.alternate = true then r.pfx else []) (r.numeral (x.toNat c)) t)
    ∧ (∃ t, s.fmtRadix c r f = .ok t
      ∧ Layout f (signText f (s.toInt c < 0 ∧ f.sign_minus = true) ++ if f.alternate = true then r.pfx else [])
          (r.numeral (if s.toInt c < 0 ∧ f.sign_minus = true then (s.toInt c).natAbs
            else (s.toInt c % 2 ^ 256).toNat)) t) := by
  refine ⟨⟨_, C33_u256_radix c r x f, ?_⟩, ⟨_, C33_i256_radix c r s f, ?_⟩⟩
  · simpa using layout_pad_integral f False r.pfx (r.numeral (x.toNat c))
  · have h := layout_pad_integral f (s.toInt c < 0 ∧ f.sign_minus = true) r.pfx
      (r.numeral (if s.toInt c < 0 ∧ f.sign_minus = true then (s.toInt c).natAbs
            else (s.toInt c % 2 ^ 256).toNat))
    by_cases hc : s.toInt c < 0 ∧ f.sign_minus = true
    · simp only [if_pos hc, decide_eq_false (not_not_intro hc)] at h ⊢; exact h
    · simp only [if_neg hc, decide_eq_true hc] at h ⊢; exact h

example : Layout (fmtAll 12 (some 7)) (signText (fmtAll 12 (some 7)) False ++ Radix.pfx .octal) (Radix.numeral .octal 8)
    "0o00010".toList := ⟨0, 3, 0, by decide +kernel⟩

theorem flag_iff (x : U32) (i : Nat) (hi : i < 32) : x &&& (1#32 <<< i) ≠ 0 ↔ x.getLsbD i = true := by
  have h1 : ∀ j, (1#32 <<< i : U32).getLsbD j = decide (j = i) := fun j => by
    have : (1#32 <<< i : U32) = BitVec.twoPow 32 i := by
      rw [BitVec.twoPow]
    rw [this, BitVec.getLsbD_twoPow]
    by_cases h : j = i
    · subst h; simp [hi]
    · simp [h]; omega
  constructor
  · intro h
    by_contra hx
    apply h
    apply BitVec.eq_of_getLsbD_eq
    intro j hj
    rw [BitVec.getLsbD_and, h1]
    by_cases e : j = i
    · subst e; simp [hx]
    · simp [e]
  · intro hx h
    have := congrArg (fun v : U32 => v.getLsbD i) h
    simp only [BitVec.getLsbD_and, h1, hx] at this
    simp at this

/-- C33: `Debug` is `LowerHex` under `x?`, `UpperHex` under `X?` and `Display` otherwise. -/
theorem C33_debug (c : Cfg) (x : U256) (s : I256) (f : Formatter) :
    x.debug c f = (if f.flags.getLsbD 4 = true then x.fmtRadix c .lowerHex f
      else if f.flags.getLsbD 5 = true then x.fmtRadix c .upperHex f else x.display c f)
    ∧ s.debug c f = (if f.flags.getLsbD 4 = true then s.fmtRadix c .lowerHex f
      else if f.flags.getLsbD 5 = true then s.fmtRadix c .upperHex f else s.display c f) := by
  unfold U256.debug I256.debug
  simp only [flag_iff f.flags 4 (by omega), flag_iff f.flags 5 (by omega), and_self]

example : (U256.ofNat dbg 255).debug dbg (fmtAll 16) = .ok "ff".toList
    ∧ (U256.ofNat dbg 255).debug dbg (fmtAll 36) = .ok "0xFF".toList
    ∧ (I256.ofInt rel (-255)).debug rel .default = .ok "-255".toList := by decide +kernel

theorem formatter_aux (o : FormatSpec) : o.formatter.sign_plus = o.plus ∧ o.formatter.sign_minus = o.minus
    ∧ o.formatter.alternate = o.alternate ∧ o.formatter.sign_aware_zero_pad = o.zero
    ∧ o.formatter.flags.getLsbD 4 = o.hexLower ∧ o.formatter.flags.getLsbD 5 = o.hexUpper := by
  obtain ⟨a, b, d, e, f, g, w, ch, al⟩ := o
  revert a b d e f g
  have : ∀ a b d e f g : Bool,
      let v := BitVec.ofNat 32 (a.toNat + 2 * b.toNat + 4 * d.toNat + 8 * e.toNat + 16 * f.toNat + 32 * g.toNat)
      v.getLsbD 0 = a ∧ v.getLsbD 1 = b ∧ v.getLsbD 2 = d ∧ v.getLsbD 3 = e ∧ v.getLsbD 4 = f ∧ v.getLsbD 5 = g := by
    decide +kernel
  exact this

/-- C32, C33: the text in terms of what is written in the format string. `+` asks for a sign, `#` for a prefix, `-` for a
signed numeral in place of the two's complement pattern, `0` for padding with zeros. -/
theorem C33_format_string (c : Cfg) (r : Radix) (x : U256) (s : I256) (o : FormatSpec) :
    let plus : List Char := if o.plus = true then ['+'] else []
    let pfx : List Char := if o.alternate = true then r.pfx else []
    let Lay (head digits t : List Char) : Prop := ∃ l z k : Nat,
      t = List.replicate l o.fill ++ head ++ List.replicate z '0' ++ digits ++ List.replicate k o.fill
      ∧ l + z + k = o.width.getD 0 - (head.length + digits.length)
      ∧ (o.zero = true → l = 0 ∧ k = 0) ∧ (o.zero = false → z = 0)
      ∧ (o.align = some .left → l = 0) ∧ (o.align = some .right ∨ o.align = none → k = 0)
      ∧ (o.align = some .center → l ≤ k ∧ k ≤ l + 1)
    (∃ t, x.display c o.formatter = .ok t ∧ Lay plus (Nat.toDigits 10 (x.toNat c)) t)
    ∧ (∃ t, s.display c o.formatter = .ok t
        ∧ Lay (if s.toInt c < 0 then ['-'] else plus) (Nat.toDigits 10 (s.toInt c).natAbs) t)
    ∧ (∃ t, x.fmtRadix c r o.formatter = .ok t ∧ Lay (plus ++ pfx) (r.numeral (x.toNat c)) t)
    ∧ (∃ t, s.fmtRadix c r o.formatter = .ok t
        ∧ Lay ((if s.toInt c < 0 ∧ o.minus = true then ['-'] else plus) ++ pfx)
            (r.numeral (if s.toInt c < 0 ∧ o.minus = true then (s.toInt c).natAbs else (s.toInt c % 2 ^ 256).toNat)) t)
    ∧ x.debug c o.formatter = (if o.hexLower = true then x.fmtRadix c .lowerHex o.formatter
      else if o.hexUpper = true then x.fmtRadix c .upperHex o.formatter else x.display c o.formatter)
    ∧ s.debug c o.formatter = (if o.hexLower = true then s.fmtRadix c .lowerHex o.formatter
      else if o.hexUpper = true then s.fmtRadix c .upperHex o.formatter else s.display c o.formatter) := by
  obtain ⟨e1, e2, e3, e4, e5, e6⟩ := formatter_aux o
  have h1 := C32_layout c x s o.formatter
  have h2 := C33_layout c r x s o.formatter
  have h3 := C33_debug c x s o.formatter
  unfold Layout signText at h1 h2
  rw [e5, e6] at h3
  simp only [e1, e2, e3, e4, if_false] at h1 h2
  exact ⟨h1.1, h1.2, h2.1, h2.2, h3.1, h3.2⟩

/-- `{:+#08x}` of 255 and `{:-<6}` of -12. -/
example : (U256.ofNat dbg 255).fmtRadix dbg .lowerHex
      (FormatSpec.formatter ⟨true, false, true, true, false, false, some 8, ' ', none⟩) = .ok "+0x000ff".toList
    ∧ (I256.ofInt rel (-12)).display rel
      (FormatSpec.formatter ⟨false, false, false, false, false, false, some 6, '-', some .left⟩) = .ok "-12---".toList := by
  decide +kernel

end Ethnum
