import Verif.Proofs.Sort
import Verif.Props.Fmt
import Verif.Props.Bytes
import Verif.Props.SerdeBytes
import Verif.Props.SerdeCompressed

/-
C70: encodings that sort like the numbers. `lex` is dictionary order, the order of byte strings and text in databases
and sorted files, and `shortlex` puts shorter lists first; both are defined in `SpecSort.lean`. `a.cmp c b` is the
library's own comparison, which C20 shows to be that of the numbers.
-/

namespace Ethnum
open Serde

/-- C70: the big-endian bytes of `U256` values are in dictionary order as the values are in numeric order, and so are
those of `I256` values once the top bit of the first byte is inverted. -/
theorem C70_be_bytes (c : Cfg) (x y : U256) (s t : I256) :
    lex (byteCodes (x.to_be_bytes c)) (byteCodes (y.to_be_bytes c)) = x.cmp c y
    ∧ lex (byteCodes (flipTop (s.to_be_bytes c))) (byteCodes (flipTop (t.to_be_bytes c))) = s.cmp c t := by
  rw [(C22_to_bytes c x s).2.1, (C22_to_bytes c y s).2.1, (C22_to_bytes c x s).2.2.2.2.1, (C22_to_bytes c x t).2.2.2.2.1,
    (C20_u256_cmp c x y).1, (C20_i256_cmp c s t).1]
  constructor
  · rw [Dict.lex_bytes _ _ (by simp), List.reverse_reverse, List.reverse_reverse, leValue_leBytes, leValue_leBytes,
      Nat.mod_eq_of_lt (U256.toNat_lt c x), Nat.mod_eq_of_lt (U256.toNat_lt c y)]
  · have h1 := Dict.flipTop_value (s.toInt c) (I256.le_toInt c s) (I256.toInt_lt c s)
    have h2 := Dict.flipTop_value (t.toInt c) (I256.le_toInt c t) (I256.toInt_lt c t)
    rw [Dict.lex_bytes _ _ (by simp [Dict.length_flipTop])]
    revert h1 h2
    generalize leValue _ = a
    generalize leValue _ = b
    intro h1 h2
    rcases Int.lt_trichotomy (s.toInt c) (t.toInt c) with h | h | h
    · rw [Nat.compare_eq_lt.mpr (by omega), Int.compare_eq_lt.mpr h]
    · rw [Nat.compare_eq_eq.mpr (by omega), Int.compare_eq_eq.mpr h]
    · rw [Nat.compare_eq_gt.mpr (by omega), Int.compare_eq_gt.mpr h]

example : lex (byteCodes ((U256.ofNat rel (2 ^ 200)).to_be_bytes rel)) (byteCodes ((U256.ofNat rel 255).to_be_bytes rel))
    = .gt := by decide +kernel
example : lex (byteCodes (flipTop ((I256.ofInt rel (-1)).to_be_bytes rel)))
    (byteCodes (flipTop ((I256.ofInt rel 1).to_be_bytes rel))) = .lt := by decide +kernel
-- Without the inverted bit the negative number comes last.
example : lex (byteCodes ((I256.ofInt rel (-1)).to_be_bytes rel)) (byteCodes ((I256.ofInt rel 1).to_be_bytes rel))
    = .gt := by decide +kernel
-- Little-endian bytes do not sort like the numbers.
example : lex (byteCodes ((U256.ofNat rel 256).to_le_bytes rel)) (byteCodes ((U256.ofNat rel 1).to_le_bytes rel))
    = .lt := by decide +kernel

/-- C70: so a list of values is in ascending order exactly if the list of their big-endian bytes is. -/
theorem C70_sorted (c : Cfg) (xs : List U256) (ss : List I256) :
    ((xs.map (·.to_be_bytes c)).Pairwise (fun a b => lex (byteCodes a) (byteCodes b) ≠ .gt)
      ↔ xs.Pairwise (fun x y => x.le c y = true))
    ∧ ((ss.map (fun s => flipTop (s.to_be_bytes c))).Pairwise (fun a b => lex (byteCodes a) (byteCodes b) ≠ .gt)
      ↔ ss.Pairwise (fun s t => s.le c t = true)) := by
  rw [List.pairwise_map, List.pairwise_map]
  constructor
  · refine iff_of_eq (congrArg (List.Pairwise · xs) (funext fun x => funext fun y => propext ?_))
    rw [(C70_be_bytes c x y (.ofInt c 0) (.ofInt c 0)).1, (C20_u256_cmp c x y).1, (C20_u256_cmp c x y).2.2.2.2.2.1,
      decide_eq_true_iff]
    exact Nat.compare_ne_gt
  · refine iff_of_eq (congrArg (List.Pairwise · ss) (funext fun s => funext fun t => propext ?_))
    rw [(C70_be_bytes c (.ofNat c 0) (.ofNat c 0) s t).2, (C20_i256_cmp c s t).1, (C20_i256_cmp c s t).2.2.2.2.2.1,
      decide_eq_true_iff]
    exact Int.compare_ne_gt

/-- C70: two values share the first `k` bytes of their big-endian form exactly if they agree above the low `32 - k`
bytes, so that the keys with a given prefix are an interval of values. -/
theorem C70_prefix (c : Cfg) (x y : U256) (k : Nat) (hk : k ≤ 32) :
    (x.to_be_bytes c).take k = (y.to_be_bytes c).take k
      ↔ x.toNat c / 256 ^ (32 - k) = y.toNat c / 256 ^ (32 - k) := by
  have key : ∀ z : U256, (z.to_be_bytes c).take k = (leBytes k (z.toNat c / 256 ^ (32 - k))).reverse := fun z => by
    rw [(C22_to_bytes c z (.ofInt c 0)).2.1, List.take_reverse, length_leBytes]
    congr 1
    have : leBytes 32 (z.toNat c) = leBytes (32 - k) (z.toNat c) ++ leBytes k (z.toNat c / 256 ^ (32 - k)) := by
      rw [← leBytes_add]; congr 1; omega
    rw [this, List.drop_left' (length_leBytes ..)]
  have hlt : ∀ z : U256, z.toNat c / 256 ^ (32 - k) < 256 ^ k := fun z => by
    rw [Nat.div_lt_iff_lt_mul (Nat.pow_pos (by decide)), ← Nat.pow_add, show k + (32 - k) = 32 by omega]
    exact U256.toNat_lt c z
  rw [key, key]
  constructor
  · intro h
    have := congrArg leValue (List.reverse_injective h)
    rwa [leValue_leBytes, leValue_leBytes, Nat.mod_eq_of_lt (hlt x), Nat.mod_eq_of_lt (hlt y)] at this
  · intro h
    rw [h]

example : ((U256.ofNat rel (2 ^ 248 + 5)).to_be_bytes rel).take 1 = ((U256.ofNat rel (2 ^ 249 - 1)).to_be_bytes rel).take 1
    ∧ ((U256.ofNat rel (2 ^ 249)).to_be_bytes rel).take 1 ≠ ((U256.ofNat rel (2 ^ 249 - 1)).to_be_bytes rel).take 1 := by
  decide +kernel

/-- C70: what serde writes with the big-endian byte format sorts in the same way. -/
theorem C70_serde_bytes (c : Cfg) (x y : U256) (s t : I256) :
    ∃ a b a' b' : List U8,
      x.serialize_bytes c .be = .ok (.bytes a) ∧ y.serialize_bytes c .be = .ok (.bytes b)
      ∧ lex (byteCodes a) (byteCodes b) = x.cmp c y
      ∧ s.serialize_bytes c .be = .ok (.bytes a') ∧ t.serialize_bytes c .be = .ok (.bytes b')
      ∧ lex (byteCodes (flipTop a')) (byteCodes (flipTop b')) = s.cmp c t := by
  refine ⟨_, _, _, _, (C39_serialize c .be x s).1, (C39_serialize c .be y s).1, ?_, (C39_serialize c .be x s).2,
    (C39_serialize c .be x t).2, ?_⟩
  · rw [← (C70_be_bytes c x y s t).1, (C22_to_bytes c x s).2.1, (C22_to_bytes c y s).2.1]; rfl
  · rw [← (C70_be_bytes c x y s t).2, (C22_to_bytes c x s).2.2.2.2.1, (C22_to_bytes c x t).2.2.2.2.1]; rfl

example : ∃ a, (U256.ofNat rel 258).serialize_bytes rel .be = .ok (.bytes a) ∧ a.drop 30 = [1, 2] := ⟨_, rfl, by decide +kernel⟩

/-- C70: what serde writes for `U256` with the compressed big-endian format sorts like the values if shorter strings
come first. -/
theorem C70_compressed (c : Cfg) (x y : U256) :
    ∃ a b : List U8, x.serialize_compressed c .be = .ok (.bytes a) ∧ y.serialize_compressed c .be = .ok (.bytes b)
      ∧ shortlex (byteCodes a) (byteCodes b) = x.cmp c y := by
  obtain ⟨n, h1, h2, h3⟩ := C40_u256_serialize c .be x
  obtain ⟨m, h4, h5, h6⟩ := C40_u256_serialize c .be y
  refine ⟨_, _, h1, h4, ?_⟩
  show shortlex (byteCodes (leBytes n (x.toNat c)).reverse) (byteCodes (leBytes m (y.toNat c)).reverse) = _
  rw [(C20_u256_cmp c x y).1]
  unfold shortlex
  rw [Dict.length_byteCodes, Dict.length_byteCodes, List.length_reverse, List.length_reverse, length_leBytes,
    length_leBytes]
  by_cases h : n < m
  · rw [if_pos h]
    have := mt (h6 n) (by omega)
    rw [Nat.compare_eq_lt.mpr (by omega)]
  · rw [if_neg h]
    by_cases h' : m < n
    · rw [if_pos h']
      have := mt (h3 m) (by omega)
      rw [Nat.compare_eq_gt.mpr (by omega)]
    · have hnm : n = m := by omega
      subst hnm
      rw [if_neg h', Dict.lex_bytes _ _ (by simp), List.reverse_reverse, List.reverse_reverse, leValue_leBytes,
        leValue_leBytes, Nat.mod_eq_of_lt h2, Nat.mod_eq_of_lt h5]

-- Dictionary order alone is not enough for the compressed format: `[2]` comes after `[1, 0]`.
example : (U256.ofNat rel 2).serialize_compressed rel .be = .ok (.bytes [2])
    ∧ (U256.ofNat rel 256).serialize_compressed rel .be = .ok (.bytes [1, 0])
    ∧ shortlex (byteCodes [2]) (byteCodes [1, 0]) = .lt ∧ lex (byteCodes [2]) (byteCodes [1, 0]) = .gt := by
  decide +kernel

private theorem layout_zero {f : Formatter} {head digits t : List Char} (h : Layout f head digits t)
    (hw : f.width = none ∨ f.sign_aware_zero_pad = true) :
    t = head ++ List.replicate (f.width.getD 0 - (head.length + digits.length)) '0' ++ digits := by
  obtain ⟨l, z, r, ht, hs, hz, -⟩ := h
  have h0 : l = 0 ∧ r = 0 := by
    rcases hw with hw | hw
    · rw [hw, Option.getD_none] at hs; omega
    · exact hz hw
  obtain ⟨rfl, rfl⟩ := h0
  rw [ht, ← hs]
  simp

/-- C70: the decimal, binary, octal and hexadecimal texts of `U256` values, without padding or padded with zeros, sort
like the values if shorter texts come first. -/
theorem C70_text (c : Cfg) (r : Radix) (x y : U256) (f : Formatter)
    (hf : f.width = none ∨ f.sign_aware_zero_pad = true) :
    (∃ t u, x.display c f = .ok t ∧ y.display c f = .ok u ∧ shortlex (charCodes t) (charCodes u) = x.cmp c y)
    ∧ (∃ t u, x.fmtRadix c r f = .ok t ∧ y.fmtRadix c r f = .ok u
        ∧ shortlex (charCodes t) (charCodes u) = x.cmp c y) := by
  rw [(C20_u256_cmp c x y).1]
  constructor
  · obtain ⟨t, ht, lt⟩ := (C32_layout c x (.ofInt c 0) f).1
    obtain ⟨u, hu, lu⟩ := (C32_layout c y (.ofInt c 0) f).1
    exact ⟨t, u, ht, hu, Dict.numerals_dec.shortlex _ _ _ _ t u (layout_zero lt hf) (layout_zero lu hf)⟩
  · obtain ⟨t, ht, lt⟩ := (C33_layout c r x (.ofInt c 0) f).1
    obtain ⟨u, hu, lu⟩ := (C33_layout c r y (.ofInt c 0) f).1
    exact ⟨t, u, ht, hu, (Dict.numerals_radix r).shortlex _ _ _ _ t u (layout_zero lt hf) (layout_zero lu hf)⟩

-- Dictionary order alone is not enough for texts of different lengths: `10` comes before `9`.
example : (U256.ofNat rel 10).display rel .default = .ok ['1', '0'] ∧ (U256.ofNat rel 9).display rel .default = .ok ['9']
    ∧ shortlex (charCodes ['1', '0']) (charCodes ['9']) = .gt ∧ lex (charCodes ['1', '0']) (charCodes ['9']) = .lt := by
  decide +kernel

/-- C70: padded with zeros to a width that holds the largest value, such as in `{:078}`, `{:064x}` and `{:#066x}`, all
texts have that width, and dictionary order is the order of the values. -/
theorem C70_fixed_width (c : Cfg) (r : Radix) (x y : U256) (f : Formatter) (w : Nat)
    (hz : f.sign_aware_zero_pad = true) (hw : f.width = some w) :
    ((signText f False).length + (Nat.toDigits 10 (2 ^ 256 - 1)).length ≤ w →
      ∃ t u, x.display c f = .ok t ∧ y.display c f = .ok u ∧ t.length = w ∧ u.length = w
        ∧ lex (charCodes t) (charCodes u) = x.cmp c y)
    ∧ ((signText f False ++ if f.alternate = true then r.pfx else []).length + (r.numeral (2 ^ 256 - 1)).length ≤ w →
      ∃ t u, x.fmtRadix c r f = .ok t ∧ y.fmtRadix c r f = .ok u ∧ t.length = w ∧ u.length = w
        ∧ lex (charCodes t) (charCodes u) = x.cmp c y) := by
  have lc : ∀ l : List Char, (charCodes l).length = l.length := fun l => List.length_map ..
  have fixed : ∀ {B e num head t u} (_ : Dict.Numerals B e num), Layout f head (num (x.toNat c)) t →
      Layout f head (num (y.toNat c)) u → head.length + (num (2 ^ 256 - 1)).length ≤ w →
      shortlex (charCodes t) (charCodes u) = x.cmp c y →
      t.length = w ∧ u.length = w ∧ lex (charCodes t) (charCodes u) = x.cmp c y := by
    intro B e num head t u N lt lu hh hs
    have short : ∀ z : U256, (num (z.toNat c)).length ≤ (num (2 ^ 256 - 1)).length := fun z => by
      have hp := N.length_pos (2 ^ 256 - 1)
      rw [N.length _ _ hp]
      have := (N.length (2 ^ 256 - 1) _ hp).mp (Nat.le_refl _)
      have := U256.toNat_lt c z
      omega
    have hx := short x
    have hy := short y
    have ht : t.length = w := by
      rw [layout_zero lt (.inr hz), hw, Option.getD_some, List.length_append, List.length_append, List.length_replicate]
      omega
    have hu : u.length = w := by
      rw [layout_zero lu (.inr hz), hw, Option.getD_some, List.length_append, List.length_append, List.length_replicate]
      omega
    refine ⟨ht, hu, ?_⟩
    unfold shortlex at hs
    rwa [lc, lc, ht, hu, if_neg (Nat.lt_irrefl _), if_neg (Nat.lt_irrefl _)] at hs
  obtain ⟨⟨t, u, ht, hu, hs⟩, ⟨t', u', ht', hu', hs'⟩⟩ := C70_text c r x y f (.inr hz)
  constructor
  · intro hh
    obtain ⟨t₁, ht₁, lt⟩ := (C32_layout c x (.ofInt c 0) f).1
    obtain ⟨u₁, hu₁, lu⟩ := (C32_layout c y (.ofInt c 0) f).1
    rw [ht] at ht₁; rw [hu] at hu₁
    cases ht₁; cases hu₁
    exact ⟨t, u, ht, hu, fixed Dict.numerals_dec lt lu hh hs⟩
  · intro hh
    obtain ⟨t₁, ht₁, lt⟩ := (C33_layout c r x (.ofInt c 0) f).1
    obtain ⟨u₁, hu₁, lu⟩ := (C33_layout c r y (.ofInt c 0) f).1
    rw [ht'] at ht₁; rw [hu'] at hu₁
    cases ht₁; cases hu₁
    exact ⟨t', u', ht', hu', fixed (Dict.numerals_radix r) lt lu hh hs'⟩

-- `{:078}`, `{:064x}` and `{:#066x}` are wide enough, and `{:077}`, `{:063x}` and `{:#065x}` are not.
example : (Nat.toDigits 10 (2 ^ 256 - 1)).length = 78 ∧ (Radix.numeral .lowerHex (2 ^ 256 - 1)).length = 64
    ∧ (Radix.pfx .lowerHex ++ Radix.numeral .lowerHex (2 ^ 256 - 1)).length = 66 := by decide +kernel
example : (FormatSpec.mk false false true true false false (some 66) ' ' none).formatter.sign_aware_zero_pad = true
    ∧ (FormatSpec.mk false false true true false false (some 66) ' ' none).formatter.alternate = true
    ∧ signText (FormatSpec.mk false false true true false false (some 66) ' ' none).formatter False = [] := by decide
example : let f : Formatter := (FormatSpec.mk false false false true false false (some 4) ' ' none).formatter
    (U256.ofNat rel 10).fmtRadix rel .lowerHex f = .ok ['0', '0', '0', 'a']
    ∧ (U256.ofNat rel 9).fmtRadix rel .lowerHex f = .ok ['0', '0', '0', '9']
    ∧ lex (charCodes ['0', '0', '0', 'a']) (charCodes ['0', '0', '0', '9']) = .gt := by decide +kernel

end Ethnum
