import Verif.Model.Bytes
import Verif.Proofs.Bytes
import Verif.Props.Bits

/-
C22: conversion to and from byte arrays.
-/

namespace Ethnum

theorem to_ne_bytes_eq (c : Cfg) (x : U256) :
    x.to_ne_bytes c = if c.bigEndian then (leBytes 32 (x.toNat c)).reverse else leBytes 32 (x.toNat c) := by
  rw [U256.leBytes_toNat]
  unfold U256.to_ne_bytes neBytes128 U256.low U256.high
  cases c.bigEndian <;> simp

theorem to_bytes_eq (c : Cfg) (x : U256) :
    x.to_le_bytes c = leBytes 32 (x.toNat c) ∧ x.to_be_bytes c = (leBytes 32 (x.toNat c)).reverse := by
  have hs := (C15_swap_bytes c x I256.ZERO).1
  unfold U256.to_le_bytes U256.to_be_bytes U256.to_le U256.to_be
  rw [to_ne_bytes_eq, to_ne_bytes_eq]
  cases h : c.bigEndian <;> simp [hs]

/-- C22: the bytes of a value are its 32 base-256 digits (of the two's complement for `I256`), least significant
first for `le`, most significant first for `be`, the target's order for `ne`. -/
theorem C22_to_bytes (c : Cfg) (x : U256) (s : I256) :
    x.to_le_bytes c = leBytes 32 (x.toNat c) ∧ x.to_be_bytes c = (leBytes 32 (x.toNat c)).reverse
    ∧ x.to_ne_bytes c = (if c.bigEndian then x.to_be_bytes c else x.to_le_bytes c)
    ∧ s.to_le_bytes c = leBytes 32 (s.toInt c % 2 ^ 256).toNat
    ∧ s.to_be_bytes c = (leBytes 32 (s.toInt c % 2 ^ 256).toNat).reverse
    ∧ s.to_ne_bytes c = (if c.bigEndian then s.to_be_bytes c else s.to_le_bytes c) := by
  have hv : (s.toInt c % 2 ^ 256).toNat = s.as_u256.toNat c := by
    have := I256.toNat_toInt c s; have h2 := U256.toNat_lt c s.as_u256
    rw [I256.toNat_as_u256] at h2 ⊢
    omega
  have key : ∀ x : U256, x.to_ne_bytes c = (if c.bigEndian then x.to_be_bytes c else x.to_le_bytes c) := fun x => by
    rw [to_ne_bytes_eq, (to_bytes_eq c x).1, (to_bytes_eq c x).2]
  rw [hv]
  have e1 : s.to_le_bytes c = s.as_u256.to_le_bytes c := by
    unfold I256.to_le_bytes U256.to_le_bytes I256.to_le U256.to_le
    split <;> rfl
  have e2 : s.to_be_bytes c = s.as_u256.to_be_bytes c := by
    unfold I256.to_be_bytes U256.to_be_bytes I256.to_be U256.to_be
    split <;> rfl
  rw [e1, e2]
  exact ⟨(to_bytes_eq c x).1, (to_bytes_eq c x).2, key x, (to_bytes_eq c _).1, (to_bytes_eq c _).2, key s.as_u256⟩

example : (U256.ofNat dbg 0x0102).to_le_bytes dbg = 2 :: 1 :: List.replicate 30 0
    ∧ (U256.ofNat rel 0x0102).to_be_bytes rel = List.replicate 30 0 ++ [1, 2]
    ∧ (I256.ofInt rel (-2)).to_le_bytes rel = 0xfe :: List.replicate 31 0xff := by decide +kernel

theorem to_from_ne (c : Cfg) (x : U256) : U256.from_ne_bytes c (x.to_ne_bytes c) = x := by
  unfold U256.from_ne_bytes U256.to_ne_bytes
  have hl : ∀ x, (neBytes128 c x).length = 16 := fun x => by unfold neBytes128; split <;> simp
  have hi : ∀ x, ofNeBytes128 c (neBytes128 c x) = x := fun x => by
    have : BitVec.ofNat 128 (leValue (leBytes 16 x.toNat)) = x := by
      apply BitVec.eq_of_toNat_eq
      rw [leValue_leBytes, ← two128, Nat.mod_eq_of_lt x.isLt]; simp
    unfold ofNeBytes128 neBytes128
    split <;> simp [this]
  rw [List.take_left' (hl _), List.drop_left' (hl _), hi, hi]

theorem from_to_ne (c : Cfg) (l : List U8) (h : l.length = 32) : (U256.from_ne_bytes c l).to_ne_bytes c = l := by
  unfold U256.from_ne_bytes U256.to_ne_bytes
  have hi : ∀ l : List U8, l.length = 16 → neBytes128 c (ofNeBytes128 c l) = l := fun l hl => by
    unfold ofNeBytes128 neBytes128
    split
    · have := leBytes_leValue l.reverse
      rw [List.length_reverse, hl] at this
      rw [toNat_ofNeBytes_aux _ (by simpa using hl), this, List.reverse_reverse]
    · have := leBytes_leValue l
      rw [hl] at this
      rw [toNat_ofNeBytes_aux _ hl, this]
  dsimp only
  rw [hi _ (by rw [List.length_take]; omega), hi _ (by rw [List.length_drop]; omega), List.take_append_drop]

theorem from_bytes_u256 (c : Cfg) (x : U256) (l : List U8) (h : l.length = 32) :
    U256.from_le_bytes c (x.to_le_bytes c) = x ∧ U256.from_be_bytes c (x.to_be_bytes c) = x
    ∧ (U256.from_le_bytes c l).to_le_bytes c = l ∧ (U256.from_be_bytes c l).to_be_bytes c = l := by
  have he := C15_endian c x I256.ZERO
  unfold U256.from_le_bytes U256.from_be_bytes U256.to_le_bytes U256.to_be_bytes
  rw [to_from_ne, to_from_ne]
  have hl := from_to_ne c l h
  have hsw : ∀ y : U256, y.swap_bytes.swap_bytes = y := fun y => (C15_swap_bytes c y I256.ZERO).2.2.1
  refine ⟨he.2.2.2.2.2.1, he.2.2.2.2.1, ?_, ?_⟩
  · unfold U256.to_le U256.from_le; split
    · exact hl
    · rw [hsw, hl]
  · unfold U256.to_be U256.from_be; split
    · exact hl
    · rw [hsw, hl]

theorem I256.from_bytes_eq (c : Cfg) (l : List U8) : I256.from_le_bytes c l = (U256.from_le_bytes c l).as_i256
    ∧ I256.from_be_bytes c l = (U256.from_be_bytes c l).as_i256 := by
  unfold I256.from_le_bytes U256.from_le_bytes I256.from_le U256.from_le I256.from_be_bytes U256.from_be_bytes
    I256.from_be U256.from_be
  constructor <;> split <;> rfl

theorem I256.to_bytes_eq (c : Cfg) (s : I256) : s.to_le_bytes c = s.as_u256.to_le_bytes c
    ∧ s.to_be_bytes c = s.as_u256.to_be_bytes c := by
  unfold I256.to_le_bytes U256.to_le_bytes I256.to_le U256.to_le I256.to_be_bytes U256.to_be_bytes I256.to_be U256.to_be
  constructor <;> split <;> rfl

theorem toInt_as_i256_cases (c : Cfg) (x : U256) :
    x.as_i256.toInt c = if x.toNat c < 2 ^ 255 then (x.toNat c : Int) else x.toNat c - 2 ^ 256 := by
  have := I256.toNat_toInt c x.as_i256
  have h1 := I256.toInt_lt c x.as_i256; have h2 := I256.le_toInt c x.as_i256
  have h3 := U256.toNat_lt c x
  rw [I256.toNat_as_i256] at this
  split <;> omega

/-- C22: decoding any 32 bytes gives the number they denote, in each order. -/
theorem C22_from_bytes (c : Cfg) (l : List U8) (h : l.length = 32) :
    (U256.from_le_bytes c l).toNat c = leValue l ∧ (U256.from_be_bytes c l).toNat c = leValue l.reverse
    ∧ U256.from_ne_bytes c l = (if c.bigEndian then U256.from_be_bytes c l else U256.from_le_bytes c l)
    ∧ (I256.from_le_bytes c l).toInt c = (if leValue l < 2 ^ 255 then (leValue l : Int) else leValue l - 2 ^ 256)
    ∧ (I256.from_be_bytes c l).toInt c = (if leValue l.reverse < 2 ^ 255 then (leValue l.reverse : Int) else leValue l.reverse - 2 ^ 256)
    ∧ I256.from_ne_bytes c l = (if c.bigEndian then I256.from_be_bytes c l else I256.from_le_bytes c l) := by
  have h1 := (from_bytes_u256 c U256.ZERO l h).2.2.1
  have h2 := (from_bytes_u256 c U256.ZERO l h).2.2.2
  rw [(to_bytes_eq c _).1] at h1
  rw [(to_bytes_eq c _).2] at h2
  have key : ∀ (x : U256), x.toNat c = leValue (leBytes 32 (x.toNat c)) := fun x => by
    rw [leValue_leBytes, ← two256, Nat.mod_eq_of_lt (U256.toNat_lt c x)]
  have e1 : (U256.from_le_bytes c l).toNat c = leValue l := by rw [key, h1]
  have e2 : (U256.from_be_bytes c l).toNat c = leValue l.reverse := by
    have := congrArg List.reverse h2
    rw [List.reverse_reverse] at this
    rw [key, this]
  refine ⟨e1, e2, ?_, ?_, ?_, ?_⟩
  · unfold U256.from_be_bytes U256.from_le_bytes U256.from_be U256.from_le
    cases c.bigEndian <;> simp
  · rw [(I256.from_bytes_eq c l).1, toInt_as_i256_cases, e1]
  · rw [(I256.from_bytes_eq c l).2, toInt_as_i256_cases, e2]
  · unfold I256.from_be_bytes I256.from_le_bytes I256.from_be I256.from_le
    cases c.bigEndian <;> simp

example : (2 :: 1 :: List.replicate 30 (0 : U8)).length = 32
    ∧ (U256.from_le_bytes rel (2 :: 1 :: List.replicate 30 0)).toNat rel = 0x0102
    ∧ (I256.from_be_bytes dbg (List.replicate 31 0xff ++ [0xfe])).toInt dbg = -2 := by decide +kernel

/-- C22: every pair of conversions is inverse in both directions. -/
theorem C22_round_trip (c : Cfg) (x : U256) (s : I256) (l : List U8) (h : l.length = 32) :
    U256.from_le_bytes c (x.to_le_bytes c) = x ∧ U256.from_be_bytes c (x.to_be_bytes c) = x
    ∧ U256.from_ne_bytes c (x.to_ne_bytes c) = x
    ∧ I256.from_le_bytes c (s.to_le_bytes c) = s ∧ I256.from_be_bytes c (s.to_be_bytes c) = s
    ∧ I256.from_ne_bytes c (s.to_ne_bytes c) = s
    ∧ (U256.from_le_bytes c l).to_le_bytes c = l ∧ (U256.from_be_bytes c l).to_be_bytes c = l
    ∧ (U256.from_ne_bytes c l).to_ne_bytes c = l
    ∧ (I256.from_le_bytes c l).to_le_bytes c = l ∧ (I256.from_be_bytes c l).to_be_bytes c = l
    ∧ (I256.from_ne_bytes c l).to_ne_bytes c = l := by
  have hx := from_bytes_u256 c x l h
  have hs := from_bytes_u256 c s.as_u256 l h
  refine ⟨hx.1, hx.2.1, to_from_ne c x, ?_, ?_, ?_, hx.2.2.1, hx.2.2.2, from_to_ne c l h, ?_, ?_, ?_⟩
  · rw [(I256.to_bytes_eq c s).1, (I256.from_bytes_eq c _).1, hs.1]; rfl
  · rw [(I256.to_bytes_eq c s).2, (I256.from_bytes_eq c _).2, hs.2.1]; rfl
  · exact congrArg U256.as_i256 (to_from_ne c s.as_u256)
  · rw [(I256.to_bytes_eq c _).1, (I256.from_bytes_eq c _).1]; exact hx.2.2.1
  · rw [(I256.to_bytes_eq c _).2, (I256.from_bytes_eq c _).2]; exact hx.2.2.2
  · exact from_to_ne c l h

example : ((List.range 32).map (BitVec.ofNat 8)).length = 32
    ∧ (U256.from_be_bytes dbg ((List.range 32).map (BitVec.ofNat 8))).to_be_bytes dbg = (List.range 32).map (BitVec.ofNat 8)
    ∧ (U256.from_be_bytes dbg ((List.range 32).map (BitVec.ofNat 8))).toNat dbg % 2 ^ 16 = 30 * 256 + 31 := by
  decide +kernel

end Ethnum
