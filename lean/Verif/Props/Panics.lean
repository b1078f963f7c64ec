import Verif.Props.UArith
import Verif.Props.IArith
import Verif.Props.Bits
import Verif.Props.Pow
import Verif.Props.Operators
import Verif.Props.Parse
import Verif.Props.Fmt
import Verif.Props.FloatFrom
import Verif.Props.Serde
import Verif.Props.SerdeBytes
import Verif.Props.SerdeCompressed
import Verif.Props.SerdePermissive

/-
C49 when the library panics: for each function that can, the exact condition; for the others, that it returns.
A function not mentioned here cannot panic by its type in the model (it returns a plain value).
-/

namespace Ethnum

/-- `r` returns a value: no panic, no undefined behaviour, no endless loop. -/
def Returns {α : Type} (r : Res α) : Prop := ∃ v, r = .ok v

/-- `r` panics if `p` holds and returns a value otherwise. -/
def PanicsIff {α : Type} (r : Res α) (p : Prop) : Prop := (p → Panics r) ∧ (¬ p → Returns r)

theorem Returns.of {α : Type} {r : Res α} {v : α} (h : r = .ok v) : Returns r := ⟨v, h⟩

theorem PanicsIff.ite {α : Type} {r : Res α} {p : Prop} [Decidable p] {k : Panic} {v : α}
    (h : r = if p then .error (.panic k) else .ok v) : PanicsIff r p := by
  rw [h]
  exact ⟨fun hp => ⟨k, if_pos hp⟩, fun hp => ⟨v, if_neg hp⟩⟩

theorem PanicsIff.eq {α : Type} {r r' : Res α} {p : Prop} (h : r = r') (h' : PanicsIff r' p) : PanicsIff r p := h ▸ h'

/-- `Panics` and `Returns` exclude each other, so the condition is exact. -/
theorem PanicsIff.iff {α : Type} {r : Res α} {p : Prop} (h : PanicsIff r p) : Panics r ↔ p := by
  constructor
  · rintro ⟨k, hk⟩
    by_contra hp
    obtain ⟨v, hv⟩ := h.2 hp
    rw [hk] at hv
    cases hv
  · exact h.1

/-! ### Never -/

/-- C49: the checked, wrapping, overflowing and saturating operations other than division, the bit counts and
`abs_diff` of `U256` return for every input, in every build. -/
theorem C49_u256_never (c : Cfg) (a b : U256) (n : U32) :
    Returns (a.wrapping_mul c b) ∧ Returns (a.overflowing_mul c b) ∧ Returns (a.checked_mul c b)
    ∧ Returns (a.saturating_mul c b)
    ∧ Returns (a.wrapping_pow c n) ∧ Returns (a.overflowing_pow c n) ∧ Returns (a.checked_pow c n)
    ∧ Returns (a.saturating_pow c n)
    ∧ Returns (a.wrapping_shl c n) ∧ Returns (a.overflowing_shl c n) ∧ Returns (a.checked_shl c n)
    ∧ Returns (a.wrapping_shr c n) ∧ Returns (a.overflowing_shr c n) ∧ Returns (a.checked_shr c n)
    ∧ Returns (a.checked_div c b) ∧ Returns (a.checked_div_euclid c b) ∧ Returns (a.checked_rem c b)
    ∧ Returns (a.checked_rem_euclid c b) ∧ Returns (a.checked_div_rem c b) ∧ Returns (a.checked_div_rem_euclid c b)
    ∧ Returns (a.leading_zeros c) ∧ Returns (a.trailing_zeros c) ∧ Returns (a.leading_ones c)
    ∧ Returns (a.trailing_ones c) ∧ Returns (a.count_ones c) ∧ Returns (a.count_zeros c)
    ∧ Returns (a.is_power_of_two c) ∧ Returns (a.checked_next_power_of_two c) ∧ Returns (a.abs_diff c b) := by
  obtain ⟨m1, m2, m3, m4⟩ := C03_mul c a b
  obtain ⟨p1, p2, p3, p4, _⟩ := C16_pow c a n
  obtain ⟨l1, l2, l3⟩ := C10_shl c a n
  obtain ⟨r1, r2, r3⟩ := C10_shr c a n
  obtain ⟨⟨_, z1, _⟩, ⟨_, z2, _⟩, ⟨_, z3, _⟩, ⟨_, z4, _⟩⟩ := C14_u256_runs c a
  obtain ⟨n1, n2, _⟩ := C14_count c a I256.ZERO
  obtain ⟨_, q1, _⟩ := C18_is_power_of_two c a
  have hdiv : Returns (a.checked_div c b) ∧ Returns (a.checked_div_euclid c b) ∧ Returns (a.checked_rem c b)
      ∧ Returns (a.checked_rem_euclid c b) ∧ Returns (a.checked_div_rem c b)
      ∧ Returns (a.checked_div_rem_euclid c b) := by
    by_cases hb : b.toNat c = 0
    · obtain ⟨h1, h2, h3, h4, h5, h6, _⟩ := C04_zero c a b hb
      exact ⟨⟨_, h1⟩, ⟨_, h2⟩, ⟨_, h3⟩, ⟨_, h4⟩, ⟨_, h5⟩, ⟨_, h6⟩⟩
    · obtain ⟨_, _, _, _, _, h1, h2, _⟩ := C04_div c a b hb
      obtain ⟨_, _, _, _, h3, h4, _⟩ := C04_rem c a b hb
      obtain ⟨_, _, h5, h6, _⟩ := C04_div_rem c a b hb
      exact ⟨⟨_, h1⟩, ⟨_, h2⟩, ⟨_, h3⟩, ⟨_, h4⟩, ⟨_, h5⟩, ⟨_, h6⟩⟩
  obtain ⟨d1, d2, d3, d4, d5, d6⟩ := hdiv
  refine ⟨⟨_, m1⟩, ⟨_, m2⟩, ⟨_, m3⟩, ⟨_, m4⟩, ⟨_, p1⟩, ⟨_, p2⟩, ⟨_, p3⟩, ⟨_, p4⟩, ⟨_, l1⟩, ⟨_, l2⟩, ⟨_, l3⟩,
    ⟨_, r1⟩, ⟨_, r2⟩, ⟨_, r3⟩, d1, d2, d3, d4, d5, d6, ⟨_, z1⟩, ⟨_, z2⟩, ⟨_, z3⟩, ⟨_, z4⟩, ⟨_, n1⟩, ⟨_, n2⟩,
    ⟨_, q1⟩, ?_, ?_⟩
  · rcases Nat.lt_or_ge (2 ^ 255) (a.toNat c) with h | h
    · exact ⟨_, ((C18_next_power_of_two c a).2 h).1⟩
    · obtain ⟨_, _, h1, _⟩ := (C18_next_power_of_two c a).1 h
      exact ⟨_, h1⟩
  · exact ⟨_, C19_u256_abs_diff c a b⟩

example : (U256.MAX).checked_mul dbg U256.MAX = .ok none ∧ (U256.MAX).checked_div_rem rel U256.ZERO = .ok none := by
  decide +kernel

/-- C49: likewise for `I256`. -/
theorem C49_i256_never (c : Cfg) (a b : I256) (n : U32) :
    Returns (a.wrapping_mul c b) ∧ Returns (a.overflowing_mul c b) ∧ Returns (a.checked_mul c b)
    ∧ Returns (a.saturating_mul c b)
    ∧ Returns (a.wrapping_pow c n) ∧ Returns (a.overflowing_pow c n) ∧ Returns (a.checked_pow c n)
    ∧ Returns (a.saturating_pow c n)
    ∧ Returns (a.wrapping_shl c n) ∧ Returns (a.overflowing_shl c n) ∧ Returns (a.checked_shl c n)
    ∧ Returns (a.wrapping_shr c n) ∧ Returns (a.overflowing_shr c n) ∧ Returns (a.checked_shr c n)
    ∧ Returns (a.checked_div c b) ∧ Returns (a.checked_div_euclid c b) ∧ Returns (a.checked_rem c b)
    ∧ Returns (a.checked_rem_euclid c b) ∧ Returns (a.checked_div_rem c b)
    ∧ Returns (a.overflowing_neg c) ∧ Returns (a.checked_neg c) ∧ Returns (a.checked_abs c)
    ∧ Returns (a.leading_zeros c) ∧ Returns (a.trailing_zeros c) ∧ Returns (a.leading_ones c)
    ∧ Returns (a.trailing_ones c) ∧ Returns (a.count_ones c) ∧ Returns (a.count_zeros c) := by
  obtain ⟨m1, m2, m3, m4⟩ := C07_mul c a b
  obtain ⟨p1, p2, p3, p4, _⟩ := C17_pow c a n
  obtain ⟨l1, l2, l3⟩ := C11_shl c a n
  obtain ⟨r1, r2, r3⟩ := C11_shr c a n
  obtain ⟨⟨_, z1, _⟩, ⟨_, z2, _⟩, ⟨_, z3, _⟩, ⟨_, z4, _⟩⟩ := C14_i256_runs c a
  obtain ⟨_, _, n1, n2, _⟩ := C14_count c U256.ZERO a
  obtain ⟨_, g1, g2, _⟩ := C06_neg c a
  obtain ⟨_, _, g3, _⟩ := C06_abs c a
  have hdiv : Returns (a.checked_div c b) ∧ Returns (a.checked_div_euclid c b) ∧ Returns (a.checked_rem c b)
      ∧ Returns (a.checked_rem_euclid c b) ∧ Returns (a.checked_div_rem c b) := by
    by_cases hb : b.toInt c = 0
    · obtain ⟨h1, h2, h3, _⟩ := C08_zero c a b hb
      obtain ⟨h4, h5, _⟩ := C09_zero c a b hb
      exact ⟨⟨_, h1⟩, ⟨_, h4⟩, ⟨_, h2⟩, ⟨_, h5⟩, ⟨_, h3⟩⟩
    · by_cases hm : a.toInt c = -2 ^ 255 ∧ b.toInt c = -1
      · have ea : a = I256.MIN c := I256.toInt_inj c (by rw [hm.1, I256.toInt_MIN])
        have eb : b = I256.MINUS_ONE c := I256.toInt_inj c (by rw [hm.2, I256.toInt_MINUS_ONE])
        subst ea eb
        obtain ⟨h1, h2, h3, _⟩ := C08_min_by_minus_one c
        obtain ⟨h4, h5, _⟩ := C09_min_by_minus_one c
        exact ⟨⟨_, h1⟩, ⟨_, h4⟩, ⟨_, h2⟩, ⟨_, h5⟩, ⟨_, h3⟩⟩
      · obtain ⟨_, _, h1, h2, _, _, _, _, _, _, h3, _⟩ := C08_div_rem c a b hb hm
        obtain ⟨_, _, h4, h5, _⟩ := C09_div_euclid_rem_euclid c a b hb hm
        exact ⟨⟨_, h1⟩, ⟨_, h4⟩, ⟨_, h2⟩, ⟨_, h5⟩, ⟨_, h3⟩⟩
  obtain ⟨d1, d2, d3, d4, d5⟩ := hdiv
  exact ⟨⟨_, m1⟩, ⟨_, m2⟩, ⟨_, m3⟩, ⟨_, m4⟩, ⟨_, p1⟩, ⟨_, p2⟩, ⟨_, p3⟩, ⟨_, p4⟩, ⟨_, l1⟩, ⟨_, l2⟩, ⟨_, l3⟩,
    ⟨_, r1⟩, ⟨_, r2⟩, ⟨_, r3⟩, d1, d2, d3, d4, d5, ⟨_, g1⟩, ⟨_, g2⟩, ⟨_, g3⟩, ⟨_, z1⟩, ⟨_, z2⟩, ⟨_, z3⟩, ⟨_, z4⟩,
    ⟨_, n1⟩, ⟨_, n2⟩⟩

example : (I256.MIN dbg).checked_abs dbg = .ok none
    ∧ (I256.MIN dbg).checked_div_euclid dbg (I256.MINUS_ONE dbg) = .ok none := by decide +kernel

/-- C49: formatting returns for every value and every formatter. -/
theorem C49_format_never (c : Cfg) (x : U256) (s : I256) (r : Radix) (f : Formatter) :
    Returns (x.display c f) ∧ Returns (x.debug c f) ∧ Returns (x.fmtRadix c r f)
    ∧ Returns (s.display c f) ∧ Returns (s.debug c f) ∧ Returns (s.fmtRadix c r f) := by
  obtain ⟨h1, h2⟩ := C32_display c x s f
  obtain ⟨h3, h4⟩ := C33_debug c x s f
  refine ⟨⟨_, h1⟩, ?_, ⟨_, C33_u256_radix c r x f⟩, ⟨_, h2⟩, ?_, ⟨_, C33_i256_radix c r s f⟩⟩
  · rw [h3, C33_u256_radix, C33_u256_radix, h1]
    split <;> [exact ⟨_, rfl⟩; (split <;> exact ⟨_, rfl⟩)]
  · rw [h4, C33_i256_radix, C33_i256_radix, h2]
    split <;> [exact ⟨_, rfl⟩; (split <;> exact ⟨_, rfl⟩)]

example : (I256.MIN dbg).fmtRadix dbg .lowerHex ⟨0, some 3, '*', none⟩ = .ok ('8' :: List.replicate 63 '0') := by
  decide +kernel

/-- C49: conversion from floats returns for every float, NaN and infinities included. -/
theorem C49_float_never (c : Cfg) (t : FloatTy) (v : t.Val) :
    Returns (U256.of_float c t v) ∧ Returns (I256.of_float c t v) := C36_total c t v

example : U256.of_float dbg .f64 (FloatTy.f64.make true FloatTy.f64.infBits) = .ok U256.ZERO := by decide +kernel

/-- C49: serialization returns for every value, deserialization for every input (possibly an error value). -/
theorem C49_serde_never (c : Cfg) (k : Serde.Chunking) (o : Serde.Order) (x : U256) (s : I256) (i : Serde.Input) :
    Returns (x.serialize c k) ∧ Returns (x.serialize_decimal c k) ∧ Returns (x.serialize_bytes c o)
    ∧ Returns (x.serialize_compressed c o)
    ∧ Returns (s.serialize c k) ∧ Returns (s.serialize_decimal c k) ∧ Returns (s.serialize_bytes c o)
    ∧ Returns (s.serialize_compressed c o)
    ∧ Returns (U256.deserialize c i) ∧ Returns (U256.deserialize_decimal c i) ∧ Returns (U256.deserialize_prefixed c i)
    ∧ Returns (U256.deserialize_permissive c i) ∧ Returns (U256.deserialize_bytes c o i)
    ∧ Returns (U256.deserialize_compressed c o i)
    ∧ Returns (I256.deserialize c i) ∧ Returns (I256.deserialize_decimal c i) ∧ Returns (I256.deserialize_prefixed c i)
    ∧ Returns (I256.deserialize_permissive c i) ∧ Returns (I256.deserialize_bytes c o i)
    ∧ Returns (I256.deserialize_compressed c o i) := by
  obtain ⟨s1, s2, s3, s4⟩ := C37_serialize c k x s
  obtain ⟨b1, b2⟩ := C39_serialize c o x s
  obtain ⟨_, c1, _⟩ := C40_u256_serialize c o x
  obtain ⟨_, c2, _⟩ := C40_i256_serialize c o s
  obtain ⟨a1, a2, a3, a4, a5, a6⟩ := C37_accepts c
  obtain ⟨_, _, d1, d2⟩ := C39_accepts c o i
  exact ⟨⟨_, s1⟩, ⟨_, s3⟩, ⟨_, b1⟩, ⟨_, c1⟩, ⟨_, s2⟩, ⟨_, s4⟩, ⟨_, b2⟩, ⟨_, c2⟩,
    a1.2.2.2.1 i, a3.2.2.2.1 i, a5.2.2.2.1 i, (C38_total c i).2.1, d1, (C40_u256_accepts c o i).2,
    a2.2.2.2.1 i, a4.2.2.2.1 i, a6.2.2.2.1 i, (C38_total c i).1, d2, (C40_i256_delivery c o i).2⟩

example : U256.deserialize_bytes dbg .le (.seq none [some 1, none]) = .ok (.error .input)
    ∧ I256.deserialize_permissive rel (.f64 FloatTy.f64.inf) = .ok (.error .floatRange) := by decide +kernel

/-! ### Parsing -/

/-- C49: parsing returns (possibly an error value) for every string, except that `from_str_radix` panics for a radix
outside 2..=36. -/
theorem C49_parse (c : Cfg) (s : List U8) (r : U32) :
    PanicsIff (U256.from_str_radix c s r) (¬ (2 ≤ r.toNat ∧ r.toNat ≤ 36))
    ∧ PanicsIff (I256.from_str_radix c s r) (¬ (2 ≤ r.toNat ∧ r.toNat ≤ 36))
    ∧ Returns (U256.from_str c s) ∧ Returns (I256.from_str c s)
    ∧ Returns (U256.from_str_hex c s) ∧ Returns (I256.from_str_hex c s)
    ∧ Returns (U256.from_str_prefixed c s) ∧ Returns (I256.from_str_prefixed c s) := by
  refine ⟨⟨fun h => ⟨_, C28_bad_radix c s r h⟩, fun h => (C28_from_str_radix c s r (not_not.1 h)).1⟩,
    ⟨fun h => ⟨_, C29_bad_radix c s r h⟩, fun h => (C29_from_str_radix c s r (not_not.1 h)).1⟩,
    ?_, ?_, (C30_from_str_hex c s).1, (C30_from_str_hex c s).2.1, (C30_u256_from_str_prefixed c s).1,
    (C30_i256_from_str_prefixed c s).1⟩
  · rw [C28_from_str]; exact (C28_from_str_radix c s 10 (by decide)).1
  · rw [C29_from_str]; exact (C29_from_str_radix c s 10 (by decide)).1

example : ¬ (2 ≤ (37 : U32).toNat ∧ (37 : U32).toNat ≤ 36) ∧ (2 ≤ (36 : U32).toNat ∧ (36 : U32).toNat ≤ 36)
    ∧ U256.from_str_radix dbg (str "1") 37 = .error (.panic .explicit)
    ∧ I256.from_str_radix rel (str "1") 1 = .error (.panic .explicit) := by decide +kernel

/-! ### Division -/

/-- C49: the division methods and operators of `U256` panic exactly for a zero divisor. -/
theorem C49_u256_division (c : Cfg) (a b : U256) :
    PanicsIff (a.div c b) (b.toNat c = 0) ∧ PanicsIff (a.rem c b) (b.toNat c = 0)
    ∧ PanicsIff (a.div_assign c b) (b.toNat c = 0) ∧ PanicsIff (a.rem_assign c b) (b.toNat c = 0)
    ∧ PanicsIff (a.div_euclid c b) (b.toNat c = 0) ∧ PanicsIff (a.rem_euclid c b) (b.toNat c = 0)
    ∧ PanicsIff (a.wrapping_div c b) (b.toNat c = 0) ∧ PanicsIff (a.wrapping_rem c b) (b.toNat c = 0)
    ∧ PanicsIff (a.wrapping_div_euclid c b) (b.toNat c = 0) ∧ PanicsIff (a.wrapping_rem_euclid c b) (b.toNat c = 0)
    ∧ PanicsIff (a.overflowing_div c b) (b.toNat c = 0) ∧ PanicsIff (a.overflowing_rem c b) (b.toNat c = 0)
    ∧ PanicsIff (a.overflowing_div_euclid c b) (b.toNat c = 0)
    ∧ PanicsIff (a.overflowing_rem_euclid c b) (b.toNat c = 0)
    ∧ PanicsIff (a.saturating_div c b) (b.toNat c = 0)
    ∧ PanicsIff (a.div_rem c b) (b.toNat c = 0) ∧ PanicsIff (a.div_rem_euclid c b) (b.toNat c = 0)
    ∧ PanicsIff (a.wrapping_div_rem c b) (b.toNat c = 0) ∧ PanicsIff (a.wrapping_div_rem_euclid c b) (b.toNat c = 0)
    ∧ PanicsIff (a.overflowing_div_rem c b) (b.toNat c = 0)
    ∧ PanicsIff (a.overflowing_div_rem_euclid c b) (b.toNat c = 0)
    ∧ PanicsIff (a.saturating_div_rem c b) (b.toNat c = 0)
    ∧ PanicsIff (a.saturating_div_rem_euclid c b) (b.toNat c = 0) := by
  have hasg : PanicsIff (a.div_assign c b) (b.toNat c = 0) ∧ PanicsIff (a.rem_assign c b) (b.toNat c = 0) := by
    refine ⟨.ite (U256.div_assign_eq c a b), ?_⟩
    rw [U256.rem_assign_eq]
    refine ⟨fun h => ?_, fun h => ⟨_, if_neg h⟩⟩
    rw [if_pos h]
    split
    · exact ⟨_, rfl⟩
    · exact ⟨_, rfl⟩
  by_cases hb : b.toNat c = 0
  · obtain ⟨_, _, _, _, _, _, p1, p2, p3, p4, p5, p6, p7, p8, p9, p10, p11, p12, p13, p14, p15, p16, p17, p18, p19,
      p20, p21⟩ := C04_zero c a b hb
    have use : ∀ {α : Type} {r : Res α}, Panics r → PanicsIff r (b.toNat c = 0) := fun h =>
      ⟨fun _ => h, fun h' => absurd hb h'⟩
    exact ⟨use p1, use p2, hasg.1, hasg.2, use p3, use p4, use p5, use p7, use p6, use p8, use p10, use p12, use p11,
      use p13, use p9, use p14, use p15, use p18, use p19, use p20, use p21, use p16, use p17⟩
  · obtain ⟨d1, d2, d3, d4, d5, _, _, d8, d9⟩ := C04_div c a b hb
    obtain ⟨r1, r2, r3, r4, _, _, r7, r8⟩ := C04_rem c a b hb
    obtain ⟨e1, e2, _, _, e5, e6, e7, e8, e9, e10⟩ := C04_div_rem c a b hb
    have use : ∀ {α : Type} {r : Res α} {v : α}, r = .ok v → PanicsIff r (b.toNat c = 0) := fun h =>
      ⟨fun h' => absurd h' hb, fun _ => ⟨_, h⟩⟩
    exact ⟨use d1, use r1, hasg.1, hasg.2, use d2, use r2, use d3, use r3, use d4, use r4, use d8, use r7, use d9,
      use r8, use d5, use e1, use e2, use e7, use e8, use e9, use e10, use e5, use e6⟩

example : (U256.ZERO).toNat dbg = 0 ∧ (U256.ofNat rel 3).toNat rel ≠ 0 := by decide

/-- `MIN` divided by `-1`: the only quotient out of range. -/
def QuotientOverflows (c : Cfg) (a b : I256) : Prop := a.toInt c = -2 ^ 255 ∧ b.toInt c = -1

/-- C49: the division methods and operators of `I256` panic exactly for a zero divisor; `div_rem` also for
`MIN / -1` (unlike `/`, `%` and the methods of the standard library's integers, see C08). -/
theorem C49_i256_division (c : Cfg) (a b : I256) :
    PanicsIff (a.div c b) (b.toInt c = 0) ∧ PanicsIff (a.rem c b) (b.toInt c = 0)
    ∧ PanicsIff (a.div_assign c b) (b.toInt c = 0) ∧ PanicsIff (a.rem_assign c b) (b.toInt c = 0)
    ∧ PanicsIff (a.wrapping_div c b) (b.toInt c = 0) ∧ PanicsIff (a.wrapping_rem c b) (b.toInt c = 0)
    ∧ PanicsIff (a.overflowing_div c b) (b.toInt c = 0) ∧ PanicsIff (a.overflowing_rem c b) (b.toInt c = 0)
    ∧ PanicsIff (a.saturating_div c b) (b.toInt c = 0)
    ∧ PanicsIff (a.wrapping_div_rem c b) (b.toInt c = 0) ∧ PanicsIff (a.overflowing_div_rem c b) (b.toInt c = 0)
    ∧ PanicsIff (a.saturating_div_rem c b) (b.toInt c = 0)
    ∧ PanicsIff (a.div_rem c b) (b.toInt c = 0 ∨ QuotientOverflows c a b) := by
  have hasg : PanicsIff (a.div_assign c b) (b.toInt c = 0) ∧ PanicsIff (a.rem_assign c b) (b.toInt c = 0) := by
    refine ⟨.ite (I256.div_assign_eq c a b), ?_⟩
    rw [I256.rem_assign_eq]
    refine ⟨fun h => ?_, fun h => ⟨_, if_neg h⟩⟩
    rw [if_pos h]
    split
    · exact ⟨_, rfl⟩
    · exact ⟨_, rfl⟩
  by_cases hb : b.toInt c = 0
  · obtain ⟨_, _, _, p1, p2, p3, p4, p5, p6, p7, p8, p9, p10, p11⟩ := C08_zero c a b hb
    have use : ∀ {α : Type} {r : Res α}, Panics r → PanicsIff r (b.toInt c = 0) := fun h =>
      ⟨fun _ => h, fun h' => absurd hb h'⟩
    exact ⟨use p1, use p2, hasg.1, hasg.2, use p3, use p4, use p5, use p6, use p7, use p9, use p10, use p11,
      ⟨fun _ => p8, fun h => absurd (.inl hb) h⟩⟩
  · have use : ∀ {α : Type} {r : Res α} {v : α}, r = .ok v → PanicsIff r (b.toInt c = 0) := fun h =>
      ⟨fun h' => absurd h' hb, fun _ => ⟨_, h⟩⟩
    by_cases hm : a.toInt c = -2 ^ 255 ∧ b.toInt c = -1
    · have ea : a = I256.MIN c := I256.toInt_inj c (by rw [hm.1, I256.toInt_MIN])
      have eb : b = I256.MINUS_ONE c := I256.toInt_inj c (by rw [hm.2, I256.toInt_MINUS_ONE])
      subst ea eb
      obtain ⟨_, _, _, h1, h2, h3, h4, h5, h6, h7, h8, h9, h10, h11⟩ := C08_min_by_minus_one c
      exact ⟨use h10, use h11, hasg.1, hasg.2, use h1, use h2, use h4, use h5, use h7, use h3, use h6, use h8,
        ⟨fun _ => h9, fun h => absurd (.inr hm) h⟩⟩
    · obtain ⟨h1, h2, _, _, h3, h4, h5, h6, h7, h8, _, h9, h10, h11⟩ := C08_div_rem c a b hb hm
      exact ⟨use h1, use h2, hasg.1, hasg.2, use h3, use h4, use h5, use h6, use h7, use h9, use h10, use h11,
        ⟨fun h => absurd h (by rintro (h | h); exacts [hb h, hm h]), fun _ => ⟨_, h8⟩⟩⟩

example : QuotientOverflows dbg (I256.MIN dbg) (I256.MINUS_ONE dbg) ∧ (I256.MINUS_ONE dbg).toInt dbg ≠ 0
    ∧ ¬ QuotientOverflows dbg (I256.MIN dbg) (I256.ofInt dbg 2) := by
  unfold QuotientOverflows; decide

/-- The condition of the defect of C09: with debug assertions, a negative dividend other than `MIN`, divisor `MIN`. -/
def EuclidDefect (c : Cfg) (a b : I256) : Prop :=
  c.debugAssertions = true ∧ b.toInt c = -2 ^ 255 ∧ a.toInt c < 0 ∧ a.toInt c ≠ -2 ^ 255

/-- C49: Euclidean division of `I256`. The separate quotient and remainder panic exactly for a zero divisor; the
combined forms also panic, in debug builds, on the defect of C09 — even `checked_div_rem_euclid`, the wrapping and
the saturating one; `div_rem_euclid` panics for `MIN / -1` too. -/
theorem C49_i256_euclid (c : Cfg) (a b : I256) :
    PanicsIff (a.div_euclid c b) (b.toInt c = 0) ∧ PanicsIff (a.rem_euclid c b) (b.toInt c = 0)
    ∧ PanicsIff (a.wrapping_div_euclid c b) (b.toInt c = 0) ∧ PanicsIff (a.wrapping_rem_euclid c b) (b.toInt c = 0)
    ∧ PanicsIff (a.overflowing_div_euclid c b) (b.toInt c = 0)
    ∧ PanicsIff (a.overflowing_rem_euclid c b) (b.toInt c = 0)
    ∧ PanicsIff (a.checked_div_rem_euclid c b) (EuclidDefect c a b)
    ∧ PanicsIff (a.wrapping_div_rem_euclid c b) (b.toInt c = 0 ∨ EuclidDefect c a b)
    ∧ PanicsIff (a.overflowing_div_rem_euclid c b) (b.toInt c = 0 ∨ EuclidDefect c a b)
    ∧ PanicsIff (a.saturating_div_rem_euclid c b) (b.toInt c = 0 ∨ EuclidDefect c a b)
    ∧ PanicsIff (a.div_rem_euclid c b) (b.toInt c = 0 ∨ QuotientOverflows c a b ∨ EuclidDefect c a b) := by
  by_cases hb : b.toInt c = 0
  · obtain ⟨_, _, q1, p1, p2, p3, p4, p5, p6, p7, p8, p9, p10⟩ := C09_zero c a b hb
    have use : ∀ {α : Type} {r : Res α} {p : Prop}, Panics r → (b.toInt c = 0 → p) → PanicsIff r p := fun h hp =>
      ⟨fun _ => h, fun h' => absurd (hp hb) h'⟩
    have hd : ¬ EuclidDefect c a b := fun h => by have := h.2.1; omega
    exact ⟨use p1 id, use p2 id, use p3 id, use p4 id, use p5 id, use p6 id,
      ⟨fun h => absurd h hd, fun _ => ⟨_, q1⟩⟩, use p8 .inl, use p9 .inl, use p10 .inl, use p7 .inl⟩
  · have use : ∀ {α : Type} {r : Res α} {v : α} {p : Prop}, r = .ok v → ¬ p → PanicsIff r p := fun h hp =>
      ⟨fun h' => absurd h' hp, fun _ => ⟨_, h⟩⟩
    by_cases hm : a.toInt c = -2 ^ 255 ∧ b.toInt c = -1
    · have ea : a = I256.MIN c := I256.toInt_inj c (by rw [hm.1, I256.toInt_MIN])
      have eb : b = I256.MINUS_ONE c := I256.toInt_inj c (by rw [hm.2, I256.toInt_MINUS_ONE])
      subst ea eb
      obtain ⟨_, _, h0, h1, h2, h3, h4, h5, h6, h7, h8, h9, h10⟩ := C09_min_by_minus_one c
      have hd : ¬ EuclidDefect c (I256.MIN c) (I256.MINUS_ONE c) := fun h => h.2.2.2 hm.1
      have hd' : ¬ ((I256.MINUS_ONE c).toInt c = 0 ∨ EuclidDefect c (I256.MIN c) (I256.MINUS_ONE c)) := by
        rintro (h | h); exacts [hb h, hd h]
      exact ⟨use h9 hb, use h10 hb, use h1 hb, use h2 hb, use h4 hb, use h5 hb, use h0 hd, use h3 hd', use h6 hd',
        use h7 hd', ⟨fun _ => h8, fun h => absurd (.inr (.inl hm)) h⟩⟩
    · obtain ⟨h1, h2, _, _, h3, h4, h5, h6⟩ := C09_div_euclid_rem_euclid c a b hb hm
      refine ⟨use h1 hb, use h2 hb, use h3 hb, use h4 hb, use h5 hb, use h6 hb, ?_⟩
      by_cases hd : EuclidDefect c a b
      · obtain ⟨d1, d2, d3, d4⟩ := hd
        have eb : b = I256.MIN c := I256.toInt_inj c (by rw [d2, I256.toInt_MIN])
        subst eb
        obtain ⟨p1, p2, p3, p4, p5⟩ := C09_div_rem_euclid_panics c d1 a d3 d4
        have hd : EuclidDefect c a (I256.MIN c) := ⟨d1, d2, d3, d4⟩
        exact ⟨⟨fun _ => p2, fun h => absurd hd h⟩, ⟨fun _ => p3, fun h => absurd (.inr hd) h⟩,
          ⟨fun _ => p4, fun h => absurd (.inr hd) h⟩, ⟨fun _ => p5, fun h => absurd (.inr hd) h⟩,
          ⟨fun _ => p1, fun h => absurd (.inr (.inr hd)) h⟩⟩
      · have hx : c.debugAssertions = true → b.toInt c = -2 ^ 255 → a.toInt c < 0 → a.toInt c % b.toInt c = 0 := by
          intro d1 d2 d3
          by_cases d4 : a.toInt c = -2 ^ 255
          · rw [d4, d2]; decide
          · exact absurd ⟨d1, d2, d3, d4⟩ hd
        obtain ⟨h1, h2, h3, h4, h5⟩ := C09_div_rem_euclid_partial c a b hb hm hx
        have hd' : ¬ (b.toInt c = 0 ∨ EuclidDefect c a b) := by rintro (h | h); exacts [hb h, hd h]
        exact ⟨use h2 hd, use h3 hd', use h4 hd', use h5 hd',
          use h1 (by rintro (h | h | h); exacts [hb h, hm h, hd h])⟩

example : EuclidDefect dbg (I256.ofInt dbg (-7)) (I256.MIN dbg) ∧ ¬ EuclidDefect rel (I256.ofInt rel (-7)) (I256.MIN rel) := by
  unfold EuclidDefect; decide

/-! ### Operators -/

/-- C49: the arithmetic operators, their assigning forms, negation, `abs` and `pow` panic exactly when the
mathematical result is out of range and debug assertions are enabled. -/
theorem C49_operators (c : Cfg) (a b : U256) (s t : I256) (e : U32) :
    PanicsIff (a.add c b) (c.debugAssertions = true ∧ 2 ^ 256 ≤ a.toNat c + b.toNat c)
    ∧ PanicsIff (a.sub c b) (c.debugAssertions = true ∧ a.toNat c < b.toNat c)
    ∧ PanicsIff (a.mul c b) (c.debugAssertions = true ∧ 2 ^ 256 ≤ a.toNat c * b.toNat c)
    ∧ PanicsIff (a.add_assign c b) (c.debugAssertions = true ∧ 2 ^ 256 ≤ a.toNat c + b.toNat c)
    ∧ PanicsIff (a.sub_assign c b) (c.debugAssertions = true ∧ a.toNat c < b.toNat c)
    ∧ PanicsIff (a.mul_assign c b) (c.debugAssertions = true ∧ 2 ^ 256 ≤ a.toNat c * b.toNat c)
    ∧ PanicsIff (a.pow c e) (c.debugAssertions = true ∧ 2 ^ 256 ≤ a.toNat c ^ e.toNat)
    ∧ PanicsIff (s.add c t) (c.debugAssertions = true ∧ ¬ InI256 (s.toInt c + t.toInt c))
    ∧ PanicsIff (s.sub c t) (c.debugAssertions = true ∧ ¬ InI256 (s.toInt c - t.toInt c))
    ∧ PanicsIff (s.mul c t) (c.debugAssertions = true ∧ ¬ InI256 (s.toInt c * t.toInt c))
    ∧ PanicsIff (s.add_assign c t) (c.debugAssertions = true ∧ ¬ InI256 (s.toInt c + t.toInt c))
    ∧ PanicsIff (s.sub_assign c t) (c.debugAssertions = true ∧ ¬ InI256 (s.toInt c - t.toInt c))
    ∧ PanicsIff (s.mul_assign c t) (c.debugAssertions = true ∧ ¬ InI256 (s.toInt c * t.toInt c))
    ∧ PanicsIff (s.neg c) (c.debugAssertions = true ∧ ¬ InI256 (-s.toInt c))
    ∧ PanicsIff (s.abs c) (c.debugAssertions = true ∧ ¬ InI256 |s.toInt c|)
    ∧ PanicsIff (s.pow c e) (c.debugAssertions = true ∧ ¬ InI256 (s.toInt c ^ e.toNat)) := by
  obtain ⟨u1, u2, u3⟩ := C25_u256 c a b
  obtain ⟨i1, i2, i3, i4⟩ := C25_i256 c s t
  obtain ⟨v1, v2, v3, _⟩ := C26_u256 c a b (.u256 a)
  obtain ⟨j1, j2, j3, _⟩ := C26_i256 c s t (.u256 a)
  refine ⟨.ite u1, .ite u2, .ite u3, .eq v1 (.ite u1), .eq v2 (.ite u2), .eq v3 (.ite u3),
    .ite (C16_pow c a e).2.2.2.2, .ite i1, .ite i2, .ite i3, .eq j1 (.ite i1), .eq j2 (.ite i2), .eq j3 (.ite i3),
    .ite i4, ?_, .ite (C17_pow c s e).2.2.2.2⟩
  have hs1 := I256.le_toInt c s
  have hs2 := I256.toInt_lt c s
  by_cases h : s = I256.MIN c
  · subst h
    rw [(C44_abs c (I256.MIN c)).2, I256.toInt_MIN]
    have hout : ¬ InI256 |(-2 ^ 255 : ℤ)| := by decide
    constructor
    · rintro ⟨hd, _⟩
      rw [hd]; exact ⟨_, rfl⟩
    · intro hn
      have hd : c.debugAssertions = false := by
        cases hd : c.debugAssertions
        · rfl
        · exact absurd ⟨hd, hout⟩ hn
      rw [hd]; exact ⟨_, rfl⟩
  · obtain ⟨r, h1, _⟩ := (C44_abs c s).1 h
    have hne : s.toInt c ≠ -2 ^ 255 := fun h' => h (I256.toInt_inj c (by rw [h', I256.toInt_MIN]))
    have hin : InI256 |s.toInt c| := by
      unfold InI256
      rcases le_total 0 (s.toInt c) with h' | h'
      · rw [abs_of_nonneg h']; omega
      · rw [abs_of_nonpos h']; omega
    exact ⟨fun h' => absurd hin h'.2, fun _ => ⟨_, h1⟩⟩

example : (2 : ℕ) ^ 256 ≤ (U256.MAX).toNat dbg + (U256.ONE dbg).toNat dbg
    ∧ (U256.MAX).add rel (U256.ONE rel) = .ok U256.ZERO
    ∧ ¬ InI256 |(I256.MIN dbg).toInt dbg| := by decide

/-- C49: the shift operators and their assigning forms, with an amount of any integer type, panic exactly when the
amount is negative or at least 256 and debug assertions are enabled. -/
theorem C49_shift (c : Cfg) (a : U256) (s : I256) (n : ShiftBy c) :
    PanicsIff (a.shlBy c n) (c.debugAssertions = true ∧ ¬ (0 ≤ n.value ∧ n.value < 256))
    ∧ PanicsIff (a.shrBy c n) (c.debugAssertions = true ∧ ¬ (0 ≤ n.value ∧ n.value < 256))
    ∧ PanicsIff (s.shlBy c n) (c.debugAssertions = true ∧ ¬ (0 ≤ n.value ∧ n.value < 256))
    ∧ PanicsIff (s.shrBy c n) (c.debugAssertions = true ∧ ¬ (0 ≤ n.value ∧ n.value < 256))
    ∧ PanicsIff (a.shlAssignBy c n) (c.debugAssertions = true ∧ ¬ (0 ≤ n.value ∧ n.value < 256))
    ∧ PanicsIff (a.shrAssignBy c n) (c.debugAssertions = true ∧ ¬ (0 ≤ n.value ∧ n.value < 256))
    ∧ PanicsIff (s.shlAssignBy c n) (c.debugAssertions = true ∧ ¬ (0 ≤ n.value ∧ n.value < 256))
    ∧ PanicsIff (s.shrAssignBy c n) (c.debugAssertions = true ∧ ¬ (0 ≤ n.value ∧ n.value < 256)) := by
  obtain ⟨_, _, _, _, _, v1, v2, _⟩ := C26_u256 c a a n
  obtain ⟨_, _, _, _, _, j1, j2, _⟩ := C26_i256 c s s n
  rw [v1, v2, j1, j2]
  have key : PanicsIff (a.shlBy c n) (c.debugAssertions = true ∧ ¬ (0 ≤ n.value ∧ n.value < 256))
      ∧ PanicsIff (a.shrBy c n) (c.debugAssertions = true ∧ ¬ (0 ≤ n.value ∧ n.value < 256))
      ∧ PanicsIff (s.shlBy c n) (c.debugAssertions = true ∧ ¬ (0 ≤ n.value ∧ n.value < 256))
      ∧ PanicsIff (s.shrBy c n) (c.debugAssertions = true ∧ ¬ (0 ≤ n.value ∧ n.value < 256)) := by
    by_cases hv : 0 ≤ n.value ∧ n.value < 256
    · obtain ⟨h1, h2, h3, h4⟩ := C12_in_range c a s n hv.1 hv.2
      have use : ∀ {α : Type} {r : Res α} {v : α}, r = .ok v →
          PanicsIff r (c.debugAssertions = true ∧ ¬ (0 ≤ n.value ∧ n.value < 256)) := fun h =>
        ⟨fun h' => absurd hv h'.2, fun _ => ⟨_, h⟩⟩
      exact ⟨use h1, use h2, use h3, use h4⟩
    · cases hd : c.debugAssertions
      · obtain ⟨h1, h2, h3, h4⟩ := C12_release c hd a s n
        have use : ∀ {α : Type} {r : Res α} {v : α}, r = .ok v →
            PanicsIff r (false = true ∧ ¬ (0 ≤ n.value ∧ n.value < 256)) := fun h =>
          ⟨fun h' => absurd h'.1 (by decide), fun _ => ⟨_, h⟩⟩
        exact ⟨use h1, use h2, use h3, use h4⟩
      · obtain ⟨h1, h2, h3, h4⟩ := C12_debug c hd a s n hv
        have use : ∀ {α : Type} {r : Res α}, Panics r →
            PanicsIff r (true = true ∧ ¬ (0 ≤ n.value ∧ n.value < 256)) := fun h =>
          ⟨fun _ => h, fun h' => absurd ⟨rfl, hv⟩ h'⟩
        exact ⟨use h1, use h2, use h3, use h4⟩
  exact ⟨key.1, key.2.1, key.2.2.1, key.2.2.2, key⟩

example : ¬ (0 ≤ (ShiftBy.i256 (I256.MINUS_ONE dbg) : ShiftBy dbg).value
      ∧ (ShiftBy.i256 (I256.MINUS_ONE dbg) : ShiftBy dbg).value < 256)
    ∧ (U256.ONE dbg).shlBy dbg (.i256 (I256.MINUS_ONE dbg)) = .error (.panic .shlOverflow) := by decide

/-- C49: rotations panic exactly when the amount exceeds 256 and overflow checks are enabled (the defect of
C13), in the native back-end only. -/
theorem C49_rotate (c : Cfg) (a : U256) (s : I256) (n : U32) :
    PanicsIff (a.rotate_left c n) (c.llvm = false ∧ c.overflowChecks = true ∧ 256 < n.toNat)
    ∧ PanicsIff (a.rotate_right c n) (c.llvm = false ∧ c.overflowChecks = true ∧ 256 < n.toNat)
    ∧ PanicsIff (s.rotate_left c n) (c.llvm = false ∧ c.overflowChecks = true ∧ 256 < n.toNat)
    ∧ PanicsIff (s.rotate_right c n) (c.llvm = false ∧ c.overflowChecks = true ∧ 256 < n.toNat) := by
  by_cases h : c.llvm = false ∧ c.overflowChecks = true ∧ 256 < n.toNat
  · obtain ⟨h1, h2, h3, h4⟩ := C13_rotate_panics c h.2.1 h.1 a s n h.2.2
    exact ⟨⟨fun _ => h1, fun h' => absurd h h'⟩, ⟨fun _ => h2, fun h' => absurd h h'⟩,
      ⟨fun _ => h3, fun h' => absurd h h'⟩, ⟨fun _ => h4, fun h' => absurd h h'⟩⟩
  · have hx : c.overflowChecks = true → c.llvm = false → n.toNat ≤ 256 := fun hc hl => by
      by_contra hn; exact h ⟨hl, hc, by omega⟩
    obtain ⟨_, _, h1, h2, _⟩ := C13_u256_rotate_partial c a n hx
    obtain ⟨_, _, h3, h4, _⟩ := C13_i256_rotate_partial c s n hx
    exact ⟨⟨fun h' => absurd h' h, fun _ => ⟨_, h1⟩⟩, ⟨fun h' => absurd h' h, fun _ => ⟨_, h2⟩⟩,
      ⟨fun h' => absurd h' h, fun _ => ⟨_, h3⟩⟩, ⟨fun h' => absurd h' h, fun _ => ⟨_, h4⟩⟩⟩

example : dbg.overflowChecks = true ∧ 256 < (257 : U32).toNat ∧ rel.overflowChecks = false
    ∧ Panics ((U256.ONE dbg).rotate_left dbg 257) ∧ (U256.ONE dll).rotate_left dll 257 = .ok (U256.ofNat dll 2) :=
  ⟨by decide, by decide, by decide, ⟨.subOverflow, by decide⟩, by decide +kernel⟩

/-- C49: `next_power_of_two` panics exactly above `2^255` with debug assertions; `sum` and `product` exactly when a
partial result is out of range with debug assertions. -/
theorem C49_rest (c : Cfg) (a : U256) (l : List U256) (m : List I256) :
    PanicsIff (a.next_power_of_two c) (c.debugAssertions = true ∧ 2 ^ 255 < a.toNat c)
    ∧ PanicsIff (U256.sum c l) (c.debugAssertions = true ∧ ∃ k, 2 ^ 256 ≤ ((l.take k).map (U256.toNat c)).sum)
    ∧ PanicsIff (U256.product c l) (c.debugAssertions = true ∧ ∃ k, 2 ^ 256 ≤ ((l.take k).map (U256.toNat c)).prod)
    ∧ PanicsIff (I256.sum c m) (c.debugAssertions = true ∧ ∃ k, ¬ InI256 ((m.take k).map (I256.toInt c)).sum)
    ∧ PanicsIff (I256.product c m) (c.debugAssertions = true ∧ ∃ k, ¬ InI256 ((m.take k).map (I256.toInt c)).prod) := by
  refine ⟨?_, ⟨(C27_u256_sum c l).1, fun h => ⟨_, (C27_u256_sum c l).2 h⟩⟩,
    ⟨(C27_u256_product c l).1, fun h => ⟨_, (C27_u256_product c l).2 h⟩⟩,
    ⟨(C27_i256_sum c m).1, fun h => ⟨_, (C27_i256_sum c m).2 h⟩⟩,
    ⟨(C27_i256_product c m).1, fun h => ⟨_, (C27_i256_product c m).2 h⟩⟩⟩
  rcases Nat.lt_or_ge (2 ^ 255) (a.toNat c) with h | h
  · obtain ⟨_, h1, h2⟩ := (C18_next_power_of_two c a).2 h
    refine ⟨fun h' => h1 h'.1, fun h' => ⟨_, h2 ?_⟩⟩
    cases hd : c.debugAssertions
    · rfl
    · exact absurd ⟨hd, h⟩ h'
  · obtain ⟨_, h1, _⟩ := (C18_next_power_of_two c a).1 h
    exact ⟨fun h' => absurd h'.2 (by omega), fun _ => ⟨_, h1⟩⟩

example : 2 ^ 255 < (U256.ofNat dbg (2 ^ 255 + 1)).toNat dbg
    ∧ ∃ k, 2 ^ 256 ≤ (([U256.MAX, U256.ONE dbg].take k).map (U256.toNat dbg)).sum := ⟨by decide, 2, by decide⟩

end Ethnum
