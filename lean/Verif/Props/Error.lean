import Verif.Model.Error

/-!
# C47: error values

For every layout the compiler may choose. The field of a struct lies within it, so equal sizes, which `transmute`
demands, leave only one place for it.
-/

namespace Ethnum

open Err

/-- C47: if the crate compiles at all, the parse error made for `kind` reports exactly `kind`, reading it is never
undefined behaviour, and its bytes are those of the error the standard library itself makes for `kind`: nothing can
tell them apart. -/
theorem C47_parse_error {Kind : Type} (K : Layout Kind) (W : Wrapper K) (kind : Kind) (e : Mem)
    (h : pie K W kind = some e) :
    W.field e = some kind ∧ W.Holds e kind ∧ ∀ e', W.Holds e' kind → e' = e := by
  unfold pie transmute at h
  split at h
  case isFalse => cases h
  case isTrue hs =>
    injection h with h
    have hf := W.fits
    have h0 : W.offset = 0 := by omega
    have hslot : ∀ b : Mem, b.length = W.size → W.slot b = b := fun b hb => by
      unfold Wrapper.slot
      rw [h0, List.drop_zero, List.take_of_length_le (by omega)]
    subst h
    have hl : (K.enc kind).length = W.size := by rw [K.length_enc, hs]
    refine ⟨?_, ⟨hl, hslot _ hl⟩, fun e' he' => ?_⟩
    · unfold Wrapper.field; rw [hslot _ hl, K.dec_enc]
    · rw [← he'.2, hslot _ he'.1]

/-- C47: hence errors of different kinds differ (the derived `==` of `ParseIntError` compares the kinds). -/
theorem C47_parse_error_eq {Kind : Type} (K : Layout Kind) (W : Wrapper K) (k k' : Kind) (e e' : Mem)
    (h : pie K W k = some e) (h' : pie K W k' = some e') : e = e' ↔ k = k' := by
  constructor
  · rintro rfl
    have h1 := (C47_parse_error K W k e h).1
    rw [(C47_parse_error K W k' e h').1] at h1
    exact ((Option.some.inj h1)).symm
  · rintro rfl; rw [h] at h'; exact Option.some.inj h'

/-- C47: the crate compiles exactly when the struct has the size of its field, whatever the kind. -/
theorem C47_compiles {Kind : Type} (K : Layout Kind) (W : Wrapper K) (kind : Kind) :
    (∃ e, pie K W kind = some e) ↔ W.size = K.size := by
  unfold pie transmute
  constructor
  · rintro ⟨e, h⟩
    split at h
    · rename_i h'; exact h'.symm
    · cases h
  · intro h; rw [if_pos h.symm]; exact ⟨_, rfl⟩

/-- C47: the conversion error is the only value of its type. -/
theorem C47_conversion_error (W : Wrapper unit) (e : Mem) (h : tfie W = some e) :
    W.field e = some () ∧ W.Holds e () ∧ ∀ e', W.Holds e' () → e' = e :=
  C47_parse_error unit W () e h

/-- The layout of the kinds that today's compiler chooses, one tag byte. -/
def tagByte : Layout IntErrorKind where
  size := 1
  enc | .empty => [some 0] | .invalidDigit => [some 1] | .posOverflow => [some 2] | .negOverflow => [some 3]
  dec | [some 0] => some .empty | [some 1] => some .invalidDigit | [some 2] => some .posOverflow
      | [some 3] => some .negOverflow | _ => none
  length_enc k := by cases k <;> rfl
  dec_enc k := by cases k <;> rfl

example : pie tagByte ⟨1, 0, by decide⟩ .posOverflow = some [some 2]
    ∧ (⟨1, 0, by decide⟩ : Wrapper tagByte).Holds [some 2] .posOverflow
    ∧ tfie ⟨0, 0, by decide⟩ = some [] := ⟨rfl, ⟨rfl, rfl⟩, rfl⟩
/-- With padding the crate does not compile, and reading the field of transmuted bytes could fail. -/
example : pie tagByte ⟨2, 1, by decide⟩ .posOverflow = none
    ∧ (⟨2, 1, by decide⟩ : Wrapper tagByte).field [some 2, none] = none := ⟨rfl, rfl⟩

end Ethnum
