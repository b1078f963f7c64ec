import Verif.Model.Parse

/-
src/error.rs: the errors of the standard library made by `mem::transmute`.

The standard library declares `pub struct ParseIntError { kind: IntErrorKind }` and
`pub struct TryFromIntError(())`, both with the default representation, so the compiler is free to choose their
size, the place of the field and the contents of padding. The model takes all of this as parameters.
-/

namespace Ethnum

namespace Err

/-- The bytes of a value in memory; `none` is an uninitialised byte. -/
abbrev Mem := List (Option U8)

/-- How the compiler lays out a type: its size, the bytes of each value, and how bytes are read back (`none` for bytes
that are not a valid value, reading which is undefined behaviour). -/
structure Layout (T : Type) where
  size : Nat
  enc : T → Mem
  dec : Mem → Option T
  length_enc : ∀ x, (enc x).length = size
  dec_enc : ∀ x, dec (enc x) = some x

/-- How the compiler lays out a struct whose only field has the layout `K`: its size and the offset of the field, which
lies within it. -/
structure Wrapper {T : Type} (K : Layout T) where
  size : Nat
  offset : Nat
  fits : offset + K.size ≤ size

/-- `mem::transmute::<A, B>` for types of `n` and `m` bytes: the same bytes; it does not compile (`none`) unless the sizes
are equal. -/
def transmute (n m : Nat) (bytes : Mem) : Option Mem := if n = m then some bytes else none

/-- The bytes of `kind`, the only field, in the bytes of a struct. -/
def Wrapper.slot {T : Type} {K : Layout T} (W : Wrapper K) (e : Mem) : Mem := (e.drop W.offset).take K.size

/-- Reading the field: `ParseIntError::kind` of the standard library. -/
def Wrapper.field {T : Type} {K : Layout T} (W : Wrapper K) (e : Mem) : Option T := K.dec (W.slot e)

/-- The bytes `e` are those of the struct expression `S { field: x }`, with any padding. -/
def Wrapper.Holds {T : Type} {K : Layout T} (W : Wrapper K) (e : Mem) (x : T) : Prop :=
  e.length = W.size ∧ W.slot e = K.enc x

/-- src/error.rs 10-12: `pie`, for the given layouts of `IntErrorKind` and `ParseIntError`. `none` if it does not
compile. -/
def pie {Kind : Type} (K : Layout Kind) (W : Wrapper K) (kind : Kind) : Option Mem :=
  transmute K.size W.size (K.enc kind)

/-- The layout of `()`, which has no bytes. -/
def unit : Layout Unit where
  size := 0
  enc _ := []
  dec _ := some ()
  length_enc _ := rfl
  dec_enc _ := rfl

/-- src/error.rs 15-17: `tfie`, for the given layout of `TryFromIntError`. -/
def tfie (W : Wrapper unit) : Option Mem := transmute unit.size W.size (unit.enc ())

end Err

end Ethnum
