import Verif.Model.Fmt

/-
Specification: the text a formatted number is made of. From the model this uses only the names of the four radix
formats and the settings of a `Formatter`.
-/

namespace Ethnum

/-- The byte of an ASCII character. -/
def asc (ch : Char) : BitVec 8 := BitVec.ofNat 8 ch.toNat

namespace Radix

/-- The base as a number. -/
def b : Radix → Nat
  | binary => 2 | octal => 8 | lowerHex => 16 | upperHex => 16

/-- The base as an argument of `from_str_radix`. -/
def base : Radix → BitVec 32
  | binary => 2 | octal => 8 | lowerHex => 16 | upperHex => 16

/-- What `#` puts in front of the digits. -/
def pfx : Radix → List Char
  | binary => ['0', 'b'] | octal => ['0', 'o'] | lowerHex => ['0', 'x'] | upperHex => ['0', 'x']

/-- The numeral of `n`: Lean's own `Nat.toDigits`, in upper case for `UpperHex`. -/
def numeral : Radix → Nat → List Char
  | binary, n => Nat.toDigits 2 n
  | octal, n => Nat.toDigits 8 n
  | lowerHex, n => Nat.toDigits 16 n
  | upperHex, n => (Nat.toDigits 16 n).map Char.toUpper

end Radix

/-- The sign in front of a number: `-` if it is negative, `+` if it is not but the `+` flag asks for one. -/
def signText (f : Formatter) (neg : Prop) [Decidable neg] : List Char :=
  if neg then ['-'] else if f.sign_plus = true then ['+'] else []

/-- The text `t` is `head` followed by `digits`, padded to the width of the settings: with `l` fill characters on the
left, `z` zeros before the digits and `r` fill characters on the right. The padding is as long as the width requires and
no longer. With the `0` flag it is all zeros; otherwise it is all fill characters, on the side the alignment says, where
no alignment is the same as right, and centred text has at most one character more on the right. -/
def Layout (f : Formatter) (head digits t : List Char) : Prop :=
  ∃ l z r : Nat,
    t = List.replicate l f.fill ++ head ++ List.replicate z '0' ++ digits ++ List.replicate r f.fill
    ∧ l + z + r = f.width.getD 0 - (head.length + digits.length)
    ∧ (f.sign_aware_zero_pad = true → l = 0 ∧ r = 0)
    ∧ (f.sign_aware_zero_pad = false → z = 0)
    ∧ (f.align = some .left → l = 0)
    ∧ (f.align = some .right ∨ f.align = none → r = 0)
    ∧ (f.align = some .center → l ≤ r ∧ r ≤ l + 1)

/-- What can be written after the colon in a format string, such as `{:+#08x?}`: `+`, `-`, `#`, `0`, the width, the fill
character and the alignment, and `x?` and `X?` for hexadecimal `Debug`. -/
structure FormatSpec where
  plus : Bool
  minus : Bool
  alternate : Bool
  zero : Bool
  hexLower : Bool
  hexUpper : Bool
  width : Option Nat
  fill : Char
  align : Option Align
  deriving DecidableEq, Repr

/-- The settings that the standard library hands to an implementation of a formatting trait: the flags are numbered in
the order `+`, `-`, `#`, `0`, `x?`, `X?`. -/
def FormatSpec.formatter (o : FormatSpec) : Formatter :=
  ⟨BitVec.ofNat 32 (o.plus.toNat + 2 * o.minus.toNat + 4 * o.alternate.toNat + 8 * o.zero.toNat + 16 * o.hexLower.toNat
    + 32 * o.hexUpper.toNat), o.width, o.fill, o.align⟩

end Ethnum
