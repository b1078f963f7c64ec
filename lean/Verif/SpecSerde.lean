import Verif.Model.Serde
import Verif.SpecFloat

/-
Specification of the serialization formats, in terms of the calls exchanged with serde.
-/

namespace Ethnum.Serde

/-- The deserializer `de` takes text and nothing else, and means by it what `parse` does: it accepts the strings
`parse` accepts with the same result, however they are delivered, reports the parser's error otherwise, and never
faults. -/
def TextFormat {T : Type} (de : Input → Res (Outcome T)) (parse : List U8 → Res (ParseResult T)) : Prop :=
  (∀ s x, de (.str s) = .ok (.ok x) ↔ parse s = .ok (.ok x))
  ∧ (∀ s x, de (.bytes s) = .ok (.ok x) ↔ parse s = .ok (.ok x))
  ∧ (∀ s k, de (.str s) = .ok (.error (.parse k)) ↔ parse s = .ok (.error k))
  ∧ (∀ i, ∃ r, de i = .ok r)
  ∧ (∀ i x, de i = .ok (.ok x) → ∃ s, i = .str s ∨ i = .bytes s)

/-- The number an input denotes, if it is one: any of the ten integer types, or a finite float. -/
def Input.number : Input → Option ℚ
  | .i8 v => some v.toInt
  | .i16 v => some v.toInt
  | .i32 v => some v.toInt
  | .i64 v => some v.toInt
  | .i128 v => some v.toInt
  | .u8 v => some v.toNat
  | .u16 v => some v.toNat
  | .u32 v => some v.toNat
  | .u64 v => some v.toNat
  | .u128 v => some v.toNat
  | .f32 v => if FloatTy.f32.isFinite v then some (FloatTy.f32.val v) else none
  | .f64 v => if FloatTy.f64.isFinite v then some (FloatTy.f64.val v) else none
  | _ => none

/-- The input is a floating point number outside the integers its type represents without gaps. -/
def Input.beyondExact : Input → Prop
  | .f32 v => ¬ (-2 ^ 24 ≤ FloatTy.f32.val v ∧ FloatTy.f32.val v < 2 ^ 24)
  | .f64 v => ¬ (-2 ^ 53 ≤ FloatTy.f64.val v ∧ FloatTy.f64.val v < 2 ^ 53)
  | _ => False

/-- The input delivers the bytes `b`: as a slice, or as a sequence whose hint, if it gives one, is right. -/
def Input.Delivers (i : Input) (b : List U8) : Prop :=
  i = .bytes b ∨ ∃ hint, i = .seq hint (b.map some) ∧ (hint = none ∨ hint = some b.length)

/-- Bytes given least significant first, written in the order of the format. -/
def Order.arrange : Order → List U8 → List U8
  | .le, l => l
  | .be, l => l.reverse

/-- The number written by the bytes in the order of the format. -/
def Order.value (o : Order) (b : List U8) : Nat := leValue (o.arrange b)

/-- The number written by the bytes in two's complement, of as many bits as there are. -/
def Order.signedValue (o : Order) (b : List U8) : Int :=
  if 256 ^ b.length ≤ 2 * o.value b then (o.value b : Int) - 256 ^ b.length else o.value b

end Ethnum.Serde
