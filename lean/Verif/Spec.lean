import Verif.Model.Words

/-
Specification: what a `U256` / `I256` value means. The theorems of Verif/Props are stated with
these notions; nothing here uses a function of the model (only the two raw words and the byte order).
-/

namespace Ethnum

/-- The number a `U256` denotes: one raw word is the high half, which one depends on the byte
order of the target. -/
def U256.toNat (c : Cfg) (x : U256) : Nat :=
  if c.bigEndian then x.w0.toNat * 2 ^ 128 + x.w1.toNat else x.w1.toNat * 2 ^ 128 + x.w0.toNat

/-- The `U256` that denotes `n` modulo `2^256`. -/
def U256.ofNat (c : Cfg) (n : Nat) : U256 :=
  if c.bigEndian then ⟨BitVec.ofNat 128 (n / 2 ^ 128), BitVec.ofNat 128 n⟩
  else ⟨BitVec.ofNat 128 n, BitVec.ofNat 128 (n / 2 ^ 128)⟩

/-- The `U256` that denotes `z` modulo `2^256`, for a possibly negative `z`. -/
def U256.ofInt (c : Cfg) (z : Int) : U256 := U256.ofNat c (z % 2 ^ 256).toNat

/-- The number that the 256 bits of an `I256` denote in base two. -/
def I256.toNat (c : Cfg) (x : I256) : Nat :=
  if c.bigEndian then x.w0.toNat * 2 ^ 128 + x.w1.toNat else x.w1.toNat * 2 ^ 128 + x.w0.toNat

/-- The number an `I256` denotes: two's complement of its 256 bits. -/
def I256.toInt (c : Cfg) (x : I256) : Int :=
  if x.toNat c < 2 ^ 255 then x.toNat c else (x.toNat c : Int) - 2 ^ 256

/-- The `I256` that denotes `z` modulo `2^256`. -/
def I256.ofInt (c : Cfg) (z : Int) : I256 :=
  if c.bigEndian then ⟨BitVec.ofInt 128 (z / 2 ^ 128), BitVec.ofInt 128 z⟩
  else ⟨BitVec.ofInt 128 z, BitVec.ofInt 128 (z / 2 ^ 128)⟩

/-- The representable range of `I256`. -/
def InI256 (z : Int) : Prop := -2 ^ 255 ≤ z ∧ z < 2 ^ 255

instance (z : Int) : Decidable (InI256 z) := inferInstanceAs (Decidable (_ ∧ _))

/-- The representable range of `U256`, over the integers. -/
def InU256 (z : Int) : Prop := 0 ≤ z ∧ z < 2 ^ 256

instance (z : Int) : Decidable (InU256 z) := inferInstanceAs (Decidable (_ ∧ _))

end Ethnum
