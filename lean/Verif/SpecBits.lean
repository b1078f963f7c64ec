import Verif.Spec

/-
Specification: the 256-bit pattern of a value. `BitVec 256` is Lean's type of 256-bit vectors; its operations are those
of the theory of bit vectors of SMT-LIB and know nothing of words, byte orders or this crate. The functions below only
say which of the two words holds which half of the vector.
-/

namespace Ethnum

/-- The `U256` with the given bits. -/
def U256.ofBits (c : Cfg) (v : BitVec 256) : U256 :=
  if c.bigEndian then ⟨v.extractLsb' 128 128, v.extractLsb' 0 128⟩ else ⟨v.extractLsb' 0 128, v.extractLsb' 128 128⟩

/-- The bits of a `U256`. -/
def U256.bits (c : Cfg) (x : U256) : BitVec 256 := if c.bigEndian then x.w0 ++ x.w1 else x.w1 ++ x.w0

/-- The `I256` with the given bits. -/
def I256.ofBits (c : Cfg) (v : BitVec 256) : I256 :=
  if c.bigEndian then ⟨v.extractLsb' 128 128, v.extractLsb' 0 128⟩ else ⟨v.extractLsb' 0 128, v.extractLsb' 128 128⟩

/-- The bits of an `I256`. -/
def I256.bits (c : Cfg) (x : I256) : BitVec 256 := if c.bigEndian then x.w0 ++ x.w1 else x.w1 ++ x.w0

end Ethnum
