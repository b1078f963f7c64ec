import Verif.Basic

/-
The two integer types, their words, constants and comparisons.
Models src/uint.rs, src/int.rs (representation part), src/uint/cmp.rs, src/int/cmp.rs,
src/macros/cmp.rs.
-/

namespace Ethnum

/-- `pub struct U256(pub [u128; 2])` (src/uint.rs 16-18): the two array elements. -/
@[ext] structure U256 where
  w0 : U128
  w1 : U128
  deriving DecidableEq, Repr

/-- `pub struct I256(pub [i128; 2])` (src/int.rs 16-18): the two array elements (bits). -/
@[ext] structure I256 where
  w0 : U128
  w1 : U128
  deriving DecidableEq, Repr

namespace U256

/-- src/uint.rs 35-44 -/
def from_words (c : Cfg) (hi lo : U128) : U256 :=
  if c.bigEndian then ⟨hi, lo⟩ else ⟨lo, hi⟩

/-- src/uint.rs 48-59 -/
def into_words (c : Cfg) (x : U256) : U128 × U128 :=
  if c.bigEndian then (x.w0, x.w1) else (x.w1, x.w0)

/-- src/uint.rs 63-72 -/
def low (c : Cfg) (x : U256) : U128 := if c.bigEndian then x.w1 else x.w0

/-- src/uint.rs 90-99 -/
def high (c : Cfg) (x : U256) : U128 := if c.bigEndian then x.w0 else x.w1

/-- `*x.low_mut() = v` (src/uint.rs 77-86) -/
def set_low (c : Cfg) (x : U256) (v : U128) : U256 :=
  if c.bigEndian then { x with w1 := v } else { x with w0 := v }

/-- `*x.high_mut() = v` (src/uint.rs 104-113) -/
def set_high (c : Cfg) (x : U256) (v : U128) : U256 :=
  if c.bigEndian then { x with w0 := v } else { x with w1 := v }

/-- src/uint.rs 29-31 -/
def new (c : Cfg) (value : U128) : U256 := from_words c 0 value

/-- src/uint.rs 22 -/
def ZERO : U256 := ⟨0, 0⟩
/-- src/uint.rs 25 -/
def ONE (c : Cfg) : U256 := new c 1
/-- src/uint/api.rs 22 -/
def MIN : U256 := ⟨0, 0⟩
/-- src/uint/api.rs 37 -/
def MAX : U256 := ⟨~~~0, ~~~0⟩
/-- src/uint/api.rs 47 -/
def BITS : U32 := 256

/-- src/uint/cmp.rs 16-21: `self.into_words().cmp(&other.into_words())`, lexicographic on pairs. -/
def cmp (c : Cfg) (a b : U256) : Ordering :=
  (compare (into_words c a).1.toNat (into_words c b).1.toNat).then
    (compare (into_words c a).2.toNat (into_words c b).2.toNat)

/-- src/macros/cmp.rs 17-26 -/
def eq (c : Cfg) (a b : U256) : Bool :=
  decide ((into_words c a).1 = (into_words c b).1) && decide ((into_words c a).2 = (into_words c b).2)

/-- `a != b`: the default `PartialEq::ne`, over src/macros/cmp.rs 17-26 -/
def ne (c : Cfg) (a b : U256) : Bool := !eq c a b
/-- src/macros/cmp.rs 42-47 -/
def partial_cmp (c : Cfg) (a b : U256) : Option Ordering := some (cmp c a b)
/-- `a < b`: the default `PartialOrd::lt`, over src/macros/cmp.rs 42-47 -/
def lt (c : Cfg) (a b : U256) : Bool := partial_cmp c a b == some .lt
/-- `a <= b`: the default `PartialOrd::le`, over src/macros/cmp.rs 42-47 -/
def le (c : Cfg) (a b : U256) : Bool := partial_cmp c a b == some .lt || partial_cmp c a b == some .eq
/-- `a > b`: the default `PartialOrd::gt`, over src/macros/cmp.rs 42-47 -/
def gt (c : Cfg) (a b : U256) : Bool := partial_cmp c a b == some .gt
/-- `a >= b`: the default `PartialOrd::ge`, over src/macros/cmp.rs 42-47 -/
def ge (c : Cfg) (a b : U256) : Bool := partial_cmp c a b == some .gt || partial_cmp c a b == some .eq

/-- `a == p` for `p : u128` (src/macros/cmp.rs 28-33) -/
def eq_prim (c : Cfg) (a : U256) (p : U128) : Bool := eq c a (new c p)
/-- `p == a` for `p : u128` (src/macros/cmp.rs 35-40) -/
def prim_eq (c : Cfg) (p : U128) (a : U256) : Bool := eq c (new c p) a
/-- `PartialOrd<u128> for U256` (src/macros/cmp.rs 49-54) -/
def partial_cmp_prim (c : Cfg) (a : U256) (p : U128) : Option Ordering := some (cmp c a (new c p))
/-- `PartialOrd<U256> for u128` (src/macros/cmp.rs 56-61) -/
def prim_partial_cmp (c : Cfg) (p : U128) (a : U256) : Option Ordering := some (cmp c (new c p) a)
/-- `a < p` -/
def lt_prim (c : Cfg) (a : U256) (p : U128) : Bool := partial_cmp_prim c a p == some .lt
/-- `a <= p` -/
def le_prim (c : Cfg) (a : U256) (p : U128) : Bool :=
  partial_cmp_prim c a p == some .lt || partial_cmp_prim c a p == some .eq
/-- `a > p` -/
def gt_prim (c : Cfg) (a : U256) (p : U128) : Bool := partial_cmp_prim c a p == some .gt
/-- `a >= p` -/
def ge_prim (c : Cfg) (a : U256) (p : U128) : Bool :=
  partial_cmp_prim c a p == some .gt || partial_cmp_prim c a p == some .eq

/-- `Hash::hash` (src/macros/cmp.rs 7-15) hashes the array `self.0`: the sequence of words fed to
the hasher. (`[u128; 2]` hashes its length prefix, a constant, and then the raw bytes of the
elements; the model records the elements.) -/
def hash_words (x : U256) : List U128 := [x.w0, x.w1]

end U256

namespace I256

/-- src/int.rs 38-47 -/
def from_words (c : Cfg) (hi lo : U128) : I256 :=
  if c.bigEndian then ⟨hi, lo⟩ else ⟨lo, hi⟩

/-- src/int.rs 51-62 -/
def into_words (c : Cfg) (x : I256) : U128 × U128 :=
  if c.bigEndian then (x.w0, x.w1) else (x.w1, x.w0)

/-- src/int.rs 66-75 -/
def low (c : Cfg) (x : I256) : U128 := if c.bigEndian then x.w1 else x.w0

/-- src/int.rs 92-101 -/
def high (c : Cfg) (x : I256) : U128 := if c.bigEndian then x.w0 else x.w1

/-- `*x.low_mut() = v` (src/int.rs 79-88) -/
def set_low (c : Cfg) (x : I256) (v : U128) : I256 :=
  if c.bigEndian then { x with w1 := v } else { x with w0 := v }

/-- `*x.high_mut() = v` (src/int.rs 106-115) -/
def set_high (c : Cfg) (x : I256) (v : U128) : I256 :=
  if c.bigEndian then { x with w0 := v } else { x with w1 := v }

/-- src/int.rs 32-34: `I256::from_words(value >> 127, value)` (arithmetic shift of an `i128`) -/
def new (c : Cfg) (value : U128) : I256 := from_words c (value.sshiftRight 127) value

/-- src/int.rs 22 -/
def ZERO : I256 := ⟨0, 0⟩
/-- src/int.rs 25 -/
def ONE (c : Cfg) : I256 := new c 1
/-- src/int.rs 28 -/
def MINUS_ONE (c : Cfg) : I256 := new c (-1)
/-- src/int/api.rs 25: `from_words(i128::MIN, 0)` -/
def MIN (c : Cfg) : I256 := from_words c (BitVec.intMin 128) 0
/-- src/int/api.rs 41: `from_words(i128::MAX, -1)` -/
def MAX (c : Cfg) : I256 := from_words c (BitVec.intMax 128) (-1)
/-- src/int/api.rs 51 -/
def BITS : U32 := 256

/-- src/int.rs 244-247: reinterpretation of the two raw words. -/
def as_u256 (x : I256) : U256 := ⟨x.w0, x.w1⟩

/-- src/int/cmp.rs 17-24: `(ahi, alo as u128).cmp(&(bhi, blo as u128))` with signed `ahi`, `bhi`. -/
def cmp (c : Cfg) (a b : I256) : Ordering :=
  (compare (into_words c a).1.toInt (into_words c b).1.toInt).then
    (compare (into_words c a).2.toNat (into_words c b).2.toNat)

/-- src/macros/cmp.rs 17-26 -/
def eq (c : Cfg) (a b : I256) : Bool :=
  decide ((into_words c a).1 = (into_words c b).1) && decide ((into_words c a).2 = (into_words c b).2)

/-- `a != b`: the default `PartialEq::ne`, over src/macros/cmp.rs 17-26 -/
def ne (c : Cfg) (a b : I256) : Bool := !eq c a b
/-- src/macros/cmp.rs 42-47 -/
def partial_cmp (c : Cfg) (a b : I256) : Option Ordering := some (cmp c a b)
/-- `a < b` -/
def lt (c : Cfg) (a b : I256) : Bool := partial_cmp c a b == some .lt
/-- `a <= b` -/
def le (c : Cfg) (a b : I256) : Bool := partial_cmp c a b == some .lt || partial_cmp c a b == some .eq
/-- `a > b` -/
def gt (c : Cfg) (a b : I256) : Bool := partial_cmp c a b == some .gt
/-- `a >= b` -/
def ge (c : Cfg) (a b : I256) : Bool := partial_cmp c a b == some .gt || partial_cmp c a b == some .eq

/-- `a == p` for `p : i128` (src/macros/cmp.rs 28-33) -/
def eq_prim (c : Cfg) (a : I256) (p : U128) : Bool := eq c a (new c p)
/-- `p == a` for `p : i128` (src/macros/cmp.rs 35-40) -/
def prim_eq (c : Cfg) (p : U128) (a : I256) : Bool := eq c (new c p) a
/-- `PartialOrd<i128> for I256` (src/macros/cmp.rs 49-54) -/
def partial_cmp_prim (c : Cfg) (a : I256) (p : U128) : Option Ordering := some (cmp c a (new c p))
/-- `PartialOrd<I256> for i128` (src/macros/cmp.rs 56-61) -/
def prim_partial_cmp (c : Cfg) (p : U128) (a : I256) : Option Ordering := some (cmp c (new c p) a)
/-- `a < p` -/
def lt_prim (c : Cfg) (a : I256) (p : U128) : Bool := partial_cmp_prim c a p == some .lt
/-- `a <= p` -/
def le_prim (c : Cfg) (a : I256) (p : U128) : Bool :=
  partial_cmp_prim c a p == some .lt || partial_cmp_prim c a p == some .eq
/-- `a > p` -/
def gt_prim (c : Cfg) (a : I256) (p : U128) : Bool := partial_cmp_prim c a p == some .gt
/-- `a >= p` -/
def ge_prim (c : Cfg) (a : I256) (p : U128) : Bool :=
  partial_cmp_prim c a p == some .gt || partial_cmp_prim c a p == some .eq

/-- `Hash::hash` (src/macros/cmp.rs 7-15): the words fed to the hasher, as for `U256`. -/
def hash_words (x : I256) : List U128 := [x.w0, x.w1]

end I256

/-- `U256::as_i256` (src/uint.rs 206-209): reinterpretation of the two raw words. -/
def U256.as_i256 (x : U256) : I256 := ⟨x.w0, x.w1⟩

end Ethnum
