import Verif.Basic

/-
The Rust primitive integer types (the crate's conversions and shift operators are implemented by
macro for each of them).
-/

namespace Ethnum

/-- The twelve primitive integer types. -/
inductive PrimTy where
  | i8 | i16 | i32 | i64 | i128 | isize
  | u8 | u16 | u32 | u64 | u128 | usize
  deriving DecidableEq, Repr

namespace PrimTy

/-- Number of bits; `isize`/`usize` depend on the target. -/
def bits (c : Cfg) : PrimTy → Nat
  | i8 | u8 => 8
  | i16 | u16 => 16
  | i32 | u32 => 32
  | i64 | u64 => 64
  | i128 | u128 => 128
  | isize | usize => c.ptr.bits

def signed : PrimTy → Bool
  | i8 | i16 | i32 | i64 | i128 | isize => true
  | u8 | u16 | u32 | u64 | u128 | usize => false

/-- A value of the type: its bit pattern. -/
abbrev Val (c : Cfg) (t : PrimTy) := BitVec (t.bits c)

/-- The number a value denotes. -/
def toInt {c : Cfg} (t : PrimTy) (x : t.Val c) : Int :=
  if t.signed then BitVec.toInt x else x.toNat

/-- Rust `x as iW/uW`: sign- or zero-extends according to the source type, or truncates. -/
def castTo {c : Cfg} (t : PrimTy) (x : t.Val c) (w : Nat) : BitVec w :=
  if t.signed then x.signExtend w else x.setWidth w

/-- Least value of the type. -/
def minVal (c : Cfg) (t : PrimTy) : Int := if t.signed then -2 ^ (t.bits c - 1) else 0
/-- Greatest value of the type. -/
def maxVal (c : Cfg) (t : PrimTy) : Int :=
  if t.signed then 2 ^ (t.bits c - 1) - 1 else 2 ^ t.bits c - 1

end PrimTy
end Ethnum
