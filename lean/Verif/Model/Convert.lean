import Verif.Model.Words
import Verif.Model.Prim

/-
Integer conversions: src/uint/convert.rs, src/int/convert.rs and the `as_*` methods of src/uint.rs
and src/int.rs. `Err(tfie())` is `none`.
-/

namespace Ethnum

/-- A fixed build configuration does not matter for the width of the listed types, except for
`isize`/`usize`; `MAX` of a primitive type as a bit pattern. -/
def PrimTy.MAX (c : Cfg) (t : PrimTy) : t.Val c :=
  if t.signed then BitVec.intMax _ else BitVec.allOnes _
/-- `MIN` of a primitive type as a bit pattern. -/
def PrimTy.MIN (c : Cfg) (t : PrimTy) : t.Val c :=
  if t.signed then BitVec.intMin _ else 0

/-- `self >= 0` on a primitive. -/
def PrimTy.nonneg {c : Cfg} (t : PrimTy) (x : t.Val c) : Bool := decide (0 ≤ t.toInt x)

namespace U256

/-- `as_i8`, ..., `as_usize` (src/uint.rs 170-203, 212-258): `let (_, lo) = self.into_words(); lo as _` -/
def as_prim (c : Cfg) (t : PrimTy) (x : U256) : t.Val c := (x.into_words c).2.setWidth _

/-- `as_u32` (src/uint.rs 227-230) -/
def as_u32 (c : Cfg) (x : U256) : U32 := x.as_prim c .u32
/-- `as_u8` (src/uint.rs 213-216) -/
def as_u8 (c : Cfg) (x : U256) : U8 := x.as_prim c .u8

/-- `AsU256::as_u256` on a primitive integer (src/uint/convert.rs 95-112):
`hi = if self >= 0 { 0 } else { !0 }; from_words(hi, self as _)` -/
def of_prim_as (c : Cfg) (t : PrimTy) (x : t.Val c) : U256 :=
  let hi : U128 := if t.nonneg x then 0 else ~~~0
  from_words c hi (t.castTo x 128)

/-- `AsU256::as_u256` on `bool` (src/uint/convert.rs 114-119) and `From<bool>` (9-15) -/
def of_bool (c : Cfg) (b : Bool) : U256 := new c (ofBool 128 b)

/-- The primitive types with `From<P> for U256` (src/uint/convert.rs 18-20) -/
def fromTypes : List PrimTy := [.u8, .u16, .u32, .u64, .u128]
/-- The primitive types with `TryFrom<P> for U256` (src/uint/convert.rs 35-38) -/
def tryFromTypes : List PrimTy := [.i8, .i16, .i32, .i64, .i128, .isize, .usize]

/-- `From<P> for U256` (src/uint/convert.rs 7-20): `U256::new(value.into())`, zero extension -/
def from_prim (c : Cfg) (t : PrimTy) (x : t.Val c) : U256 := new c (t.castTo x 128)

/-- `u128::try_from(value)` of the standard library: fails on negative numbers -/
def u128_try_from {c : Cfg} (t : PrimTy) (x : t.Val c) : Option U128 :=
  if 0 ≤ t.toInt x then some (t.castTo x 128) else none

/-- `TryFrom<P> for U256` (src/uint/convert.rs 22-38): `Ok(U256::new(u128::try_from(value)?))` -/
def try_from_prim (c : Cfg) (t : PrimTy) (x : t.Val c) : Option U256 :=
  match u128_try_from t x with
  | some v => some (new c v)
  | none => none

/-- `TryFrom<I256> for U256` (src/uint/convert.rs 40-49) -/
def try_from_i256 (c : Cfg) (value : I256) : Option U256 :=
  if value.lt_prim c 0 then none else some value.as_u256

/-- `TryFrom<U256> for P` (src/uint/convert.rs 162-183):
`if x <= <P>::MAX.as_u256() { Ok(*x.low() as _) } else { Err }` -/
def prim_try_from (c : Cfg) (t : PrimTy) (x : U256) : Option (t.Val c) :=
  if x.le c (of_prim_as c t (PrimTy.MAX c t)) then some ((x.low c).setWidth _) else none

end U256

namespace I256

/-- `as_i8`, ..., `as_usize` (src/int.rs 174-240, 251-261) -/
def as_prim (c : Cfg) (t : PrimTy) (x : I256) : t.Val c := (x.into_words c).2.setWidth _

/-- `as_u32` (src/int.rs 223-226) -/
def as_u32 (c : Cfg) (x : I256) : U32 := x.as_prim c .u32

/-- `AsI256::as_i256` on a primitive integer (src/int/convert.rs 89-106) -/
def of_prim_as (c : Cfg) (t : PrimTy) (x : t.Val c) : I256 :=
  let hi : U128 := if t.nonneg x then 0 else ~~~0
  from_words c hi (t.castTo x 128)

/-- `AsI256::as_i256` on `bool` (src/int/convert.rs 108-113) -/
def of_bool (c : Cfg) (b : Bool) : I256 := new c (ofBool 128 b)

/-- The primitive types with `From<P> for I256` (src/int/convert.rs 18-22) -/
def fromTypes : List PrimTy := [.i8, .i16, .i32, .i64, .i128, .u8, .u16, .u32, .u64, .u128]

/-- `From<P> for I256` (src/int/convert.rs 7-22): `value.as_i256()` -/
def from_prim (c : Cfg) (t : PrimTy) (x : t.Val c) : I256 := of_prim_as c t x

/-- `TryFrom<U256> for I256` (src/int/convert.rs 24-33) -/
def try_from_u256 (c : Cfg) (value : U256) : Option I256 :=
  if value.gt c (MAX c).as_u256 then none else some value.as_i256

/-- `TryFrom<I256> for P` (src/int/convert.rs 163-184) -/
def prim_try_from (c : Cfg) (t : PrimTy) (x : I256) : Option (t.Val c) :=
  if x.ge c (of_prim_as c t (PrimTy.MIN c t)) && x.le c (of_prim_as c t (PrimTy.MAX c t))
  then some ((x.low c).setWidth _) else none

end I256
end Ethnum
