import Verif.Float
import Verif.Model.IntApi
import Verif.Model.Fmt

/-
Floating point conversions: src/uint.rs 260-277, src/int.rs 263-274, src/uint/convert.rs 121-160 and 185-198,
src/int/convert.rs 115-161 and 186-199. Instantiated for `f32` with `u32` and for `f64` with `u64`. Exponent
formatting: src/macros/fmt.rs 46-64.
-/

namespace Ethnum
namespace FloatTy

/-- The unsigned type with the same bits (the `[$b:ty]` of src/uint/convert.rs 158-160) -/
def prim : FloatTy → PrimTy
  | f32 => .u32 | f64 => .u64

/-- A pattern as a value of the unsigned type with the same bits: both are the bits. -/
def toPrim (c : Cfg) : (t : FloatTy) → BitVec t.bits → t.prim.Val c
  | f32, b => b
  | f64, b => b

variable (t : FloatTy)

/-- `M = (MANTISSA_DIGITS - 1) as _` (src/uint/convert.rs 133, src/int/convert.rs 127) -/
def M : BitVec t.bits := BitVec.ofNat _ (t.p - 1)
/-- `MAN_MASK = !(!0 << M)` (src/uint/convert.rs 134, src/int/convert.rs 128) -/
def MAN_MASK : BitVec t.bits := ~~~((~~~0#t.bits) <<< t.M.toNat)
/-- `MAN_ONE = 1 << M` (src/uint/convert.rs 135, src/int/convert.rs 129) -/
def MAN_ONE : BitVec t.bits := 1#t.bits <<< t.M.toNat
/-- `EXP_MASK = !0 >> MANTISSA_DIGITS` (src/uint/convert.rs 136, src/int/convert.rs 130) -/
def EXP_MASK : BitVec t.bits := (~~~0#t.bits) >>> t.p
/-- `EXP_OFFSET = EXP_MASK / 2` (src/uint/convert.rs 137, src/int/convert.rs 131) -/
def EXP_OFFSET : BitVec t.bits := t.EXP_MASK / 2#t.bits
/-- `ABS_MASK = !0 >> 1` (src/int/convert.rs 132) -/
def ABS_MASK : BitVec t.bits := (~~~0#t.bits) >>> 1
/-- `SIG_MASK = !ABS_MASK` (src/int/convert.rs 133) -/
def SIG_MASK : BitVec t.bits := ~~~ t.ABS_MASK

/-- `a >> n` where the amount has the type of `a` -/
def shr (c : Cfg) {w : Nat} (a n : BitVec w) : Res (BitVec w) :=
  if c.overflowChecks && decide (w ≤ n.toNat) then throwPanic .shrOverflow else .ok (a >>> (n.toNat % w))

end FloatTy

/-- `core::fmt::LowerExp for f64` and `core::fmt::UpperExp for f64`: the text for a float and a formatter. The standard
library's digits are not modelled: what is proved holds for any two functions (with any precision). -/
structure F64Fmt where
  lower : FloatTy.f64.Val → Formatter → List Char
  upper : FloatTy.f64.Val → Formatter → List Char

namespace U256

/-- `AsU256::as_u256` on `f32`/`f64` (src/uint/convert.rs 125-153) -/
def of_float (c : Cfg) (t : FloatTy) (x : t.Val) : Res U256 :=
  if t.ge x t.one then do
    let bits := x
    let exponent ← subC c ((bits >>> t.M.toNat) &&& t.EXP_MASK) t.EXP_OFFSET
    let mantissa := (bits &&& t.MAN_MASK) ||| t.MAN_ONE
    if exponent.toNat ≤ t.M.toNat then
      return from_prim c t.prim (t.toPrim c (← FloatTy.shr c mantissa (← subC c t.M exponent)))
    else if exponent.toNat < 256 then
      shlBy c (from_prim c t.prim (t.toPrim c mantissa)) (.prim t.prim (t.toPrim c (← subC c exponent t.M)))
    else return MAX
  else return ZERO

/-- src/uint.rs 262-267: `match self.into_words() { (0, lo) => lo as _, _ => f32::INFINITY }` -/
def as_f32 (c : Cfg) (x : U256) : FloatTy.f32.Val :=
  let (hi, lo) := x.into_words c
  if hi = 0 then FloatTy.f32.ofInt lo.toNat else FloatTy.f32.inf

/-- `f64::from_bits(0x47f0000000000000)` (src/uint.rs 274) -/
def HI : FloatTy.f64.Val := 0x47f0000000000000#64

/-- src/uint.rs 271-277: `(hi as f64) * f64::from_bits(HI) + (lo as f64)` -/
def as_f64 (c : Cfg) (x : U256) : FloatTy.f64.Val :=
  let (hi, lo) := x.into_words c
  FloatTy.f64.add (FloatTy.f64.mul (FloatTy.f64.ofInt hi.toNat) HI) (FloatTy.f64.ofInt lo.toNat)

/-- `From<U256> for f32` (src/uint/convert.rs 185-198): `x.as_f32()` -/
def into_f32 (c : Cfg) (x : U256) : FloatTy.f32.Val := x.as_f32 c
/-- `From<U256> for f64` (src/uint/convert.rs 185-198): `x.as_f64()` -/
def into_f64 (c : Cfg) (x : U256) : FloatTy.f64.Val := x.as_f64 c

/-- `LowerExp for U256` (src/macros/fmt.rs 46-56): `LowerExp::fmt(&self.as_f64(), f)`. `F` is the formatting of
`f64` by the standard library. -/
def lower_exp (c : Cfg) (F : F64Fmt) (x : U256) (f : Formatter) : List Char :=
  F.lower (x.as_f64 c) f
/-- `UpperExp for U256` (src/macros/fmt.rs 58-62): `UpperExp::fmt(&self.as_f64(), f)` -/
def upper_exp (c : Cfg) (F : F64Fmt) (x : U256) (f : Formatter) : List Char :=
  F.upper (x.as_f64 c) f

end U256

namespace I256

/-- `AsI256::as_i256` on `f32`/`f64` (src/int/convert.rs 119-154) -/
def of_float (c : Cfg) (t : FloatTy) (x : t.Val) : Res I256 := do
  let abs := x &&& t.ABS_MASK
  let sign ← negC c (((x &&& t.SIG_MASK) >>> (t.bits - 2)).setWidth 128 - 1#128)
  if t.ge abs t.one then
    let bits := abs
    let exponent ← subC c ((bits >>> t.M.toNat) &&& t.EXP_MASK) t.EXP_OFFSET
    let mantissa := (bits &&& t.MAN_MASK) ||| t.MAN_ONE
    if exponent.toNat ≤ t.M.toNat then
      withPrim c mul (from_prim c t.prim (t.toPrim c (← FloatTy.shr c mantissa (← subC c t.M exponent)))) sign
    else if exponent.toNat < 255 then
      withPrim c mul
        (← shlBy c (from_prim c t.prim (t.toPrim c mantissa)) (.prim t.prim (t.toPrim c (← subC c exponent t.M)))) sign
    else if sign.toInt > 0 then return MAX c
    else return MIN c
  else return ZERO

/-- src/int.rs 271-274: `self.unsigned_abs().as_f64() * sign` with `sign = self.signum128() as f64` -/
def as_f64 (c : Cfg) (x : I256) : FloatTy.f64.Val :=
  let sign := FloatTy.f64.ofInt (x.signum128 c).toInt
  FloatTy.f64.mul ((x.unsigned_abs c).as_f64 c) sign

/-- src/int.rs 265-267: `self.as_f64() as _` -/
def as_f32 (c : Cfg) (x : I256) : FloatTy.f32.Val := FloatTy.convert .f64 .f32 (x.as_f64 c)

/-- `From<I256> for f32` (src/int/convert.rs 186-199): `x.as_f32()` -/
def into_f32 (c : Cfg) (x : I256) : FloatTy.f32.Val := x.as_f32 c
/-- `From<I256> for f64` (src/int/convert.rs 186-199): `x.as_f64()` -/
def into_f64 (c : Cfg) (x : I256) : FloatTy.f64.Val := x.as_f64 c

/-- `LowerExp for I256` (src/macros/fmt.rs 46-56): `LowerExp::fmt(&self.as_f64(), f)`. `F` is the formatting of
`f64` by the standard library. -/
def lower_exp (c : Cfg) (F : F64Fmt) (x : I256) (f : Formatter) : List Char :=
  F.lower (x.as_f64 c) f
/-- `UpperExp for I256` (src/macros/fmt.rs 58-62): `UpperExp::fmt(&self.as_f64(), f)` -/
def upper_exp (c : Cfg) (F : F64Fmt) (x : I256) (f : Formatter) : List Char :=
  F.upper (x.as_f64 c) f

end I256
end Ethnum
