import Verif.Model.DivMod
import Verif.Model.Convert

/-
Operators: src/macros/ops.rs instantiated in src/uint/ops.rs and src/int/ops.rs, and the signed
multiplication intrinsic, which uses them.

The by-value/by-reference variants (src/macros/ops.rs 180-220) only forward to the modelled ones.
-/

namespace Ethnum

namespace U256

/-- `a + b` (src/macros/ops.rs 154-172): `uadd3` without, `uaddc` with debug assertions -/
def add (c : Cfg) (a b : U256) : Res U256 :=
  if c.debugAssertions then
    let (r, o) := Intr.uaddc c a b
    if o then throwPanic .addOverflow else .ok r
  else .ok (Intr.add3 c a b)

/-- `a - b` (src/macros/ops.rs 154-172) -/
def sub (c : Cfg) (a b : U256) : Res U256 :=
  if c.debugAssertions then
    let (r, o) := Intr.usubc c a b
    if o then throwPanic .subOverflow else .ok r
  else .ok (Intr.sub3 c a b)

/-- `a * b` (src/macros/ops.rs 154-172) -/
def mul (c : Cfg) (a b : U256) : Res U256 :=
  if c.debugAssertions then do
    let (r, o) ← Intr.umulc c a b
    if o then throwPanic .mulOverflow else .ok r
  else Intr.mul3 c a b

/-- `a / b` (src/macros/ops.rs 231-244) -/
def div (c : Cfg) (a b : U256) : Res U256 :=
  if b.eq_prim c 0 then throwPanic .divByZero else Intr.udiv3 c a b

/-- `a % b` (src/macros/ops.rs 231-244) -/
def rem (c : Cfg) (a b : U256) : Res U256 :=
  if b.eq_prim c 0 then throwPanic .remByZero else Intr.urem3 c a b

/-- `a += b` (src/macros/ops.rs 395-407) -/
def add_assign (c : Cfg) (a b : U256) : Res U256 :=
  if c.debugAssertions then add c a b else .ok (Intr.add2 c a b)
/-- `a -= b` (src/macros/ops.rs 395-407) -/
def sub_assign (c : Cfg) (a b : U256) : Res U256 :=
  if c.debugAssertions then sub c a b else .ok (Intr.sub2 c a b)
/-- `a *= b` (src/macros/ops.rs 395-407) -/
def mul_assign (c : Cfg) (a b : U256) : Res U256 :=
  if c.debugAssertions then mul c a b else Intr.mul2 c a b
/-- `a /= b` (src/macros/ops.rs 395-407) -/
def div_assign (c : Cfg) (a b : U256) : Res U256 :=
  if c.debugAssertions then div c a b else Intr.udiv2 c a b
/-- `a %= b` (src/macros/ops.rs 395-407) -/
def rem_assign (c : Cfg) (a b : U256) : Res U256 :=
  if c.debugAssertions then rem c a b else Intr.urem2 c a b
/-- `a <<= b` (src/macros/ops.rs 455-467) -/
def shl_assign (c : Cfg) (a : U256) (b : U32) : Res U256 :=
  if c.debugAssertions then shl c a b else Intr.shl2 c a b
/-- `a >>= b` (src/macros/ops.rs 455-467) -/
def shr_assign (c : Cfg) (a : U256) (b : U32) : Res U256 :=
  if c.debugAssertions then shr c a b else Intr.shr2 c a b
/-- `a &= b` (src/macros/ops.rs 528-536) -/
def bitand_assign (a b : U256) : U256 := { w0 := a.w0 &&& b.w0, w1 := a.w1 &&& b.w1 }
/-- `a |= b` (src/macros/ops.rs 528-536) -/
def bitor_assign (a b : U256) : U256 := { w0 := a.w0 ||| b.w0, w1 := a.w1 ||| b.w1 }
/-- `a ^= b` (src/macros/ops.rs 528-536) -/
def bitxor_assign (a b : U256) : U256 := { w0 := a.w0 ^^^ b.w0, w1 := a.w1 ^^^ b.w1 }

/-- A binary operator with a `u128` right operand: `a op U256::new(b)` (src/macros/ops.rs 190-193) -/
def withPrim {α : Type} (c : Cfg) (op : Cfg → U256 → U256 → α) (a : U256) (b : U128) : α :=
  op c a (new c b)
/-- A binary operator with a `u128` left operand: `U256::new(a) op b` (src/macros/ops.rs 195-198) -/
def primWith {α : Type} (c : Cfg) (op : Cfg → U256 → U256 → α) (a : U128) (b : U256) : α :=
  op c (new c a) b

end U256

namespace I256

/-- `a / b` (src/macros/ops.rs 231-244) -/
def div (c : Cfg) (a b : I256) : Res I256 :=
  if b.eq_prim c 0 then throwPanic .divByZero else Intr.idiv3 c a b

/-- `a % b` (src/macros/ops.rs 231-244) -/
def rem (c : Cfg) (a b : I256) : Res I256 :=
  if b.eq_prim c 0 then throwPanic .remByZero else Intr.irem3 c a b

/-- `-x` (src/macros/ops.rs 127-141) -/
def neg (c : Cfg) (x : I256) : Res I256 :=
  if c.debugAssertions && x.eq c (MIN c) then throwPanic .negOverflow
  else .ok (Intr.iadd2 c (not x) (ONE c))

end I256

/-- src/intrinsics/native/mul.rs 71-91. `b != 0` etc. are comparisons with an `i128`. Both back-ends export this function
(src/intrinsics/llvm.rs 8-12); its `mul3` is the native one. -/
def Intr.imulc (c : Cfg) (a b : I256) : Res (I256 × Bool) := do
  let res := (← Native.mul3 c a.as_u256 b.as_u256).as_i256
  if a.eq c (I256.MIN c) then return (res, !b.eq_prim c 0 && !b.eq_prim c 1)
  else if b.eq c (I256.MIN c) then return (res, !a.eq_prim c 0 && !a.eq_prim c 1)
  else
    let sa ← a.shr c (I256.BITS - 1)
    let abs_a := (a.bitxor sa).wrapping_sub c sa
    let sb ← b.shr c (I256.BITS - 1)
    let abs_b := (b.bitxor sb).wrapping_sub c sb
    if abs_a.lt_prim c 2 || abs_b.lt_prim c 2 then return (res, false)
    else if sa.eq c sb then
      let m ← (I256.MAX c).div c abs_b
      return (res, abs_a.gt c m)
    else
      let m ← (I256.MIN c).div c (← abs_b.neg c)
      return (res, abs_a.gt c m)

namespace I256

/-- `a + b` (src/macros/ops.rs 154-172): `iadd3` without, `iaddc` with debug assertions -/
def add (c : Cfg) (a b : I256) : Res I256 :=
  if c.debugAssertions then
    let (r, o) := Intr.iaddc c a b
    if o then throwPanic .addOverflow else .ok r
  else .ok (Intr.iadd3 c a b)

/-- `a - b` (src/macros/ops.rs 154-172) -/
def sub (c : Cfg) (a b : I256) : Res I256 :=
  if c.debugAssertions then
    let (r, o) := Intr.isubc c a b
    if o then throwPanic .subOverflow else .ok r
  else .ok (Intr.isub3 c a b)

/-- `a * b` (src/macros/ops.rs 154-172) -/
def mul (c : Cfg) (a b : I256) : Res I256 :=
  if c.debugAssertions then do
    let (r, o) ← Intr.imulc c a b
    if o then throwPanic .mulOverflow else .ok r
  else Intr.imul3 c a b

/-- `a += b` (src/macros/ops.rs 395-407) -/
def add_assign (c : Cfg) (a b : I256) : Res I256 :=
  if c.debugAssertions then add c a b else .ok (Intr.iadd2 c a b)
/-- `a -= b` (src/macros/ops.rs 395-407) -/
def sub_assign (c : Cfg) (a b : I256) : Res I256 :=
  if c.debugAssertions then sub c a b else .ok (Intr.isub2 c a b)
/-- `a *= b` (src/macros/ops.rs 395-407) -/
def mul_assign (c : Cfg) (a b : I256) : Res I256 :=
  if c.debugAssertions then mul c a b else Intr.imul2 c a b
/-- `a /= b` (src/macros/ops.rs 395-407) -/
def div_assign (c : Cfg) (a b : I256) : Res I256 :=
  if c.debugAssertions then div c a b else Intr.idiv2 c a b
/-- `a %= b` (src/macros/ops.rs 395-407) -/
def rem_assign (c : Cfg) (a b : I256) : Res I256 :=
  if c.debugAssertions then rem c a b else Intr.irem2 c a b
/-- `a <<= b` (src/macros/ops.rs 455-467) -/
def shl_assign (c : Cfg) (a : I256) (b : U32) : Res I256 :=
  if c.debugAssertions then shl c a b else Intr.ishl2 c a b
/-- `a >>= b` (src/macros/ops.rs 455-467) -/
def shr_assign (c : Cfg) (a : I256) (b : U32) : Res I256 :=
  if c.debugAssertions then shr c a b else Intr.sar2 c a b
/-- `a &= b` (src/macros/ops.rs 528-536) -/
def bitand_assign (a b : I256) : I256 := { w0 := a.w0 &&& b.w0, w1 := a.w1 &&& b.w1 }
/-- `a |= b` (src/macros/ops.rs 528-536) -/
def bitor_assign (a b : I256) : I256 := { w0 := a.w0 ||| b.w0, w1 := a.w1 ||| b.w1 }
/-- `a ^= b` (src/macros/ops.rs 528-536) -/
def bitxor_assign (a b : I256) : I256 := { w0 := a.w0 ^^^ b.w0, w1 := a.w1 ^^^ b.w1 }

/-- A binary operator with an `i128` right operand: `a op I256::new(b)` (src/macros/ops.rs 190-193) -/
def withPrim {α : Type} (c : Cfg) (op : Cfg → I256 → I256 → α) (a : I256) (b : U128) : α :=
  op c a (new c b)
/-- A binary operator with an `i128` left operand: `I256::new(a) op b` (src/macros/ops.rs 195-198) -/
def primWith {α : Type} (c : Cfg) (op : Cfg → I256 → I256 → α) (a : U128) (b : I256) : α :=
  op c (new c a) b

end I256

/-! ### Shift amounts of other types (src/macros/ops.rs 284-330, 475-517) -/

/-- `TryFrom<P> for u32` of the standard library, by value: `u32::try_from(b).unwrap_or(u32::MAX)`. -/
def u32TryFromOrMax (v : Int) : U32 := if 0 ≤ v ∧ v < 2 ^ 32 then BitVec.ofInt 32 v else BitVec.allOnes 32

/-- The `u32` handed to the `u32` shift for a primitive amount: `b as u32` without,
`u32::try_from(b).unwrap_or(u32::MAX)` with debug assertions (src/macros/ops.rs 318-321). -/
def shiftAmountPrim (c : Cfg) (t : PrimTy) (b : t.Val c) : U32 :=
  if c.debugAssertions then u32TryFromOrMax (t.toInt b) else t.castTo b 32

/-- `unwrap_or(u32::MAX)` (src/macros/ops.rs 318-321) -/
def unwrapOrMax32 : Option U32 → U32
  | some v => v
  | none => BitVec.allOnes 32

/-- Shift amount given as a `U256` (src/macros/ops.rs 296-301, 318-321) -/
def shiftAmountU (c : Cfg) (b : U256) : U32 :=
  if c.debugAssertions then unwrapOrMax32 (b.prim_try_from c .u32) else b.as_u32 c

/-- Shift amount given as an `I256` (src/macros/ops.rs 296-301, 318-321) -/
def shiftAmountI (c : Cfg) (b : I256) : U32 :=
  if c.debugAssertions then unwrapOrMax32 (b.prim_try_from c .u32) else b.as_u32 c

/-- The right operands accepted by `<<`, `>>`, `<<=`, `>>=`: every primitive integer type, `U256` and
`I256` (src/macros/ops.rs 284-310, 475-500). A `u32` is used as it is; converting it to `u32` first, as
`amount` does, is the identity. -/
inductive ShiftBy (c : Cfg) where
  | prim (t : PrimTy) (b : t.Val c)
  | u256 (b : U256)
  | i256 (b : I256)

/-- The `u32` handed to the shift by a `u32` (src/macros/ops.rs 316-323, 507-514). -/
def ShiftBy.amount {c : Cfg} : ShiftBy c → U32
  | .prim t b => shiftAmountPrim c t b
  | .u256 b => shiftAmountU c b
  | .i256 b => shiftAmountI c b

/-- `U256 << b` for every amount type. -/
def U256.shlBy (c : Cfg) (a : U256) (b : ShiftBy c) : Res U256 := a.shl c b.amount
/-- `U256 >> b` for every amount type. -/
def U256.shrBy (c : Cfg) (a : U256) (b : ShiftBy c) : Res U256 := a.shr c b.amount
/-- `I256 << b` for every amount type. -/
def I256.shlBy (c : Cfg) (a : I256) (b : ShiftBy c) : Res I256 := a.shl c b.amount
/-- `I256 >> b` for every amount type. -/
def I256.shrBy (c : Cfg) (a : I256) (b : ShiftBy c) : Res I256 := a.shr c b.amount
/-- `U256 <<= b` for every amount type. -/
def U256.shlAssignBy (c : Cfg) (a : U256) (b : ShiftBy c) : Res U256 := a.shl_assign c b.amount
/-- `U256 >>= b` for every amount type. -/
def U256.shrAssignBy (c : Cfg) (a : U256) (b : ShiftBy c) : Res U256 := a.shr_assign c b.amount
/-- `I256 <<= b` for every amount type. -/
def I256.shlAssignBy (c : Cfg) (a : I256) (b : ShiftBy c) : Res I256 := a.shl_assign c b.amount
/-- `I256 >>= b` for every amount type. -/
def I256.shrAssignBy (c : Cfg) (a : I256) (b : ShiftBy c) : Res I256 := a.shr_assign c b.amount

end Ethnum
