import Verif.Model.Words
import Verif.Model.Llvm

/-
The integer intrinsics other than division. `Native` models src/intrinsics/native/{add,sub,mul,shl,shr,ctz,rot}.rs;
`Intr` is what src/intrinsics.rs 14-23 exports under the feature `llvm-intrinsics` or without it, together with the
signed wrappers of src/intrinsics/signed.rs; the operators on which other intrinsics depend (bitwise operators,
`<<`/`>>` by `u32`) follow.

Out-parameters are results. `cast!` reinterprets an I256 as a U256: `as_u256` / `as_i256`.
-/

namespace Ethnum
namespace Native

/-- src/intrinsics/native/add.rs 7-11 -/
def add2 (c : Cfg) (r a : U256) : U256 :=
  let (lo, carry) := overflowingAdd (r.low c) (a.low c)
  let r := r.set_low c lo
  r.set_high c (r.high c + ofBool 128 carry + a.high c)

/-- src/intrinsics/native/add.rs 14-19 -/
def add3 (c : Cfg) (a b : U256) : U256 :=
  let (lo, carry) := overflowingAdd (a.low c) (b.low c)
  let hi := a.high c + ofBool 128 carry + b.high c
  U256.from_words c hi lo

/-- src/intrinsics/native/add.rs 22-29 -/
def uaddc (c : Cfg) (a b : U256) : U256 × Bool :=
  let (lo, carry_lo) := overflowingAdd (a.low c) (b.low c)
  let (hi, carry_c) := overflowingAdd (a.high c) (ofBool 128 carry_lo)
  let (hi, carry_hi) := overflowingAdd hi (b.high c)
  (U256.from_words c hi lo, carry_c || carry_hi)

/-- src/intrinsics/native/add.rs 32-36 -/
def iaddc (c : Cfg) (a b : I256) : I256 × Bool :=
  let s := (add3 c a.as_u256 b.as_u256).as_i256
  (s, (b.ge_prim c 0 && s.lt c a) || (b.lt_prim c 0 && s.ge c a))

/-- src/intrinsics/native/sub.rs 7-11 -/
def sub2 (c : Cfg) (r a : U256) : U256 :=
  let (lo, carry) := overflowingSub (r.low c) (a.low c)
  let r := r.set_low c lo
  r.set_high c (r.high c - ofBool 128 carry - a.high c)

/-- src/intrinsics/native/sub.rs 14-19 -/
def sub3 (c : Cfg) (a b : U256) : U256 :=
  let (lo, carry) := overflowingSub (a.low c) (b.low c)
  let hi := a.high c - ofBool 128 carry - b.high c
  U256.from_words c hi lo

/-- src/intrinsics/native/sub.rs 22-29 -/
def usubc (c : Cfg) (a b : U256) : U256 × Bool :=
  let (lo, carry_lo) := overflowingSub (a.low c) (b.low c)
  let (hi, carry_c) := overflowingSub (a.high c) (ofBool 128 carry_lo)
  let (hi, carry_hi) := overflowingSub hi (b.high c)
  (U256.from_words c hi lo, carry_c || carry_hi)

/-- src/intrinsics/native/sub.rs 32-36 -/
def isubc (c : Cfg) (a b : I256) : I256 × Bool :=
  let s := (sub3 c a.as_u256 b.as_u256).as_i256
  (s, (b.ge_prim c 0 && s.gt c a) || (b.lt_prim c 0 && s.le c a))

/-- `LOWER_MASK = u128::MAX >> 64` (src/intrinsics/native/mul.rs 16) -/
def LOWER_MASK : U128 := BitVec.allOnes 128 >>> 64

/-- src/intrinsics/native/mul.rs 14-32 -/
def umulddi3 (c : Cfg) (a b : U128) : Res U256 := do
  let low ← mulC c (a &&& LOWER_MASK) (b &&& LOWER_MASK)
  let t := low >>> 64
  let low := low &&& LOWER_MASK
  let t ← addC c t (← mulC c (a >>> 64) (b &&& LOWER_MASK))
  let low ← addC c low ((t &&& LOWER_MASK) <<< 64)
  let high := t >>> 64
  let t := low >>> 64
  let low := low &&& LOWER_MASK
  let t ← addC c t (← mulC c (b >>> 64) (a &&& LOWER_MASK))
  let low ← addC c low ((t &&& LOWER_MASK) <<< 64)
  let high ← addC c high (t >>> 64)
  let high ← addC c high (← mulC c (a >>> 64) (b >>> 64))
  return U256.from_words c high low

/-- src/intrinsics/native/mul.rs 44-52 -/
def mul3 (c : Cfg) (a b : U256) : Res U256 := do
  let r ← umulddi3 c (a.low c) (b.low c)
  let hi_lo := a.high c * b.low c
  let lo_hi := a.low c * b.high c
  return r.set_high c (r.high c + (hi_lo + lo_hi))

/-- src/intrinsics/native/mul.rs 35-41 -/
def mul2 (c : Cfg) (r a : U256) : Res U256 := mul3 c r a

/-- src/intrinsics/native/mul.rs 55-68 -/
def umulc (c : Cfg) (a b : U256) : Res (U256 × Bool) := do
  let res ← umulddi3 c (a.low c) (b.low c)
  let (hi_lo, overflow_hi_lo) := overflowingMul (a.high c) (b.low c)
  let (lo_hi, overflow_lo_hi) := overflowingMul (a.low c) (b.high c)
  let (hi, overflow_hi) := overflowingAdd hi_lo lo_hi
  let (high, overflow_high) := overflowingAdd (res.high c) hi
  let res := res.set_high c high
  let overflow_hi_hi := decide (a.high c ≠ 0) && decide (b.high c ≠ 0)
  return (res, overflow_hi_lo || overflow_lo_hi || overflow_hi || overflow_high || overflow_hi_hi)

/-- src/intrinsics/native/shl.rs 7-19 -/
def shl2 (c : Cfg) (r : U256) (a : U32) : Res U256 := do
  debugAssert c (decide (a < 256))
  if a = 0 then return r
  else if a < 128 then
    let hi := (← shlC c (r.high c) a) ||| (← shrC c (r.low c) (← subC c 128 a))
    let lo ← shlC c (r.low c) a
    return U256.from_words c hi lo
  else
    let hi ← shlC c (r.low c) (a &&& 0x7f)
    return U256.from_words c hi 0

/-- src/intrinsics/native/shl.rs 22-34 -/
def shl3 (c : Cfg) (a : U256) (b : U32) : Res U256 := do
  debugAssert c (decide (b < 256))
  if b = 0 then return U256.from_words c (a.high c) (a.low c)
  else if b < 128 then
    let hi := (← shlC c (a.high c) b) ||| (← shrC c (a.low c) (← subC c 128 b))
    let lo ← shlC c (a.low c) b
    return U256.from_words c hi lo
  else
    let hi ← shlC c (a.low c) (b &&& 0x7f)
    return U256.from_words c hi 0

/-- src/intrinsics/native/shr.rs 43-55 -/
def shr2 (c : Cfg) (r : U256) (a : U32) : Res U256 := do
  debugAssert c (decide (a < 256))
  if a = 0 then return r
  else if a < 128 then
    let hi ← shrC c (r.high c) a
    let lo := (← shrC c (r.low c) a) ||| (← shlC c (r.high c) (← subC c 128 a))
    return U256.from_words c hi lo
  else
    let lo ← shrC c (r.high c) (a &&& 0x7f)
    return U256.from_words c 0 lo

/-- src/intrinsics/native/shr.rs 58-70 -/
def shr3 (c : Cfg) (a : U256) (b : U32) : Res U256 := do
  debugAssert c (decide (b < 256))
  if b = 0 then return U256.from_words c (a.high c) (a.low c)
  else if b < 128 then
    let hi ← shrC c (a.high c) b
    let lo := (← shrC c (a.low c) b) ||| (← shlC c (a.high c) (← subC c 128 b))
    return U256.from_words c hi lo
  else
    let lo ← shrC c (a.high c) (b &&& 0x7f)
    return U256.from_words c 0 lo

/-- src/intrinsics/native/shr.rs 7-22 (`>>` on `i128` is arithmetic, on `as u128` logical) -/
def sar2 (c : Cfg) (r : I256) (a : U32) : Res I256 := do
  debugAssert c (decide (a < 256))
  if a = 0 then return r
  else if a < 128 then
    let hi ← sarC c (r.high c) a
    let lo := (← shrC c (r.low c) a) ||| (← shlC c (r.high c) (← subC c 128 a))
    return I256.from_words c hi lo
  else
    let hi ← sarC c (r.high c) 127
    let lo ← sarC c (r.high c) (a &&& 0x7f)
    return I256.from_words c hi lo

/-- src/intrinsics/native/shr.rs 25-40 -/
def sar3 (c : Cfg) (a : I256) (b : U32) : Res I256 := do
  debugAssert c (decide (b < 256))
  if b = 0 then return I256.from_words c (a.high c) (a.low c)
  else if b < 128 then
    let hi ← sarC c (a.high c) b
    let lo := (← shrC c (a.low c) b) ||| (← shlC c (a.high c) (← subC c 128 b))
    return I256.from_words c hi lo
  else
    let hi ← sarC c (a.high c) 127
    let lo ← sarC c (a.high c) (b &&& 0x7f)
    return I256.from_words c hi lo

/-- src/intrinsics/native/ctz.rs 7-10 -/
def ctlz (c : Cfg) (a : U256) : Res U32 := do
  let f ← negC c (ofBool 128 (decide (a.high c = 0)))
  addC c (u32 (leadingZeros ((a.high c &&& ~~~f) ||| (a.low c &&& f)))) (f.setWidth 32 &&& 128)

/-- src/intrinsics/native/ctz.rs 13-16 -/
def cttz (c : Cfg) (a : U256) : Res U32 := do
  let f ← negC c (ofBool 128 (decide (a.low c = 0)))
  addC c (u32 (trailingZeros ((a.high c &&& f) ||| (a.low c &&& ~~~f)))) (f.setWidth 32 &&& 128)

end Native

namespace Intr

/-- `add2` of the selected back-end (src/intrinsics.rs 14-23) -/
def add2 (c : Cfg) (r a : U256) : U256 := if c.llvm then Llvm.add2 c r a else Native.add2 c r a
/-- `add3` of the selected back-end (src/intrinsics.rs 14-23) -/
def add3 (c : Cfg) (a b : U256) : U256 := if c.llvm then Llvm.add3 c a b else Native.add3 c a b
/-- `uaddc` of the selected back-end (src/intrinsics.rs 14-23) -/
def uaddc (c : Cfg) (a b : U256) : U256 × Bool := if c.llvm then Llvm.uaddc c a b else Native.uaddc c a b
/-- `iaddc` of the selected back-end (src/intrinsics.rs 14-23) -/
def iaddc (c : Cfg) (a b : I256) : I256 × Bool := if c.llvm then Llvm.iaddc c a b else Native.iaddc c a b
/-- `sub2` of the selected back-end (src/intrinsics.rs 14-23) -/
def sub2 (c : Cfg) (r a : U256) : U256 := if c.llvm then Llvm.sub2 c r a else Native.sub2 c r a
/-- `sub3` of the selected back-end (src/intrinsics.rs 14-23) -/
def sub3 (c : Cfg) (a b : U256) : U256 := if c.llvm then Llvm.sub3 c a b else Native.sub3 c a b
/-- `usubc` of the selected back-end (src/intrinsics.rs 14-23) -/
def usubc (c : Cfg) (a b : U256) : U256 × Bool := if c.llvm then Llvm.usubc c a b else Native.usubc c a b
/-- `isubc` of the selected back-end (src/intrinsics.rs 14-23) -/
def isubc (c : Cfg) (a b : I256) : I256 × Bool := if c.llvm then Llvm.isubc c a b else Native.isubc c a b
/-- `mul2` of the selected back-end (src/intrinsics.rs 14-23) -/
def mul2 (c : Cfg) (r a : U256) : Res U256 := if c.llvm then .ok (Llvm.mul2 c r a) else Native.mul2 c r a
/-- `mul3` of the selected back-end (src/intrinsics.rs 14-23) -/
def mul3 (c : Cfg) (a b : U256) : Res U256 := if c.llvm then .ok (Llvm.mul3 c a b) else Native.mul3 c a b
/-- `umulc` of the selected back-end (src/intrinsics.rs 14-23) -/
def umulc (c : Cfg) (a b : U256) : Res (U256 × Bool) := if c.llvm then .ok (Llvm.umulc c a b) else Native.umulc c a b
/-- `shl2` of the selected back-end (src/intrinsics.rs 14-23) -/
def shl2 (c : Cfg) (r : U256) (a : U32) : Res U256 := if c.llvm then .ok (Llvm.shl2 c r a) else Native.shl2 c r a
/-- `shl3` of the selected back-end (src/intrinsics.rs 14-23) -/
def shl3 (c : Cfg) (a : U256) (b : U32) : Res U256 := if c.llvm then .ok (Llvm.shl3 c a b) else Native.shl3 c a b
/-- `sar2` of the selected back-end (src/intrinsics.rs 14-23) -/
def sar2 (c : Cfg) (r : I256) (a : U32) : Res I256 := if c.llvm then .ok (Llvm.sar2 c r a) else Native.sar2 c r a
/-- `sar3` of the selected back-end (src/intrinsics.rs 14-23) -/
def sar3 (c : Cfg) (a : I256) (b : U32) : Res I256 := if c.llvm then .ok (Llvm.sar3 c a b) else Native.sar3 c a b
/-- `shr2` of the selected back-end (src/intrinsics.rs 14-23) -/
def shr2 (c : Cfg) (r : U256) (a : U32) : Res U256 := if c.llvm then .ok (Llvm.shr2 c r a) else Native.shr2 c r a
/-- `shr3` of the selected back-end (src/intrinsics.rs 14-23) -/
def shr3 (c : Cfg) (a : U256) (b : U32) : Res U256 := if c.llvm then .ok (Llvm.shr3 c a b) else Native.shr3 c a b
/-- `ctlz` of the selected back-end (src/intrinsics.rs 14-23) -/
def ctlz (c : Cfg) (a : U256) : Res U32 := if c.llvm then .ok (Llvm.ctlz c a) else Native.ctlz c a
/-- `cttz` of the selected back-end (src/intrinsics.rs 14-23) -/
def cttz (c : Cfg) (a : U256) : Res U32 := if c.llvm then .ok (Llvm.cttz c a) else Native.cttz c a

/-- src/intrinsics/signed.rs 16-18 -/
def iadd2 (c : Cfg) (r a : I256) : I256 := (add2 c r.as_u256 a.as_u256).as_i256
/-- src/intrinsics/signed.rs 21-23 -/
def iadd3 (c : Cfg) (a b : I256) : I256 := (add3 c a.as_u256 b.as_u256).as_i256
/-- src/intrinsics/signed.rs 26-28 -/
def isub2 (c : Cfg) (r a : I256) : I256 := (sub2 c r.as_u256 a.as_u256).as_i256
/-- src/intrinsics/signed.rs 31-33 -/
def isub3 (c : Cfg) (a b : I256) : I256 := (sub3 c a.as_u256 b.as_u256).as_i256
/-- src/intrinsics/signed.rs 36-38 -/
def imul2 (c : Cfg) (r a : I256) : Res I256 := return (← mul2 c r.as_u256 a.as_u256).as_i256
/-- src/intrinsics/signed.rs 41-43 -/
def imul3 (c : Cfg) (a b : I256) : Res I256 := return (← mul3 c a.as_u256 b.as_u256).as_i256
/-- src/intrinsics/signed.rs 46-48 -/
def ishl2 (c : Cfg) (r : I256) (a : U32) : Res I256 := return (← shl2 c r.as_u256 a).as_i256
/-- src/intrinsics/signed.rs 51-53 -/
def ishl3 (c : Cfg) (a : I256) (b : U32) : Res I256 := return (← shl3 c a.as_u256 b).as_i256
/-- src/intrinsics/signed.rs 66-68 -/
def ictlz (c : Cfg) (a : I256) : Res U32 := ctlz c a.as_u256
/-- src/intrinsics/signed.rs 71-73 -/
def icttz (c : Cfg) (a : I256) : Res U32 := cttz c a.as_u256

end Intr

namespace U256

/-- `!x` (src/macros/ops.rs 51-58) -/
def not (x : U256) : U256 := ⟨~~~x.w0, ~~~x.w1⟩
/-- `a & b` (src/macros/ops.rs 369-378) -/
def bitand (a b : U256) : U256 := ⟨a.w0 &&& b.w0, a.w1 &&& b.w1⟩
/-- `a | b` (src/macros/ops.rs 369-378) -/
def bitor (a b : U256) : U256 := ⟨a.w0 ||| b.w0, a.w1 ||| b.w1⟩
/-- `a ^ b` (src/macros/ops.rs 369-378) -/
def bitxor (a b : U256) : U256 := ⟨a.w0 ^^^ b.w0, a.w1 ^^^ b.w1⟩

/-- `a << b`, `b : u32` (src/macros/ops.rs 261-276, intrinsic `ushl3`) -/
def shl (c : Cfg) (a : U256) (b : U32) : Res U256 :=
  if c.debugAssertions && decide (b > 0xff) then throwPanic .shlOverflow else Intr.shl3 c a b

/-- `a >> b`, `b : u32` (src/macros/ops.rs 261-276, intrinsic `ushr3`) -/
def shr (c : Cfg) (a : U256) (b : U32) : Res U256 :=
  if c.debugAssertions && decide (b > 0xff) then throwPanic .shrOverflow else Intr.shr3 c a b

end U256

namespace I256

/-- `!x` (src/macros/ops.rs 51-58) -/
def not (x : I256) : I256 := ⟨~~~x.w0, ~~~x.w1⟩
/-- `a & b` (src/macros/ops.rs 369-378) -/
def bitand (a b : I256) : I256 := ⟨a.w0 &&& b.w0, a.w1 &&& b.w1⟩
/-- `a | b` (src/macros/ops.rs 369-378) -/
def bitor (a b : I256) : I256 := ⟨a.w0 ||| b.w0, a.w1 ||| b.w1⟩
/-- `a ^ b` (src/macros/ops.rs 369-378) -/
def bitxor (a b : I256) : I256 := ⟨a.w0 ^^^ b.w0, a.w1 ^^^ b.w1⟩

/-- `a << b`, `b : u32` (src/macros/ops.rs 261-276, intrinsic `ishl3`) -/
def shl (c : Cfg) (a : I256) (b : U32) : Res I256 :=
  if c.debugAssertions && decide (b > 0xff) then throwPanic .shlOverflow else Intr.ishl3 c a b

/-- `a >> b`, `b : u32` (src/macros/ops.rs 261-276, intrinsic `isar3`) -/
def shr (c : Cfg) (a : I256) (b : U32) : Res I256 :=
  if c.debugAssertions && decide (b > 0xff) then throwPanic .shrOverflow else Intr.sar3 c a b

/-- src/int/api.rs 1051-1055 -/
def wrapping_sub (c : Cfg) (a b : I256) : I256 := Intr.isub3 c a b

end I256

namespace Native

/-- src/intrinsics/native/rot.rs 8-10 -/
def rol3 (c : Cfg) (a : U256) (b : U32) : Res U256 := do
  let x ← a.shl c (b &&& 0xff)
  let y ← a.shr c ((← subC c 256 b) &&& 0xff)
  return x.bitor y

/-- src/intrinsics/native/rot.rs 13-15 -/
def ror3 (c : Cfg) (a : U256) (b : U32) : Res U256 := do
  let x ← a.shr c (b &&& 0xff)
  let y ← a.shl c ((← subC c 256 b) &&& 0xff)
  return x.bitor y

end Native

namespace Intr

/-- `rol3` of the selected back-end (src/intrinsics.rs 14-23) -/
def rol3 (c : Cfg) (a : U256) (b : U32) : Res U256 := if c.llvm then .ok (Llvm.rol3 c a b) else Native.rol3 c a b
/-- `ror3` of the selected back-end (src/intrinsics.rs 14-23) -/
def ror3 (c : Cfg) (a : U256) (b : U32) : Res U256 := if c.llvm then .ok (Llvm.ror3 c a b) else Native.ror3 c a b
/-- src/intrinsics/signed.rs 56-58 -/
def irol3 (c : Cfg) (a : I256) (b : U32) : Res I256 := return (← rol3 c a.as_u256 b).as_i256
/-- src/intrinsics/signed.rs 61-63 -/
def iror3 (c : Cfg) (a : I256) (b : U32) : Res I256 := return (← ror3 c a.as_u256 b).as_i256

end Intr
end Ethnum
