import Verif.Model.UintApi
import Verif.Model.IntApi
import Verif.Model.Convert

/-
Formatting: src/fmt.rs and src/macros/fmt.rs.

The standard library's `Formatter` and `Formatter::pad_integral` are part of the trusted base and defined first.
A text is a list of characters, the one that is written if the writer behind the formatter does not fail. The calls that
the writer sees, and writers that fail, are in Model/Writer.lean.
-/

namespace Ethnum

/-! ### `core::fmt::Formatter` -/

/-- `core::fmt::Alignment` -/
inductive Align where
  | left | right | center
  deriving DecidableEq, Repr

/-- The settings of a `core::fmt::Formatter`. `flags` is `Formatter::flags()`, whose bits are, from bit 0,
`+`, `-`, `#`, `0`, `x?` and `X?`. -/
structure Formatter where
  flags : U32
  width : Option Nat
  fill : Char
  align : Option Align
  deriving DecidableEq, Repr

namespace Formatter

/-- `{}` -/
def default : Formatter := ⟨0, none, ' ', none⟩
/-- `Formatter::sign_plus` -/
def sign_plus (f : Formatter) : Bool := f.flags.getLsbD 0
/-- `Formatter::sign_minus` -/
def sign_minus (f : Formatter) : Bool := f.flags.getLsbD 1
/-- `Formatter::alternate` -/
def alternate (f : Formatter) : Bool := f.flags.getLsbD 2
/-- `Formatter::sign_aware_zero_pad` -/
def sign_aware_zero_pad (f : Formatter) : Bool := f.flags.getLsbD 3

/-- `Formatter::pad_integral(is_nonnegative, prefix, buf)` of the standard library: the sign, then under `#` the
prefix, then the digits, padded to the width; with `0` by zeros after the prefix, otherwise by the fill character
according to the alignment, which defaults to the right. -/
def pad_integral (f : Formatter) (is_nonnegative : Bool) (pfx buf : List Char) : List Char :=
  let sign : List Char := if !is_nonnegative then ['-'] else if f.sign_plus then ['+'] else []
  let pfx := if f.alternate then pfx else []
  let head := sign ++ pfx
  let len := head.length + buf.length
  match f.width with
  | none => head ++ buf
  | some min =>
    if min ≤ len then head ++ buf
    else if f.sign_aware_zero_pad then head ++ List.replicate (min - len) '0' ++ buf
    else
      let pad := min - len
      match f.align with
      | some .left => head ++ buf ++ List.replicate pad f.fill
      | some .center => List.replicate (pad / 2) f.fill ++ (head ++ buf) ++ List.replicate ((pad + 1) / 2) f.fill
      | some .right | none => List.replicate pad f.fill ++ (head ++ buf)

end Formatter

/-! ### Buffers -/

/-- `[MaybeUninit<u8>; N]`: `none` is a byte that was never written. -/
abbrev Buf := List (Option U8)

/-- `[MaybeUninit::uninit(); n]` -/
def Buf.uninit (n : Nat) : Buf := List.replicate n none

/-- A write through a raw pointer at offset `i` of the buffer. -/
def Buf.write (buf : Buf) (i : Int) (b : U8) : Res Buf :=
  if 0 ≤ i ∧ i < buf.length then .ok (buf.set i.toNat (some b)) else throwUB .outOfBounds

/-- Reading initialised bytes. -/
def Buf.init : Buf → Res (List U8)
  | [] => .ok []
  | none :: _ => throwUB .uninit
  | some b :: l => do
    let r ← Buf.init l
    return b :: r

/-- `str::from_utf8_unchecked`; the model asks for ASCII, which is stronger than being UTF-8. -/
def strUnchecked (l : List U8) : Res (List Char) :=
  if l.all (fun b => decide (b.toNat < 128)) then .ok (l.map (fun b => Char.ofNat b.toNat)) else throwUB .notUtf8

/-! ### src/fmt.rs, `GenericRadix` -/

/-- The four implementors of `GenericRadix` (src/fmt.rs 47-61) -/
inductive Radix where
  | binary | octal | lowerHex | upperHex
  deriving DecidableEq, Repr

namespace Radix

/-- `BASE` (src/fmt.rs 78-81) -/
def BASE : Radix → U8
  | binary => 2 | octal => 8 | lowerHex => 16 | upperHex => 16
/-- `PREFIX` (src/fmt.rs 78-81) -/
def PREFIX : Radix → List Char
  | binary => ['0', 'b'] | octal => ['0', 'o'] | lowerHex => ['0', 'x'] | upperHex => ['0', 'x']

/-- `digit` (src/fmt.rs 68-73 with the patterns of 78-81) -/
def digit (c : Cfg) (r : Radix) (x : U8) : Res U8 :=
  match r with
  | binary => if x.toNat ≤ 1 then addC c 48 x else throwPanic .explicit
  | octal => if x.toNat ≤ 7 then addC c 48 x else throwPanic .explicit
  | lowerHex =>
    if x.toNat ≤ 9 then addC c 48 x
    else if x.toNat ≤ 15 then do addC c 97 (← subC c x 10)
    else throwPanic .explicit
  | upperHex =>
    if x.toNat ≤ 9 then addC c 48 x
    else if x.toNat ≤ 15 then do addC c 65 (← subC c x 10)
    else throwPanic .explicit

/-- The loop of `GenericRadix::fmt_u256` (src/fmt.rs 24-33): the first argument is `curr`, which is also the number
of bytes that `buf.iter_mut().rev()` has still to visit, so that the byte visited is `buf[curr - 1]`. -/
def loop (c : Cfg) (r : Radix) (base : U256) : Nat → U256 → Buf → Res (Nat × Buf)
  | 0, _, buf => .ok (0, buf)
  | k + 1, x, buf => do
    let n ← x.rem c base
    let x ← x.div_assign c base
    let d ← r.digit c (n.as_u8 c)
    let buf := buf.set k (some d)
    if x.eq c U256.ZERO then return (k, buf) else loop c r base k x buf

/-- `GenericRadix::fmt_u256` (src/fmt.rs 15-44). `&buf[0]` in line 39 panics on an empty slice. -/
def fmt_u256 (c : Cfg) (r : Radix) (x : U256) (is_nonnegative : Bool) (f : Formatter) : Res (List Char) := do
  let base := U256.from_prim c .u8 r.BASE
  let (curr, buf) ← loop c r base 256 x (Buf.uninit 256)
  let buf := buf.drop curr
  if buf.isEmpty then throwPanic .indexOutOfBounds
  else do
    let s ← strUnchecked (← Buf.init buf)
    return f.pad_integral is_nonnegative r.PREFIX s

end Radix

/-! ### src/fmt.rs, decimal -/

/-- `DEC_DIGITS_LUT` (src/fmt.rs 83-88) -/
def DEC_DIGITS_LUT : List U8 :=
  ("0001020304050607080910111213141516171819" ++
   "2021222324252627282930313233343536373839" ++
   "4041424344454647484950515253545556575859" ++
   "6061626364656667686970717273747576777879" ++
   "8081828384858687888990919293949596979899").toList.map (fun ch => BitVec.ofNat 8 ch.toNat)

/-- The result of an `isize` operation whose exact value is `z`. In this file an `isize` is represented by the
number it denotes. -/
def isizeC (c : Cfg) (z : Int) (p : Panic) : Res Int :=
  if PrimTy.minVal c .isize ≤ z ∧ z ≤ PrimTy.maxVal c .isize then .ok z
  else if c.overflowChecks then throwPanic p
  else .ok (PrimTy.isize.toInt (c := c) (BitVec.ofInt _ z))

/-- `z << 1` on `isize`: bits shifted out are lost without a check. -/
def isizeShl1 (c : Cfg) (z : Int) : Int := PrimTy.isize.toInt (c := c) (BitVec.ofInt _ (2 * z))

/-- `lut_ptr.offset(i)` read for two bytes, `ptr::copy_nonoverlapping(lut_ptr.offset(d), buf_ptr.offset(i), 2)` -/
def copy2 (d i : Int) (buf : Buf) : Res Buf :=
  if 0 ≤ d then
    match DEC_DIGITS_LUT[d.toNat]?, DEC_DIGITS_LUT[d.toNat + 1]? with
    | some a, some b => do
      let buf ← buf.write i a
      buf.write (i + 1) b
    | _, _ => throwUB .outOfBounds
  else throwUB .outOfBounds

/-- `self.as_isize()` as a number (src/uint.rs 248-251) -/
def U256.as_isize (c : Cfg) (x : U256) : Int := PrimTy.isize.toInt (x.as_prim c .isize)

/-- The loop of `fmt_u256` (src/fmt.rs 105-120), with fuel; returns `n`, `curr` and the buffer. -/
def decLoop (c : Cfg) : Nat → U256 → Int → Buf → Res (U256 × Int × Buf)
  | 0, _, _, _ => .error .diverge
  | fuel + 1, n, curr, buf =>
    if n.ge_prim c 10000 then do
      let (q, r) ← n.div_rem c (U256.new c 10000)
      let rem := r.as_isize c
      let d1 := isizeShl1 c (rem.tdiv 100)
      let d2 := isizeShl1 c (rem.tmod 100)
      let curr ← isizeC c (curr - 4) .subOverflow
      let buf ← copy2 d1 curr buf
      let buf ← copy2 d2 (← isizeC c (curr + 2) .addOverflow) buf
      decLoop c fuel q curr buf
    else .ok (n, curr, buf)

/-- The rest of the unsafe block of `fmt_u256` (src/fmt.rs 122-142), for `n` already cast to `isize`. -/
def decTail (c : Cfg) (n curr : Int) (buf : Buf) : Res (Int × Buf) := do
  let (n, curr, buf) ← (if n ≥ 100 then do
      let d1 := isizeShl1 c (n.tmod 100)
      let n := n.tdiv 100
      let curr ← isizeC c (curr - 2) .subOverflow
      let buf ← copy2 d1 curr buf
      return (n, curr, buf)
    else return (n, curr, buf))
  if n < 10 then do
    let curr ← isizeC c (curr - 1) .subOverflow
    let d ← addC c (BitVec.ofInt 8 n) 48
    let buf ← buf.write curr d
    return (curr, buf)
  else do
    let d1 := isizeShl1 c n
    let curr ← isizeC c (curr - 2) .subOverflow
    let buf ← copy2 d1 curr buf
    return (curr, buf)

/-- `fmt_u256` (src/fmt.rs 90-153). `slice::from_raw_parts(buf_ptr.offset(curr), buf.len() - curr as usize)` is the
buffer from `curr` on; a `curr` outside the buffer is undefined behaviour. -/
def fmt_u256 (c : Cfg) (n : U256) (is_nonnegative : Bool) (f : Formatter) : Res (List Char) := do
  let (n, curr, buf) ← decLoop c 100 n 79 (Buf.uninit 79)
  let (curr, buf) ← decTail c (n.as_isize c) curr buf
  if curr < 0 ∨ (79 : Int) < curr then throwUB .outOfBounds
  else do
    let s ← strUnchecked (← Buf.init (buf.drop curr.toNat))
    return f.pad_integral is_nonnegative [] s

/-! ### src/macros/fmt.rs -/

namespace U256
/-- `Display` (src/macros/fmt.rs 30-44); `*self >= 0` always holds, the other branch is kept as written -/
def display (c : Cfg) (x : U256) (f : Formatter) : Res (List Char) :=
  let is_nonnegative := x.ge_prim c 0
  let n := if is_nonnegative then x else wrapping_add c (not x) (ONE c)
  Ethnum.fmt_u256 c n is_nonnegative f

/-- `Binary`, `Octal`, `LowerHex`, `UpperHex` (src/macros/fmt.rs 66-86) -/
def fmtRadix (c : Cfg) (r : Radix) (x : U256) (f : Formatter) : Res (List Char) :=
  let (abs, is_nonnegative) := if x.lt_prim c 0 && f.sign_minus then (x.wrapping_neg c, false) else (x, true)
  r.fmt_u256 c abs is_nonnegative f

/-- `Debug` (src/macros/fmt.rs 10-28) -/
def debug (c : Cfg) (x : U256) (f : Formatter) : Res (List Char) :=
  if f.flags &&& (1#32 <<< 4) ≠ 0 then x.fmtRadix c .lowerHex f
  else if f.flags &&& (1#32 <<< 5) ≠ 0 then x.fmtRadix c .upperHex f
  else x.display c f
end U256

namespace I256
/-- `Display` (src/macros/fmt.rs 30-44) -/
def display (c : Cfg) (x : I256) (f : Formatter) : Res (List Char) :=
  let is_nonnegative := x.ge_prim c 0
  let n := if is_nonnegative then x.as_u256 else U256.wrapping_add c (U256.not x.as_u256) (U256.ONE c)
  Ethnum.fmt_u256 c n is_nonnegative f

/-- `Binary`, `Octal`, `LowerHex`, `UpperHex` (src/macros/fmt.rs 66-86) -/
def fmtRadix (c : Cfg) (r : Radix) (x : I256) (f : Formatter) : Res (List Char) :=
  let (abs, is_nonnegative) := if x.lt_prim c 0 && f.sign_minus then (x.wrapping_neg c, false) else (x, true)
  r.fmt_u256 c abs.as_u256 is_nonnegative f

/-- `Debug` (src/macros/fmt.rs 10-28) -/
def debug (c : Cfg) (x : I256) (f : Formatter) : Res (List Char) :=
  if f.flags &&& (1#32 <<< 4) ≠ 0 then x.fmtRadix c .lowerHex f
  else if f.flags &&& (1#32 <<< 5) ≠ 0 then x.fmtRadix c .upperHex f
  else x.display c f
end I256

end Ethnum
