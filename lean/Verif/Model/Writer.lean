import Verif.Model.Fmt
import Verif.Model.Serde

/-
Formatting into a writer that may fail: src/fmt.rs and src/macros/fmt.rs again, with the writer behind the formatter in
view. Model/Fmt.lean gives the text that is written when nothing fails; here every call of the writer is made in order
and the first error ends the formatting, as `?` does.

The standard library's `Formatter::pad_integral` is part of the trusted base and is written out call by call.
-/

namespace Ethnum

/-- `core::fmt::Write`, with a state of any type. A call returns the new state and whether it was `Ok(())`; it may also
panic. -/
structure Writer (σ : Type) where
  write_str : List Char → σ → Res (σ × Bool)
  write_char : Char → σ → Res (σ × Bool)

/-- Code that writes and returns a `Result<α, fmt::Error>`: `none` is `Err(fmt::Error)`. -/
abbrev Io (σ α : Type) : Type := σ → Res (σ × Option α)

namespace Io
variable {σ α β : Type}

/-- `Ok(a)` -/
def ok (a : α) : Io σ α := fun st => .ok (st, some a)
/-- `let a = m?; k(a)` -/
def andThen (m : Io σ α) (k : α → Io σ β) : Io σ β := fun st =>
  match m st with
  | .error e => .error e
  | .ok (st, none) => .ok (st, none)
  | .ok (st, some a) => k a st
/-- `m?; m'` -/
def seq (m : Io σ Unit) (m' : Io σ β) : Io σ β := m.andThen fun _ => m'

end Io

namespace Writer
variable {σ : Type}

/-- A call of `write_str` -/
def str (w : Writer σ) (s : List Char) : Io σ Unit := fun st => do
  let (st, ok) ← w.write_str s st
  return (st, if ok then some () else none)
/-- A call of `write_char` -/
def chr (w : Writer σ) (ch : Char) : Io σ Unit := fun st => do
  let (st, ok) ← w.write_char ch st
  return (st, if ok then some () else none)

/-- `for _ in 0..n { write_char(fill)?; }` -/
def chars (w : Writer σ) (fill : Char) : Nat → Io σ Unit
  | 0 => .ok ()
  | n + 1 => (w.chr fill).seq (w.chars fill n)

end Writer

namespace Formatter
variable {σ : Type}

/-- `write_prefix` in `Formatter::pad_integral` of the standard library -/
def write_prefix (w : Writer σ) (sign : Option Char) (pfx : Option (List Char)) : Io σ Unit :=
  (match sign with
    | some ch => w.chr ch
    | none => .ok ()).seq
  (match pfx with
    | some p => w.str p
    | none => .ok ())

/-- `Formatter::padding` of the standard library: writes the padding in front and returns how much follows. -/
def padding (w : Writer σ) (fill : Char) (align : Option Align) (n : Nat) (default : Align) : Io σ Nat :=
  let (pre, post) := match align.getD default with
    | .left => (0, n)
    | .right => (n, 0)
    | .center => (n / 2, (n + 1) / 2)
  (w.chars fill pre).seq (.ok post)

/-- `Formatter::pad_integral` of the standard library, call by call. With `0`, the fill and the alignment are replaced
while it runs. -/
def pad_integral_to (w : Writer σ) (f : Formatter) (is_nonnegative : Bool) (pfx buf : List Char) : Io σ Unit :=
  let sign : Option Char := if !is_nonnegative then some '-' else if f.sign_plus then some '+' else none
  let pfx : Option (List Char) := if f.alternate then some pfx else none
  let width := buf.length + sign.toList.length + (pfx.getD []).length
  match f.width with
  | none => (write_prefix w sign pfx).seq (w.str buf)
  | some min =>
    if min ≤ width then (write_prefix w sign pfx).seq (w.str buf)
    else if f.sign_aware_zero_pad then
      (write_prefix w sign pfx).seq <|
      (padding w '0' (some .right) (min - width) .right).andThen fun post =>
      (w.str buf).seq (w.chars '0' post)
    else
      (padding w f.fill f.align (min - width) .right).andThen fun post =>
      (write_prefix w sign pfx).seq <|
      (w.str buf).seq (w.chars f.fill post)

end Formatter

/-- `GenericRadix::fmt_u256` (src/fmt.rs 15-44) -/
def Radix.fmt_u256_to {σ : Type} (w : Writer σ) (c : Cfg) (r : Radix) (x : U256) (is_nonnegative : Bool) (f : Formatter) :
    Io σ Unit := fun st => do
  let base := U256.from_prim c .u8 r.BASE
  let (curr, buf) ← loop c r base 256 x (Buf.uninit 256)
  let buf := buf.drop curr
  if buf.isEmpty then throwPanic .indexOutOfBounds
  else do
    let s ← strUnchecked (← Buf.init buf)
    f.pad_integral_to w is_nonnegative r.PREFIX s st

/-- `fmt_u256` (src/fmt.rs 90-153) -/
def fmt_u256_to {σ : Type} (w : Writer σ) (c : Cfg) (n : U256) (is_nonnegative : Bool) (f : Formatter) : Io σ Unit :=
  fun st => do
  let (n, curr, buf) ← decLoop c 100 n 79 (Buf.uninit 79)
  let (curr, buf) ← decTail c (n.as_isize c) curr buf
  if curr < 0 ∨ (79 : Int) < curr then throwUB .outOfBounds
  else do
    let s ← strUnchecked (← Buf.init (buf.drop curr.toNat))
    f.pad_integral_to w is_nonnegative [] s st

namespace U256
variable {σ : Type} (w : Writer σ)

/-- `Display` (src/macros/fmt.rs 30-44) -/
def display_to (c : Cfg) (x : U256) (f : Formatter) : Io σ Unit :=
  let is_nonnegative := x.ge_prim c 0
  let n := if is_nonnegative then x else wrapping_add c (not x) (ONE c)
  Ethnum.fmt_u256_to w c n is_nonnegative f

/-- `Binary`, `Octal`, `LowerHex`, `UpperHex` (src/macros/fmt.rs 66-86) -/
def fmtRadix_to (c : Cfg) (r : Radix) (x : U256) (f : Formatter) : Io σ Unit :=
  let (abs, is_nonnegative) := if x.lt_prim c 0 && f.sign_minus then (x.wrapping_neg c, false) else (x, true)
  r.fmt_u256_to w c abs is_nonnegative f

/-- `Debug` (src/macros/fmt.rs 10-28) -/
def debug_to (c : Cfg) (x : U256) (f : Formatter) : Io σ Unit :=
  if f.flags &&& (1#32 <<< 4) ≠ 0 then x.fmtRadix_to w c .lowerHex f
  else if f.flags &&& (1#32 <<< 5) ≠ 0 then x.fmtRadix_to w c .upperHex f
  else x.display_to w c f

end U256

namespace I256
variable {σ : Type} (w : Writer σ)

/-- `Display` (src/macros/fmt.rs 30-44) -/
def display_to (c : Cfg) (x : I256) (f : Formatter) : Io σ Unit :=
  let is_nonnegative := x.ge_prim c 0
  let n := if is_nonnegative then x.as_u256 else U256.wrapping_add c (U256.not x.as_u256) (U256.ONE c)
  Ethnum.fmt_u256_to w c n is_nonnegative f

/-- `Binary`, `Octal`, `LowerHex`, `UpperHex` (src/macros/fmt.rs 66-86) -/
def fmtRadix_to (c : Cfg) (r : Radix) (x : I256) (f : Formatter) : Io σ Unit :=
  let (abs, is_nonnegative) := if x.lt_prim c 0 && f.sign_minus then (x.wrapping_neg c, false) else (x, true)
  r.fmt_u256_to w c abs.as_u256 is_nonnegative f

/-- `Debug` (src/macros/fmt.rs 10-28) -/
def debug_to (c : Cfg) (x : I256) (f : Formatter) : Io σ Unit :=
  if f.flags &&& (1#32 <<< 4) ≠ 0 then x.fmtRadix_to w c .lowerHex f
  else if f.flags &&& (1#32 <<< 5) ≠ 0 then x.fmtRadix_to w c .upperHex f
  else x.display_to w c f

end I256

/-! ### Serialization as text (src/serde.rs) -/

namespace Serde

/-- `impl Write for FormatBuffer<N>` (src/serde.rs 700-722); `write_char` is the default, which calls `write_str`. Every
character written is ASCII, so that it is a byte. After an error the buffer is as before. -/
def FormatBuffer.writer (c : Cfg) : Writer FormatBuffer where
  write_str s f := do
    match ← f.write_str c (s.map (fun ch => BitVec.ofNat 8 ch.toNat)) with
    | none => return (f, false)
    | some f => return (f, true)
  write_char ch f := do
    match ← f.write_str c [BitVec.ofNat 8 ch.toNat] with
    | none => return (f, false)
    | some f => return (f, true)

/-- `let mut f = FormatBuffer::<N>::new(); write!(f, ...).expect(...); serializer.serialize_str(f.as_str())` -/
def serialize_into (N : Nat) (m : Io FormatBuffer Unit) : Res Datum := do
  match ← m (FormatBuffer.new N) with
  | (_, none) => throwPanic .explicit
  | (f, some ()) =>
    let s ← f.as_str
    return .str s

end Serde

open Serde

/-- `Serialize for U256` (src/serde.rs 58-67) -/
def U256.serialize_to (c : Cfg) (x : U256) : Res Datum :=
  serialize_into 67 (x.fmtRadix_to (FormatBuffer.writer c) c .lowerHex hexSpec)
/-- `decimal::serialize` of `U256` (src/serde.rs 112-114, 118-126) -/
def U256.serialize_decimal_to (c : Cfg) (x : U256) : Res Datum :=
  serialize_into 78 (x.display_to (FormatBuffer.writer c) c .default)
/-- `Serialize for I256` (src/serde.rs 47-56) -/
def I256.serialize_to (c : Cfg) (x : I256) : Res Datum :=
  serialize_into 67 (x.fmtRadix_to (FormatBuffer.writer c) c .lowerHex minusHexSpec)
/-- `decimal::serialize` of `I256` (src/serde.rs 103-105, 118-126) -/
def I256.serialize_decimal_to (c : Cfg) (x : I256) : Res Datum :=
  serialize_into 78 (x.display_to (FormatBuffer.writer c) c .default)

end Ethnum
