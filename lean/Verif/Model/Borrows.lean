import Verif.Model.Fmt
import Verif.Model.Serde
import Verif.SpecBorrow

/-
The pointers that the formatting code and `FormatBuffer` make into their buffers: src/fmt.rs and src/serde.rs once more,
now with the trace of pointer events of Verif/SpecBorrow.lean beside the result. Each function is that of Model/Fmt.lean
or Model/Serde.lean with the events added; that nothing else changed is proved (`*_result` in Proofs/Borrows.lean).

The traces are of one allocation, the buffer. The table of digits is another, which is only read. Reborrows of the whole
buffer which the compiler adds when a reference is passed on are given where a function is called, not within std.
-/

namespace Ethnum.Borrow
open Event

/-! ### src/fmt.rs, decimal: the buffer has 79 bytes -/

/-- Tags of `fmt_u256`: `&buf` for the first and second `buf.len()`, `&mut buf[0]`, `buf_ptr`, the slice, and the
argument of `pad_integral`. -/
def tLen1 : Tag := 1
def tElem : Tag := 2
def tPtr : Tag := 3
def tLen2 : Tag := 4
def tSlice : Tag := 5
def tArg : Tag := 6

/-- `ptr::copy_nonoverlapping(lut_ptr.offset(d), buf_ptr.offset(i), 2)` -/
def copy2 (d i : Int) (buf : Buf) : Res (Buf × List Event) := do
  let buf ← Ethnum.copy2 d i buf
  return (buf, [access .write tPtr i.toNat 2])

/-- The loop of `fmt_u256` (src/fmt.rs 105-120) -/
def decLoop (c : Cfg) : Nat → U256 → Int → Buf → Res (U256 × Int × Buf × List Event)
  | 0, _, _, _ => .error .diverge
  | fuel + 1, n, curr, buf =>
    if n.ge_prim c 10000 then do
      let (q, r) ← n.div_rem c (U256.new c 10000)
      let rem := r.as_isize c
      let d1 := isizeShl1 c (rem.tdiv 100)
      let d2 := isizeShl1 c (rem.tmod 100)
      let curr ← isizeC c (curr - 4) .subOverflow
      let (buf, e1) ← copy2 d1 curr buf
      let (buf, e2) ← copy2 d2 (← isizeC c (curr + 2) .addOverflow) buf
      let (n, curr, buf, es) ← decLoop c fuel q curr buf
      return (n, curr, buf, e1 ++ (e2 ++ es))
    else .ok (n, curr, buf, [])

/-- The rest of the unsafe block of `fmt_u256` (src/fmt.rs 122-142) -/
def decTail (c : Cfg) (n curr : Int) (buf : Buf) : Res (Int × Buf × List Event) := do
  let (n, curr, buf, es) ← (if n ≥ 100 then do
      let d1 := isizeShl1 c (n.tmod 100)
      let n := n.tdiv 100
      let curr ← isizeC c (curr - 2) .subOverflow
      let (buf, es) ← copy2 d1 curr buf
      return (n, curr, buf, es)
    else return (n, curr, buf, []))
  if n < 10 then do
    let curr ← isizeC c (curr - 1) .subOverflow
    let d ← addC c (BitVec.ofInt 8 n) 48
    let buf ← buf.write curr d
    return (curr, buf, es ++ [access .write tPtr curr.toNat 1])
  else do
    let d1 := isizeShl1 c n
    let curr ← isizeC c (curr - 2) .subOverflow
    let (buf, e) ← copy2 d1 curr buf
    return (curr, buf, es ++ e)

/-- Lines 92-94: `buf.len()`, which takes `&buf`, and `&mut buf[0] as *mut _ as *mut u8`. The reference covers `w` bytes:
one in the code. -/
def decHead (w : Nat) : List Event :=
  [ref .shared owner tLen1 0 79 false, ref .unique owner tElem 0 w false, raw .unique tElem tPtr 0 w]

/-- Lines 146-152: `buf.len()`, `slice::from_raw_parts(buf_ptr.offset(curr), ..)`, and `pad_integral` which reads it -/
def decEnd (curr : Nat) : List Event :=
  [ref .shared owner tLen2 0 79 false, ref .shared tPtr tSlice curr (79 - curr) false,
   ref .shared tSlice tArg curr (79 - curr) true, access .read tArg curr (79 - curr), ret [tArg]]

/-- `fmt_u256` (src/fmt.rs 90-153), where the reference that `buf_ptr` is cast from covers `w` bytes -/
def fmt_u256 (w : Nat) (c : Cfg) (n : U256) (is_nonnegative : Bool) (f : Formatter) : Res (List Char × List Event) := do
  let (n, curr, buf, e1) ← decLoop c 100 n 79 (Buf.uninit 79)
  let (curr, buf, e2) ← decTail c (n.as_isize c) curr buf
  if curr < 0 ∨ (79 : Int) < curr then throwUB .outOfBounds
  else do
    let s ← strUnchecked (← Buf.init (buf.drop curr.toNat))
    return (f.pad_integral is_nonnegative [] s, decHead w ++ (e1 ++ (e2 ++ decEnd curr.toNat)))

/-! ### src/fmt.rs, `GenericRadix`: the buffer has 256 bytes -/

/-- Tags of `GenericRadix::fmt_u256`: `&buf` of `buf.len()`, the argument of `iter_mut` and the pointer in the iterator,
`&buf`, `&buf[curr..]`, `&buf[0]`, the raw pointer cast from it, the slice, and the argument of `pad_integral`. -/
def rLen : Tag := 1
def rIter : Tag := 2
def rNext : Tag := 3
def rBuf : Tag := 4
def rTail : Tag := 5
def rElem : Tag := 6
def rPtr : Tag := 7
def rSlice : Tag := 8
def rArg : Tag := 9
/-- The item that the iterator yields for byte `k`, and the argument of `MaybeUninit::write` -/
def rByte (k : Nat) : Tag := 10 + 2 * (255 - k)
def rSelf (k : Nat) : Tag := 11 + 2 * (255 - k)

/-- One turn of the loop: `next_back` and `byte.write(..)` for byte `k` (src/fmt.rs 24-27) -/
def radixTurn (k : Nat) : List Event :=
  [ref .unique rNext (rByte k) k 1 false, ref .unique (rByte k) (rSelf k) k 1 true, access .write (rSelf k) k 1, ret [rSelf k]]

/-- The loop of `GenericRadix::fmt_u256` (src/fmt.rs 24-33) -/
def radixLoop (c : Cfg) (r : Radix) (base : U256) : Nat → U256 → Buf → Res (Nat × Buf × List Event)
  | 0, _, buf => .ok (0, buf, [])
  | k + 1, x, buf => do
    let n ← x.rem c base
    let x ← x.div_assign c base
    let d ← r.digit c (n.as_u8 c)
    let buf := buf.set k (some d)
    if x.eq c U256.ZERO then return (k, buf, radixTurn k)
    else do
      let (curr, buf, es) ← radixLoop c r base k x buf
      return (curr, buf, radixTurn k ++ es)

/-- Lines 20 and 24: `buf.len()` and `buf.iter_mut()` -/
def radixHead : List Event :=
  [ref .shared owner rLen 0 256 false, ref .unique owner rIter 0 256 false, raw .unique rIter rNext 0 256]

/-- Lines 34-43: `&buf[curr..]`, `&buf[0] as *const _ as *const u8`, `slice::from_raw_parts` and `pad_integral`. The
reference to the element covers `w` bytes: one in the code. -/
def radixEnd (w curr : Nat) : List Event :=
  [ref .shared owner rBuf 0 256 false, ref .shared rBuf rTail curr (256 - curr) false,
   ref .shared rTail rElem curr w false, raw .shared rElem rPtr curr w,
   ref .shared rPtr rSlice curr (256 - curr) false,
   ref .shared rSlice rArg curr (256 - curr) true, access .read rArg curr (256 - curr), ret [rArg]]

/-- `GenericRadix::fmt_u256` (src/fmt.rs 15-44) -/
def radix_fmt_u256 (c : Cfg) (r : Radix) (x : U256) (is_nonnegative : Bool) (f : Formatter) :
    Res (List Char × List Event) := do
  let base := U256.from_prim c .u8 r.BASE
  let (curr, buf, es) ← radixLoop c r base 256 x (Buf.uninit 256)
  let buf := buf.drop curr
  if buf.isEmpty then throwPanic .indexOutOfBounds
  else do
    let s ← strUnchecked (← Buf.init buf)
    return (f.pad_integral is_nonnegative r.PREFIX s, radixHead ++ (es ++ radixEnd 1 curr))

/-! ### src/serde.rs, `FormatBuffer<N>` -/

/-- Tags of `FormatBuffer`: the writer that `write!` passes on, `&self` of `as_str`, `&self.buffer[0]`, the pointer from
it, the slice, and the argument of `serialize_str`. -/
def fWriter : Tag := 1
def fRead : Tag := 2
def fElem : Tag := 3
def fPtr : Tag := 4
def fSlice : Tag := 5
def fArg : Tag := 6
/-- `&mut self`, `&mut self.buffer[0]` and the pointer from it, in the call of `write_str` number `k` -/
def fSelf (k : Nat) : Tag := 10 + 3 * k
def fMut (k : Nat) : Tag := 11 + 3 * k
def fMutPtr (k : Nat) : Tag := 12 + 3 * k

/-- `write_str` (src/serde.rs 701-721), call number `k`; `self.buffer[0].as_mut_ptr().add(self.offset)` -/
def write_str (c : Cfg) (k : Nat) (f : Serde.FormatBuffer) (s : List U8) : Res (Option Serde.FormatBuffer × List Event) := do
  let r ← f.write_str c s
  return (r, match r with
    | none => [ref .unique fWriter (fSelf k) 0 f.buffer.length true, ret [fSelf k]]
    | some _ => [ref .unique fWriter (fSelf k) 0 f.buffer.length true, ref .unique (fSelf k) (fMut k) 0 1 false,
        raw .unique (fMut k) (fMutPtr k) 0 1, access .write (fMutPtr k) f.offset s.length, ret [fSelf k]])

/-- The writes of one `write!`, in order; the first error ends it. -/
def write_all (c : Cfg) : Nat → Serde.FormatBuffer → List (List U8) → Res (Option Serde.FormatBuffer × List Event)
  | _, f, [] => return (some f, [])
  | k, f, s :: l => do
    match ← write_str c k f s with
    | (none, es) => return (none, es)
    | (some f, es) =>
      let (r, es') ← write_all c (k + 1) f l
      return (r, es ++ es')

/-- `as_str` (src/serde.rs 674-681), and `serialize_str` which reads it: `slice::from_raw_parts(self.buffer[0].as_ptr(),
self.offset)` -/
def as_str (f : Serde.FormatBuffer) : Res (List U8 × List Event) := do
  let s ← f.as_str
  return (s, [ref .shared owner fRead 0 f.buffer.length true, ref .shared fRead fElem 0 1 false, raw .shared fElem fPtr 0 1,
    ref .shared fPtr fSlice 0 f.offset false, ret [fRead], ref .shared fSlice fArg 0 f.offset true,
    access .read fArg 0 f.offset, ret [fArg]])

/-- `write!(f, ...).expect(...)` on a new buffer of `N` bytes, then `serializer.serialize_str(f.as_str())` -/
def serialize_text (c : Cfg) (k : Serde.Chunking) (N : Nat) (text : List Char) : Res (Serde.Datum × List Event) := do
  match ← write_all c 0 (Serde.FormatBuffer.new N) (k.split (text.map (fun ch => BitVec.ofNat 8 ch.toNat))) with
  | (none, _) => throwPanic .explicit
  | (some f, es) =>
    let (s, es') ← as_str f
    return (.str s, ref .unique owner fWriter 0 N false :: (es ++ es'))

end Ethnum.Borrow
