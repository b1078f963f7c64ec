import Verif.Model.Fmt
import Verif.Model.Parse
import Verif.Model.Bytes
import Verif.Model.Float

/-
Serialization: src/serde.rs.

A `Serializer` is represented by the one call the crate makes on it, a `Deserializer` by the one call it makes on the
crate's `Visitor`. The default methods of serde's `Visitor` trait are part of the trusted base and defined here.
-/

namespace Ethnum
namespace Serde

/-! ### `serde` -/

/-- The call made on the serializer: `serialize_str` or `serialize_bytes`. A string is given by its bytes. -/
inductive Datum where
  | str (s : List U8)
  | bytes (b : List U8)
  deriving DecidableEq, Repr

/-- The errors a deserialization returns: `de::Error::custom` of a parse error or of one of the messages of
src/serde.rs 270-273, 285-288 and 296-299, `invalid_length`, `invalid_value`, `invalid_type`, or an error of the
input's own. -/
inductive DeErr where
  | parse (k : IntErrorKind)
  | floatRange | fraction
  | invalidLength (n : Nat)
  | invalidValue
  | invalidType
  | input
  deriving DecidableEq, Repr

/-- The `Result` of a deserialization. -/
abbrev Outcome (T : Type) := Except DeErr T

instance {α : Type} [DecidableEq α] : DecidableEq (Except DeErr α) := fun a b =>
  match a, b with
  | .ok x, .ok y => if h : x = y then isTrue (by rw [h]) else isFalse (by simp [h])
  | .error x, .error y => if h : x = y then isTrue (by rw [h]) else isFalse (by simp [h])
  | .ok _, .error _ => isFalse (by simp)
  | .error _, .ok _ => isFalse (by simp)

/-- Return an error from a deserialization. -/
def fail {T : Type} (e : DeErr) : Res (Outcome T) := .ok (.error e)
/-- Return a value from a deserialization. -/
def done {T : Type} (x : T) : Res (Outcome T) := .ok (.ok x)

/-- The call a deserializer makes on the visitor it is given. `str` stands for `visit_str`, `visit_borrowed_str`,
`visit_string` and `visit_char`, which all end in `visit_str`, and `bytes` likewise. A sequence is its `size_hint` and
the results of its `next_element::<u8>()`, where `none` is a failure, followed by the end of the sequence for ever.
`other` is any other call (`visit_bool`, `visit_unit`, `visit_map`, ...). -/
inductive Input where
  | i8 (v : BitVec 8) | i16 (v : BitVec 16) | i32 (v : BitVec 32) | i64 (v : BitVec 64) | i128 (v : BitVec 128)
  | u8 (v : BitVec 8) | u16 (v : BitVec 16) | u32 (v : BitVec 32) | u64 (v : BitVec 64) | u128 (v : BitVec 128)
  | f32 (v : FloatTy.f32.Val) | f64 (v : FloatTy.f64.Val)
  | str (s : List U8)
  | bytes (v : List U8)
  | seq (hint : Option Nat) (elems : List (Option U8))
  | other
  deriving DecidableEq, Repr

/-- The methods a visitor may override. -/
structure Visitor (T : Type) where
  visit_i64 : Option (BitVec 64 → Res (Outcome T)) := none
  visit_u64 : Option (BitVec 64 → Res (Outcome T)) := none
  visit_i128 : Option (BitVec 128 → Res (Outcome T)) := none
  visit_u128 : Option (BitVec 128 → Res (Outcome T)) := none
  visit_f32 : Option (FloatTy.f32.Val → Res (Outcome T)) := none
  visit_f64 : Option (FloatTy.f64.Val → Res (Outcome T)) := none
  visit_str : Option (List U8 → Res (Outcome T)) := none
  visit_bytes : Option (List U8 → Res (Outcome T)) := none
  visit_seq : Option (Option Nat → List (Option U8) → Res (Outcome T)) := none

/-- A method that was not overridden reports `invalid_type`. -/
def orInvalidType {A T : Type} (m : Option (A → Res (Outcome T))) (a : A) : Res (Outcome T) :=
  match m with
  | some f => f a
  | none => fail .invalidType

/-- The call on the visitor, through serde's default methods: the narrow integers are widened to 64 bits, `f32`
becomes `f64`, and everything else without an override is rejected. -/
def Visitor.call {T : Type} (v : Visitor T) : Input → Res (Outcome T)
  | .i8 x => orInvalidType v.visit_i64 (x.signExtend 64)
  | .i16 x => orInvalidType v.visit_i64 (x.signExtend 64)
  | .i32 x => orInvalidType v.visit_i64 (x.signExtend 64)
  | .i64 x => orInvalidType v.visit_i64 x
  | .i128 x => orInvalidType v.visit_i128 x
  | .u8 x => orInvalidType v.visit_u64 (x.setWidth 64)
  | .u16 x => orInvalidType v.visit_u64 (x.setWidth 64)
  | .u32 x => orInvalidType v.visit_u64 (x.setWidth 64)
  | .u64 x => orInvalidType v.visit_u64 x
  | .u128 x => orInvalidType v.visit_u128 x
  | .f32 x => match v.visit_f32 with
    | some f => f x
    | none => orInvalidType v.visit_f64 (FloatTy.f32.convert .f64 x)
  | .f64 x => orInvalidType v.visit_f64 x
  | .str s => orInvalidType v.visit_str s
  | .bytes b => orInvalidType v.visit_bytes b
  | .seq h l => match v.visit_seq with
    | some f => f h l
    | none => fail .invalidType
  | .other => fail .invalidType

/-! ### `core::str::from_utf8` -/

/-- A continuation byte. -/
def isCont (b : U8) : Bool := decide (0x80 ≤ b.toNat) && decide (b.toNat ≤ 0xbf)

/-- The bytes `b0 b1` may begin a character of three bytes (Unicode 15, table 3-7). -/
def start3 (b0 b1 : U8) : Bool :=
  (decide (b0.toNat = 0xe0) && decide (0xa0 ≤ b1.toNat) && decide (b1.toNat ≤ 0xbf))
  || (decide (0xe1 ≤ b0.toNat) && decide (b0.toNat ≤ 0xec) && isCont b1)
  || (decide (b0.toNat = 0xed) && decide (0x80 ≤ b1.toNat) && decide (b1.toNat ≤ 0x9f))
  || (decide (0xee ≤ b0.toNat) && decide (b0.toNat ≤ 0xef) && isCont b1)

/-- The bytes `b0 b1` may begin a character of four bytes (Unicode 15, table 3-7). -/
def start4 (b0 b1 : U8) : Bool :=
  (decide (b0.toNat = 0xf0) && decide (0x90 ≤ b1.toNat) && decide (b1.toNat ≤ 0xbf))
  || (decide (0xf1 ≤ b0.toNat) && decide (b0.toNat ≤ 0xf3) && isCont b1)
  || (decide (b0.toNat = 0xf4) && decide (0x80 ≤ b1.toNat) && decide (b1.toNat ≤ 0x8f))

/-- The bytes are well-formed UTF-8 (Unicode 15, table 3-7): whether `str::from_utf8` returns `Ok`. -/
def utf8Valid : List U8 → Bool
  | [] => true
  | b0 :: l =>
    if b0.toNat < 0x80 then utf8Valid l
    else match l with
    | [] => false
    | b1 :: l1 =>
      if 0xc2 ≤ b0.toNat ∧ b0.toNat ≤ 0xdf then isCont b1 && utf8Valid l1
      else match l1 with
      | [] => false
      | b2 :: l2 =>
        if start3 b0 b1 then isCont b2 && utf8Valid l2
        else match l2 with
        | [] => false
        | b3 :: l3 => start4 b0 b1 && isCont b2 && isCont b3 && utf8Valid l3

/-! ### `FormatBuffer` (src/serde.rs 655-722) -/

/-- `FormatBuffer<N>` (src/serde.rs 659-662); `N` is the length of the buffer -/
structure FormatBuffer where
  offset : Nat
  buffer : Buf

/-- `FormatBuffer::new` (src/serde.rs 666-671) -/
def FormatBuffer.new (N : Nat) : FormatBuffer := ⟨0, Buf.uninit N⟩

/-- `ptr::copy_nonoverlapping(s.as_ptr(), buffer.add(offset), s.len())`: one write per byte. -/
def copyBytes : Buf → Nat → List U8 → Res Buf
  | buf, _, [] => .ok buf
  | buf, i, b :: l => do
    let buf ← buf.write i b
    copyBytes buf (i + 1) l

/-- `write_str` (src/serde.rs 701-721); `none` is `Err(fmt::Error)`. `self.buffer[0]` panics for `N = 0`. -/
def FormatBuffer.write_str (c : Cfg) (f : FormatBuffer) (s : List U8) : Res (Option FormatBuffer) :=
  let end_ := f.offset + s.length
  if 2 ^ c.ptr.bits ≤ end_ then return none
  else if f.buffer.length < end_ then return none
  else if f.buffer.length = 0 then throwPanic .indexOutOfBounds
  else do
    let buffer ← copyBytes f.buffer f.offset s
    return some ⟨end_, buffer⟩

/-- The writes of one `write!`, in order; the first error ends it. -/
def FormatBuffer.write_all (c : Cfg) (f : FormatBuffer) : List (List U8) → Res (Option FormatBuffer)
  | [] => return some f
  | s :: l => do
    match ← f.write_str c s with
    | none => return none
    | some f => f.write_all c l

/-- `as_str` (src/serde.rs 674-681): the slice must be within the buffer, initialised and UTF-8. What the
pointer taken from `self.buffer[0]` may be used for is in Model/Borrows.lean. -/
def FormatBuffer.as_str (f : FormatBuffer) : Res (List U8) :=
  if f.buffer.length = 0 then throwPanic .indexOutOfBounds
  else if f.buffer.length < f.offset then throwUB .outOfBounds
  else do
    let s ← Buf.init (f.buffer.take f.offset)
    if utf8Valid s then return s else throwUB .notUtf8

/-- How the formatting machinery cuts a text into calls of `write_str` (`pad_integral` writes the sign, the prefix and
the digits one after the other). The theorems hold for every way of cutting. -/
structure Chunking where
  split : List U8 → List (List U8)
  join : ∀ s, (split s).flatten = s

/-- One call for the whole text. -/
def Chunking.whole : Chunking := ⟨fun s => [s], fun s => by simp⟩
/-- One call for each byte. -/
def Chunking.bytewise : Chunking := ⟨fun s => s.map (fun b => [b]), fun s => by
  induction s with
  | nil => rfl
  | cons b l ih => rw [List.map_cons, List.flatten_cons, ih]; rfl⟩

/-- `write!(f, ...).expect(...)` on a new buffer of `N` bytes, then `serializer.serialize_str(f.as_str())`. The text is
ASCII: a character is a byte. -/
def serialize_text (c : Cfg) (k : Chunking) (N : Nat) (text : List Char) : Res Datum := do
  match ← (FormatBuffer.new N).write_all c (k.split (text.map (fun ch => BitVec.ofNat 8 ch.toNat))) with
  | none => throwPanic .explicit
  | some f =>
    let s ← f.as_str
    return .str s

/-! ### `FormatVisitor` (src/serde.rs 625-653) -/

/-- `visit_str` (src/serde.rs 638-643) -/
def format_visit_str {T : Type} (parse : List U8 → Res (ParseResult T)) (v : List U8) : Res (Outcome T) := do
  match ← parse v with
  | .ok x => done x
  | .error k => fail (.parse k)

/-- `FormatVisitor(parse)`, with `visit_bytes` (src/serde.rs 645-652) -/
def FormatVisitor {T : Type} (parse : List U8 → Res (ParseResult T)) : Visitor T where
  visit_str := some (format_visit_str parse)
  visit_bytes := some fun v => if utf8Valid v then format_visit_str parse v else fail .invalidValue

/-! ### `permissive` (src/serde.rs 188-321) -/

/-- `-N` for the constants `N` of src/serde.rs 268 and 283; `(1_u64 << e) as _` is `ofInt` -/
def fneg (t : FloatTy) (x : t.Val) : t.Val := t.make (!t.neg x) (t.mag x)

/-- `(-N..N).contains(&v)` -/
def inRange (t : FloatTy) (N v : t.Val) : Bool := t.ge v (fneg t N) && t.lt v N

/-- `visit_f64` (src/serde.rs 279-303) -/
def permissive_f64 (c : Cfg) {T : Type} (cast : I256 → T) (v : FloatTy.f64.Val) : Res (Outcome T) :=
  if !inRange .f64 (FloatTy.f64.ofInt (2 ^ 53)) v then fail .floatRange
  else
    let i : BitVec 64 := BitVec.ofInt 64 (FloatTy.f64.toSigned 64 v)
    if !FloatTy.f64.eq (FloatTy.f64.ofInt i.toInt) v then fail .fraction
    else done (cast (I256.of_prim_as c .i64 i))

/-- `PermissiveVisitor` (src/serde.rs 224-311); `cast` is `Permissive::cast` -/
def PermissiveVisitor (c : Cfg) {T : Type} (cast : I256 → T) (from_str_prefixed : List U8 → Res (ParseResult T)) :
    Visitor T where
  visit_i64 := some fun v => done (cast (I256.of_prim_as c .i64 v))
  visit_u64 := some fun v => done (cast (I256.of_prim_as c .u64 v))
  visit_i128 := some fun v => done (cast (I256.of_prim_as c .i128 v))
  visit_u128 := some fun v => done (cast (I256.of_prim_as c .u128 v))
  visit_f32 := some fun v =>
    if !inRange .f32 (FloatTy.f32.ofInt (2 ^ 24)) v then fail .floatRange
    else permissive_f64 c cast (FloatTy.f32.convert .f64 v)
  visit_f64 := some (permissive_f64 c cast)
  visit_str := some (format_visit_str from_str_prefixed)

/-! ### `bytes` (src/serde.rs 324-460) -/

/-- `Bytes` (src/serde.rs 339-342) -/
structure Bytes (T : Type) where
  to_bytes : T → List U8
  from_bytes : List U8 → T

/-- `bytes[i].write(b)` on an array: an index outside it panics. -/
def storeAt (buf : Buf) (i : Nat) (b : U8) : Res Buf :=
  if i < buf.length then .ok (buf.set i (some b)) else throwPanic .indexOutOfBounds

/-- `seq.next_element::<u8>()?.is_some()` -/
def hasNext : List (Option U8) → Except DeErr Bool
  | [] => .ok false
  | none :: _ => .error .input
  | some _ :: _ => .ok true

/-- `for i in 0..32 { bytes[i].write(seq.next_element()?.ok_or(invalid_length(i))?) }` (src/serde.rs 409-414): `n`
rounds, the first with index `i`. Returns the array and the rest of the sequence. -/
def readExactly : (n i : Nat) → Buf → List (Option U8) → Res (Outcome (Buf × List (Option U8)))
  | 0, _, buf, l => done (buf, l)
  | n + 1, i, buf, l =>
    match l with
    | [] => fail (.invalidLength i)
    | none :: _ => fail .input
    | some b :: l => do
      let buf ← storeAt buf i b
      readExactly n (i + 1) buf l

/-- The size hint that ends `visit_seq` (src/serde.rs 401-406): `Some(len) if len != 32` -/
def hintNot32 : Option Nat → Option Nat
  | some len => if len ≠ 32 then some len else none
  | none => none

/-- `visit_seq` (src/serde.rs 397-423) -/
def bytes_visit_seq {T : Type} (m : Bytes T) (hint : Option Nat) (seq : List (Option U8)) : Res (Outcome T) :=
  match hintNot32 hint with
  | some len => fail (.invalidLength len)
  | none => do
    match ← readExactly 32 0 (Buf.uninit 32) seq with
    | .error e => fail e
    | .ok (buf, rest) =>
      match hasNext rest with
      | .error e => fail e
      | .ok true => fail (.invalidLength 33)
      | .ok false =>
        let bytes ← buf.init
        done (m.from_bytes bytes)

/-- `BytesVisitor` (src/serde.rs 374-424) -/
def BytesVisitor {T : Type} (m : Bytes T) : Visitor T where
  visit_bytes := some fun v => if v.length = 32 then done (m.from_bytes v) else fail (.invalidLength v.length)
  visit_seq := some (bytes_visit_seq m)

/-! ### `compressed_bytes` (src/serde.rs 463-621) -/

/-- `CompressedBytes` (src/serde.rs 467-470) -/
structure CompressedBytes (T : Type) where
  leading_bits : T → Res U32
  extend : U8 → U8

/-- `a - b` on `usize`. -/
def usizeSub (c : Cfg) (a b : Nat) : Res Nat :=
  if a < b then (if c.overflowChecks then throwPanic .subOverflow else .ok (a + 2 ^ c.ptr.bits - b)) else .ok (a - b)

/-- The two sets of slices of `endianness!` (src/serde.rs 597 and 605). -/
inductive Order where
  | le | be
  deriving DecidableEq, Repr

/-- `..e` of an array. -/
def sliceTo {α : Type} (l : List α) (e : Nat) : Res (List α) :=
  if e ≤ l.length then .ok (l.take e) else throwPanic .indexOutOfBounds
/-- `s..` of an array. -/
def sliceFrom {α : Type} (l : List α) (s : Nat) : Res (List α) :=
  if s ≤ l.length then .ok (l.drop s) else throwPanic .indexOutOfBounds

/-- `&bytes[index]` in `serialize`, with `index` the first slice of the macro -/
def keep (c : Cfg) (o : Order) (bytes : List U8) (l : Nat) : Res (List U8) :=
  match o with
  | .le => do sliceTo bytes (← usizeSub c 32 l)
  | .be => sliceFrom bytes l

/-- `bytes[index].copy_from_slice(v)` in `visit_bytes`, with `index` the second slice of the macro; panics unless the
lengths agree -/
def place (c : Cfg) (o : Order) (bytes v : List U8) : Res (List U8) :=
  match o with
  | .le => do
    let dst ← sliceTo bytes v.length
    if dst.length = v.length then return v ++ bytes.drop v.length else throwPanic .explicit
  | .be => do
    let start ← usizeSub c 32 v.length
    let dst ← sliceFrom bytes start
    if dst.length = v.length then return bytes.take start ++ v else throwPanic .explicit

/-- `serialize` (src/serde.rs 510-519) -/
def serialize_compressed (c : Cfg) {T : Type} (o : Order) (m : Bytes T) (k : CompressedBytes T) (value : T) : Res Datum := do
  let bytes := m.to_bytes value
  let l := (← k.leading_bits value).toNat / 8
  let s ← keep c o bytes l
  return .bytes s

/-- `visit_bytes` (src/serde.rs 533-548) -/
def compressed_visit_bytes (c : Cfg) {T : Type} (o : Order) (m : Bytes T) (k : CompressedBytes T) (v : List U8) : Res (Outcome T) :=
  if 32 < v.length then fail (.invalidLength v.length)
  else do
    let extend := k.extend (v.getLast?.getD 0)
    let bytes ← place c o (List.replicate 32 extend) v
    done (m.from_bytes bytes)

/-- `while i < 32 { ... }` (src/serde.rs 561-568). Returns the array, `i` and the rest of the sequence. -/
def readUpTo (i : Nat) (buf : Buf) (l : List (Option U8)) : Res (Outcome (Buf × Nat × List (Option U8))) :=
  if i < 32 then
    match l with
    | [] => done (buf, i, [])
    | none :: _ => fail .input
    | some b :: l => do
      let buf ← storeAt buf i b
      readUpTo (i + 1) buf l
  else done (buf, i, l)
termination_by structural l

/-- The size hint that ends `visit_seq` (src/serde.rs 554-557): `Some(len) if len > 32` -/
def hintOver32 : Option Nat → Option Nat
  | some len => if 32 < len then some len else none
  | none => none

/-- `visit_seq` (src/serde.rs 550-578) -/
def compressed_visit_seq (c : Cfg) {T : Type} (o : Order) (m : Bytes T) (k : CompressedBytes T) (hint : Option Nat)
    (seq : List (Option U8)) : Res (Outcome T) :=
  match hintOver32 hint with
  | some len => fail (.invalidLength len)
  | none => do
    match ← readUpTo 0 (Buf.uninit 32) seq with
    | .error e => fail e
    | .ok (buf, i, rest) =>
      match (if i = 32 then hasNext rest else .ok false) with
      | .error e => fail e
      | .ok true => fail (.invalidLength 33)
      | .ok false =>
        let part ← sliceTo buf i
        let bytes ← Buf.init part
        compressed_visit_bytes c o m k bytes

/-- `CompressedBytesVisitor` (src/serde.rs 521-579) -/
def CompressedBytesVisitor (c : Cfg) {T : Type} (o : Order) (m : Bytes T) (k : CompressedBytes T) : Visitor T where
  visit_bytes := some (compressed_visit_bytes c o m k)
  visit_seq := some (compressed_visit_seq c o m k)

/-- The order that `bytes::ne` and `compressed_bytes::ne` stand for (src/serde.rs 451-459, 612-620) -/
def Order.native (c : Cfg) : Order := if c.bigEndian then .be else .le

/-- `{:-#x}` -/
def minusHexSpec : Formatter := ⟨6, none, ' ', none⟩
/-- `{:#x}` -/
def hexSpec : Formatter := ⟨4, none, ' ', none⟩

end Serde

open Serde

namespace U256
variable (c : Cfg)

/-- `Serialize` (src/serde.rs 58-67); `prefixed::serialize` and `permissive::serialize` (165-171, 216-222) call it -/
def serialize (k : Chunking) (x : U256) : Res Datum := do serialize_text c k 67 (← x.fmtRadix c .lowerHex hexSpec)
/-- `Deserialize` (src/serde.rs 78-85) -/
def deserialize : Input → Res (Outcome U256) := (FormatVisitor (from_str_hex c)).call
/-- `decimal::serialize` (src/serde.rs 112-114, 118-126) -/
def serialize_decimal (k : Chunking) (x : U256) : Res Datum := do serialize_text c k 78 (← x.display c .default)
/-- `decimal::deserialize` (src/serde.rs 109-111, 129-135) -/
def deserialize_decimal : Input → Res (Outcome U256) := (FormatVisitor (fun s => from_str_radix c s 10)).call
/-- `prefixed::deserialize` (src/serde.rs 158-162, 174-180) -/
def deserialize_prefixed : Input → Res (Outcome U256) := (FormatVisitor (from_str_prefixed c)).call
/-- `permissive::deserialize` (src/serde.rs 209-213, 314-320) -/
def deserialize_permissive : Input → Res (Outcome U256) := (PermissiveVisitor c I256.as_u256 (from_str_prefixed c)).call
/-- `Bytes` of `bytes::le` and `bytes::be` (src/serde.rs 354-362) -/
def bytesOf : Order → Bytes U256
  | .le => ⟨to_le_bytes c, from_le_bytes c⟩
  | .be => ⟨to_be_bytes c, from_be_bytes c⟩
/-- `CompressedBytes` (src/serde.rs 485-493) -/
def compressedOf : CompressedBytes U256 := ⟨leading_zeros c, fun _ => 0⟩
/-- `bytes::le::serialize` and `bytes::be::serialize` (src/serde.rs 365-372) -/
def serialize_bytes (o : Order) (x : U256) : Res Datum := .ok (.bytes ((bytesOf c o).to_bytes x))
/-- `bytes::le::deserialize` and `bytes::be::deserialize` (src/serde.rs 427-433) -/
def deserialize_bytes (o : Order) : Input → Res (Outcome U256) := (BytesVisitor (bytesOf c o)).call
/-- `compressed_bytes::le::serialize` and `compressed_bytes::be::serialize` (src/serde.rs 510-519) -/
def serialize_compressed (o : Order) (x : U256) : Res Datum := Serde.serialize_compressed c o (bytesOf c o) (compressedOf c) x
/-- `compressed_bytes::le::deserialize` and `compressed_bytes::be::deserialize` (src/serde.rs 582-588) -/
def deserialize_compressed (o : Order) : Input → Res (Outcome U256) := (CompressedBytesVisitor c o (bytesOf c o) (compressedOf c)).call

end U256

namespace I256
variable (c : Cfg)

/-- `Serialize` (src/serde.rs 47-56); `prefixed::serialize` and `permissive::serialize` (165-171, 216-222) call it -/
def serialize (k : Chunking) (x : I256) : Res Datum := do serialize_text c k 67 (← x.fmtRadix c .lowerHex minusHexSpec)
/-- `Deserialize` (src/serde.rs 69-76) -/
def deserialize : Input → Res (Outcome I256) := (FormatVisitor (from_str_hex c)).call
/-- `decimal::serialize` (src/serde.rs 103-105, 118-126) -/
def serialize_decimal (k : Chunking) (x : I256) : Res Datum := do serialize_text c k 78 (← x.display c .default)
/-- `decimal::deserialize` (src/serde.rs 100-102, 129-135) -/
def deserialize_decimal : Input → Res (Outcome I256) := (FormatVisitor (fun s => from_str_radix c s 10)).call
/-- `prefixed::deserialize` (src/serde.rs 152-156, 174-180) -/
def deserialize_prefixed : Input → Res (Outcome I256) := (FormatVisitor (from_str_prefixed c)).call
/-- `permissive::deserialize` (src/serde.rs 203-207, 314-320) -/
def deserialize_permissive : Input → Res (Outcome I256) := (PermissiveVisitor c id (from_str_prefixed c)).call
/-- `Bytes` of `bytes::le` and `bytes::be` (src/serde.rs 344-352) -/
def bytesOf : Order → Bytes I256
  | .le => ⟨to_le_bytes c, from_le_bytes c⟩
  | .be => ⟨to_be_bytes c, from_be_bytes c⟩
/-- `CompressedBytes::leading_bits` (src/serde.rs 473-478) -/
def leading_bits (x : I256) : Res U32 :=
  if x.is_negative c then do subC c (← x.leading_ones c) 1 else x.leading_zeros c
/-- `CompressedBytes` (src/serde.rs 472-483); `((msb as i8) >> 7) as _` -/
def compressedOf : CompressedBytes I256 := ⟨leading_bits c, fun msb => msb.sshiftRight 7⟩
/-- `bytes::le::serialize` and `bytes::be::serialize` (src/serde.rs 365-372) -/
def serialize_bytes (o : Order) (x : I256) : Res Datum := .ok (.bytes ((bytesOf c o).to_bytes x))
/-- `bytes::le::deserialize` and `bytes::be::deserialize` (src/serde.rs 427-433) -/
def deserialize_bytes (o : Order) : Input → Res (Outcome I256) := (BytesVisitor (bytesOf c o)).call
/-- `compressed_bytes::le::serialize` and `compressed_bytes::be::serialize` (src/serde.rs 510-519) -/
def serialize_compressed (o : Order) (x : I256) : Res Datum := Serde.serialize_compressed c o (bytesOf c o) (compressedOf c) x
/-- `compressed_bytes::le::deserialize` and `compressed_bytes::be::deserialize` (src/serde.rs 582-588) -/
def deserialize_compressed (o : Order) : Input → Res (Outcome I256) := (CompressedBytesVisitor c o (bytesOf c o) (compressedOf c)).call

end I256
end Ethnum
