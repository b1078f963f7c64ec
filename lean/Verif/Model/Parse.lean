import Verif.Model.UintApi
import Verif.Model.IntApi
import Verif.Model.Convert

/-
Parsing: src/parse.rs, src/macros/parse.rs, src/uint/parse.rs, src/int/parse.rs.

A `&str` is given by its bytes. The functions are defined, and the theorems hold, for every list of bytes, including
those that are not UTF-8.
-/

namespace Ethnum

/-- `core::num::IntErrorKind`, the variants the crate uses. -/
inductive IntErrorKind where
  | empty | invalidDigit | posOverflow | negOverflow
  deriving DecidableEq, Repr

/-- `Result<T, ParseIntError>`; `pie(kind)` (src/error.rs 9-12) is `.error kind`. -/
abbrev ParseResult (T : Type) := Except IntErrorKind T

instance {α : Type} [DecidableEq α] : DecidableEq (ParseResult α) := fun a b =>
  match a, b with
  | .ok x, .ok y => if h : x = y then isTrue (by rw [h]) else isFalse (by simp [h])
  | .error x, .error y => if h : x = y then isTrue (by rw [h]) else isFalse (by simp [h])
  | .ok _, .error _ => isFalse (by simp)
  | .error _, .ok _ => isFalse (by simp)

/-- The bytes of an ASCII string literal. -/
def str (s : String) : List U8 := s.toList.map (fun ch => BitVec.ofNat 8 ch.toNat)

/-- `(b as char).to_digit(radix)` of the standard library, for `radix ≤ 36`: decimal digits, then letters of either
case from ten on. -/
def toDigit (b : U8) (radix : Nat) : Option Nat :=
  let n := b.toNat
  let d :=
    if 48 ≤ n ∧ n ≤ 57 then some (n - 48)
    else if 97 ≤ n ∧ n ≤ 122 then some (n - 97 + 10)
    else if 65 ≤ n ∧ n ≤ 90 then some (n - 65 + 10)
    else none
  match d with
  | some d => if d < radix then some d else none
  | none => none

/-- `FromStrRadixHelper` (src/parse.rs 15-23) with its supertraits -/
structure RadixHelper (T : Type) where
  MIN : T
  gt : T → T → Bool
  add : T → T → Res T
  sub : T → T → Res T
  mul : T → T → Res T
  from_u32 : U32 → T
  checked_mul : T → U32 → Res (Option T)
  checked_sub : T → U32 → Option T
  checked_add : T → U32 → Option T

/-- `can_not_overflow` (src/parse.rs 25-28); `mem::size_of::<T>()` is 32 for both types -/
def can_not_overflow (radix : U32) (is_signed_ty : Bool) (digits : List U8) : Bool :=
  decide (radix.toNat ≤ 16) && decide (digits.length ≤ 32 * 2 - is_signed_ty.toNat)

/-- `run_unchecked_loop!` (src/parse.rs 86-94) -/
def uncheckedLoop {T : Type} (h : RadixHelper T) (op : T → T → Res T) (radix : U32) : List U8 → T → Res (ParseResult T)
  | [], result => .ok (.ok result)
  | b :: l, result => do
    let result ← h.mul result (h.from_u32 radix)
    match toDigit b radix.toNat with
    | none => return .error .invalidDigit
    | some x => do
      let result ← op result (h.from_u32 (u32 x))
      uncheckedLoop h op radix l result

/-- `run_checked_loop!` (src/parse.rs 101-120) -/
def checkedLoop {T : Type} (h : RadixHelper T) (op : T → U32 → Option T) (err : IntErrorKind) (radix : U32) :
    List U8 → T → Res (ParseResult T)
  | [], result => .ok (.ok result)
  | b :: l, result => do
    let mul ← h.checked_mul result radix
    match toDigit b radix.toNat with
    | none => return .error .invalidDigit
    | some x =>
      match mul with
      | none => return .error err
      | some result =>
        match op result (u32 x) with
        | none => return .error err
        | some result => checkedLoop h op err radix l result

/-- `slice::strip_prefix` -/
def stripPrefix (pfx l : List U8) : Option (List U8) :=
  if l.take pfx.length = pfx then some (l.drop pfx.length) else none

/-- The `match prefix` (src/parse.rs 65-70); `none` is the early return. -/
def prefixDigits (pfx : Option (List U8)) (prefixed_digits : List U8) : Option (List U8) :=
  match pfx with
  | some p => stripPrefix p prefixed_digits
  | none => some prefixed_digits

/-- `from_str_radix` (src/parse.rs 30-128) -/
def from_str_radix {T : Type} (h : RadixHelper T) (src : List U8) (radix : U32) (pfx : Option (List U8)) :
    Res (ParseResult T) :=
  if ¬ (2 ≤ radix.toNat ∧ radix.toNat ≤ 36) then throwPanic .explicit
  else
  match src with
  | [] => return .error .empty
  | first :: rest =>
    let is_signed_ty := h.gt (h.from_u32 0) h.MIN
    -- the `match src[0]` of lines 56-63; `none` is the early return
    let sign : Option (Bool × List U8) :=
      if (first = 43 ∨ first = 45) ∧ rest = [] then none
      else if first = 43 then some (true, rest)
      else if first = 45 ∧ is_signed_ty = true then some (false, rest)
      else some (true, src)
    match sign with
    | none => return .error .invalidDigit
    | some (is_positive, prefixed_digits) =>
      match prefixDigits pfx prefixed_digits with
      | none => return .error .invalidDigit
      | some digits =>
        if digits.isEmpty then return .error .invalidDigit
        else
          let result := h.from_u32 0
          if can_not_overflow radix is_signed_ty digits then
            if is_positive then uncheckedLoop h h.add radix digits result
            else uncheckedLoop h h.sub radix digits result
          else
            if is_positive then checkedLoop h h.checked_add .posOverflow radix digits result
            else checkedLoop h h.checked_sub .negOverflow radix digits result

/-- `Result::or_else(|_| b)` -/
def orElse {T : Type} (a b : Res (ParseResult T)) : Res (ParseResult T) := do
  match ← a with
  | .ok v => return .ok v
  | .error _ => b

/-- `from_str_prefixed` (src/parse.rs 130-135) -/
def from_str_prefixed {T : Type} (h : RadixHelper T) (src : List U8) : Res (ParseResult T) :=
  orElse (orElse (orElse (from_str_radix h src 2 (some (str "0b"))) (from_str_radix h src 8 (some (str "0o"))))
    (from_str_radix h src 16 (some (str "0x")))) (from_str_radix h src 10 none)

/-! ### src/macros/parse.rs and the public methods -/

namespace U256
/-- `impl FromStrRadixHelper for U256` (src/macros/parse.rs 5-23) -/
def radixHelper (c : Cfg) : RadixHelper U256 where
  MIN := ZERO
  gt := gt c
  add := add c
  sub := sub c
  mul := mul c
  from_u32 := fun u => from_prim c .u32 u
  checked_mul := fun a u => checked_mul c a (from_prim c .u32 u)
  checked_sub := fun a u => checked_sub c a (from_prim c .u32 u)
  checked_add := fun a u => checked_add c a (from_prim c .u32 u)

/-- src/uint/api.rs 72-74 -/
def from_str_radix (c : Cfg) (src : List U8) (radix : U32) : Res (ParseResult U256) :=
  Ethnum.from_str_radix (radixHelper c) src radix none
/-- `FromStr` (src/macros/parse.rs 25-32) -/
def from_str (c : Cfg) (src : List U8) : Res (ParseResult U256) := Ethnum.from_str_radix (radixHelper c) src 10 none
/-- src/uint.rs 129-131 -/
def from_str_hex (c : Cfg) (src : List U8) : Res (ParseResult U256) :=
  Ethnum.from_str_radix (radixHelper c) src 16 (some (str "0x"))
/-- src/uint.rs 157-159 -/
def from_str_prefixed (c : Cfg) (src : List U8) : Res (ParseResult U256) := Ethnum.from_str_prefixed (radixHelper c) src
end U256

namespace I256
/-- `impl FromStrRadixHelper for I256` (src/macros/parse.rs 5-23) -/
def radixHelper (c : Cfg) : RadixHelper I256 where
  MIN := MIN c
  gt := gt c
  add := add c
  sub := sub c
  mul := mul c
  from_u32 := fun u => from_prim c .u32 u
  checked_mul := fun a u => checked_mul c a (from_prim c .u32 u)
  checked_sub := fun a u => checked_sub c a (from_prim c .u32 u)
  checked_add := fun a u => checked_add c a (from_prim c .u32 u)

/-- src/int/api.rs 75-77 -/
def from_str_radix (c : Cfg) (src : List U8) (radix : U32) : Res (ParseResult I256) :=
  Ethnum.from_str_radix (radixHelper c) src radix none
/-- `FromStr` (src/macros/parse.rs 25-32) -/
def from_str (c : Cfg) (src : List U8) : Res (ParseResult I256) := Ethnum.from_str_radix (radixHelper c) src 10 none
/-- src/int.rs 132-134 -/
def from_str_hex (c : Cfg) (src : List U8) : Res (ParseResult I256) :=
  Ethnum.from_str_radix (radixHelper c) src 16 (some (str "0x"))
/-- src/int.rs 160-162 -/
def from_str_prefixed (c : Cfg) (src : List U8) : Res (ParseResult I256) := Ethnum.from_str_prefixed (radixHelper c) src
end I256

/-! ### The const parser -/

namespace Const

/-- `check` (src/parse.rs 138-140) -/
def check (overflow : Bool) : Res Unit := if overflow then throwPanic .explicit else .ok ()

/-- `add` (src/parse.rs 142-150) -/
def add (c : Cfg) (a : U256) (b : U8) : Res U256 := do
  let (hi, lo) := a.into_words c
  let (lo, carry) := overflowingAdd lo (b.setWidth 128)
  let (hi, overflow) := overflowingAdd hi (ofBool 128 carry)
  check overflow
  return U256.from_words c hi lo

/-- `mul` (src/parse.rs 152-167) -/
def mul (c : Cfg) (a : U256) (r : U128) : Res U256 := do
  let (hi, lo) := a.into_words c
  let lh ← shrC c lo 64
  let ll := lo &&& BitVec.setWidth 128 (BitVec.allOnes 64)
  let ll ← mulC c ll r
  let lh ← mulC c lh r
  let (hi, overflow) := overflowingMul hi r
  check overflow
  let (lo, overflow) := overflowingAdd ll (← shlC c lh 64)
  check overflow
  let (hi, overflow) := overflowingAdd hi (← shrC c lh 64)
  check overflow
  return U256.from_words c hi lo

/-- `u8::is_ascii_whitespace` of the standard library -/
def isAsciiWhitespace (b : U8) : Bool := b = 9 || b = 10 || b = 12 || b = 13 || b = 32

/-- The digit `match` of the const parser (src/parse.rs 192-200) without the unreachable `_` arm; `none` is the
`panic!`. -/
def nextDigit (c : Cfg) (byte : U8) (radix : U128) : Res (Option U8) :=
  let n := byte.toNat
  if (48 ≤ n ∧ n ≤ 49) ∧ (radix = 2 ∨ radix = 8 ∨ radix = 10 ∨ radix = 16) then do return some (← subC c byte 48)
  else if (50 ≤ n ∧ n ≤ 55) ∧ (radix = 8 ∨ radix = 10 ∨ radix = 16) then do return some (← subC c byte 48)
  else if (56 ≤ n ∧ n ≤ 57) ∧ (radix = 10 ∨ radix = 16) then do return some (← subC c byte 48)
  else if (97 ≤ n ∧ n ≤ 102) ∧ radix = 16 then do return some (← addC c (← subC c byte 97) 10)
  else if (65 ≤ n ∧ n ≤ 70) ∧ radix = 16 then do return some (← addC c (← subC c byte 65) 10)
  else return none

/-- The loop of the const parser (src/parse.rs 184-202) -/
def loop (c : Cfg) (radix : U128) : List U8 → U256 → Res U256
  | [], value => .ok value
  | byte :: l, value =>
    if byte = 95 ∨ isAsciiWhitespace byte = true then loop c radix l value
    else do
      match ← nextDigit c byte radix with
      | none => throwPanic .explicit
      | some next => do
        let value ← add c (← mul c value radix) next
        loop c radix l value

/-- The radix and the offset of the digits (src/parse.rs 171-180), for the bytes from `start` on -/
def radixOf (l : List U8) : U128 × List U8 :=
  match l with
  | a :: b :: d :: rest =>
    if a = 48 ∧ b = 98 then (2, d :: rest)
    else if a = 48 ∧ b = 111 then (8, d :: rest)
    else if a = 48 ∧ b = 120 then (16, d :: rest)
    else (10, l)
  | _ => (10, l)

/-- `parse::const_from_str_prefixed` (src/parse.rs 137-205); the pair `bytes`, `start` is represented by the bytes
from `start` on -/
def from_str_prefixed (c : Cfg) (l : List U8) : Res U256 :=
  if l.isEmpty then throwPanic .explicit
  else
    let (radix, digits) := radixOf l
    loop c radix digits U256.ZERO

end Const

/-- src/uint/parse.rs 9-15, src/uint.rs 165-167 -/
def U256.const_from_str_prefixed (c : Cfg) (src : List U8) : Res U256 :=
  match src with
  | [] => throwPanic .explicit
  | first :: rest => Const.from_str_prefixed c (if first = 43 then rest else src)

/-- src/int/parse.rs 9-37, src/int.rs 168-170 -/
def I256.const_from_str_prefixed (c : Cfg) (src : List U8) : Res I256 :=
  match src with
  | [] => throwPanic .explicit
  | first :: rest => do
    let (negate, l) := if first = 43 then (false, rest) else if first = 45 then (true, rest) else (false, src)
    let uint ← Const.from_str_prefixed c l
    let (hi, lo) :=
      if negate then
        let (hi, lo) := uint.into_words c
        let (lo, carry) := overflowingAdd (~~~lo) 1
        (~~~hi + ofBool 128 carry, lo)
      else uint.into_words c
    let int := I256.from_words c hi lo
    let s := int.signum128 c
    if (negate = false ∧ s = -1) ∨ (negate = true ∧ s = 1) then throwPanic .explicit
    else return int

end Ethnum
