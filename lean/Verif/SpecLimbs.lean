import Verif.Spec
import Verif.Model.UintApi
import Verif.Model.Convert
import Verif.Model.Ops

/-
Specification: numbers of any length, and client code that computes with them. `limbs128` and `limbs256` say which
number a list of digits in base `2^128` or `2^256` denotes, least significant first, without the model. The other
functions are client code written against the API: the textbook algorithms that use `U256` as the double word of
`u128`, or as the digit itself, and the modular addition and multiplication of the Ethereum virtual machine.
They are not in /repo; what they call is.
-/

namespace Ethnum.Limbs

/-- The number that digits in base `2^128` denote, least significant first. -/
def limbs128 : List (BitVec 128) → Nat
  | [] => 0
  | x :: xs => x.toNat + 2 ^ 128 * limbs128 xs

/-- The number that digits in base `2^256` denote, least significant first. -/
def limbs256 (c : Cfg) : List U256 → Nat
  | [] => 0
  | x :: xs => x.toNat c + 2 ^ 256 * limbs256 c xs

/-! ### `U256` as the digit -/

/-- Client: the carry chain. `let (s, c1) = x.overflowing_add(*y); let (s, c2) = s.overflowing_add(U256::from(carry));`
`carry = c1 || c2`, digit by digit. -/
def addLimbs (c : Cfg) (carry : Bool) : List U256 → List U256 → List U256 × Bool
  | x :: xs, y :: ys =>
    let (s, c1) := x.overflowing_add c y
    let (s, c2) := s.overflowing_add c (U256.of_bool c carry)
    let (zs, out) := addLimbs c (c1 || c2) xs ys
    (s :: zs, out)
  | _, _ => ([], carry)

/-- Client: the borrow chain, with `overflowing_sub`. -/
def subLimbs (c : Cfg) (borrow : Bool) : List U256 → List U256 → List U256 × Bool
  | x :: xs, y :: ys =>
    let (s, b1) := x.overflowing_sub c y
    let (s, b2) := s.overflowing_sub c (U256.of_bool c borrow)
    let (zs, out) := subLimbs c (b1 || b2) xs ys
    (s :: zs, out)
  | _, _ => ([], borrow)

/-- Client: `let y = (x << n) | carry; carry = x >> (256 - n);`, digit by digit. -/
def shlLimbs (c : Cfg) (n : BitVec 32) (carry : U256) : List U256 → Res (List U256 × U256)
  | [] => .ok ([], carry)
  | x :: xs => do
    let hi ← x.shlBy c (.prim .u32 n)
    let out ← x.shrBy c (.prim .u32 (256 - n : BitVec 32))
    let (ys, last) ← shlLimbs c n out xs
    .ok (hi.bitor carry :: ys, last)

/-! ### `U256` as the double word of `u128` -/

/-- Client: `U256::from(a) * U256::from(b) + U256::from(p) + U256::from(q)`, split with `into_words`. -/
def mulAdd (c : Cfg) (a b p q : BitVec 128) : Res (BitVec 128 × BitVec 128) := do
  let t ← (U256.from_prim c .u128 a).mul c (U256.from_prim c .u128 b)
  let t ← t.add c (U256.from_prim c .u128 p)
  let t ← t.add c (U256.from_prim c .u128 q)
  .ok (t.into_words c)

/-- Client: one row of the schoolbook product, `acc + m * xs + carry`, digit by digit. What is carried out of the last
digit of `acc` is dropped. -/
def mulRow (c : Cfg) (m : BitVec 128) (carry : BitVec 128) : List (BitVec 128) → List (BitVec 128) → Res (List (BitVec 128))
  | [], _ => .ok []
  | a :: acc, [] => do
    let (hi, lo) ← mulAdd c 0 m a carry
    let zs ← mulRow c m hi acc []
    .ok (lo :: zs)
  | a :: acc, x :: xs => do
    let (hi, lo) ← mulAdd c x m a carry
    let zs ← mulRow c m hi acc xs
    .ok (lo :: zs)

/-- Client: the schoolbook product. -/
def mulLimbs (c : Cfg) (xs : List (BitVec 128)) : List (BitVec 128) → Res (List (BitVec 128))
  | [] => .ok (xs.map fun _ => 0)
  | y :: ys => do
    let rest ← mulLimbs c xs ys
    mulRow c y 0 (0 :: rest) xs

/-- Client: division by one digit, from the most significant digit down:
`let (q, r) = U256::from_words(r, x).div_rem(U256::from(d));`, keeping the low words. -/
def divLimb (c : Cfg) (d : BitVec 128) : List (BitVec 128) → Res (List (BitVec 128) × BitVec 128)
  | [] => .ok ([], 0)
  | x :: xs => do
    let (qs, r) ← divLimb c d xs
    let (q, r) ← (U256.from_words c r x).div_rem c (U256.from_prim c .u128 d)
    .ok (q.low c :: qs, r.low c)

/-! ### Modular arithmetic -/

/-- Client: `a + b` modulo `m` for `a`, `b` below `m`:
`let (s, o) = a.overflowing_add(b); if o || s >= m { s.wrapping_sub(m) } else { s }`. -/
def addMod (c : Cfg) (m a b : U256) : U256 :=
  let (s, o) := a.overflowing_add c b
  if o || s.ge c m then s.wrapping_sub c m else s

/-- Client: the loop of `mulMod`, `k` rounds of
`if b & 1 == 1 { acc = add_mod(acc, a) }; a = add_mod(a, a); b >>= 1;`. -/
def mulModLoop (c : Cfg) (m : U256) : Nat → U256 → U256 → U256 → Res U256
  | 0, acc, _, _ => .ok acc
  | k + 1, acc, a, b => do
    let acc' := if (b.bitand (U256.ONE c)).eq c (U256.ONE c) then addMod c m acc a else acc
    let b' ← b.shrBy c (.prim .u32 1)
    mulModLoop c m k acc' (addMod c m a a) b'

/-- Client: `a * b` modulo `m`, whatever the sizes: 256 rounds of double and add, on `a % m`. -/
def mulMod (c : Cfg) (m a b : U256) : Res U256 := do
  let a ← a.rem c m
  mulModLoop c m 256 U256.ZERO a b

/-- Client: the loop of `powMod`, `k` rounds of square and multiply with `mulMod`. -/
def powModLoop (c : Cfg) (m : U256) : Nat → U256 → U256 → U256 → Res U256
  | 0, acc, _, _ => .ok acc
  | k + 1, acc, b, e => do
    let acc' ← if (e.bitand (U256.ONE c)).eq c (U256.ONE c) then mulMod c m acc b else .ok acc
    let b' ← mulMod c m b b
    let e' ← e.shrBy c (.prim .u32 1)
    powModLoop c m k acc' b' e'

/-- Client: `b ^ e` modulo `m`. -/
def powMod (c : Cfg) (m b e : U256) : Res U256 := do
  let one ← (U256.ONE c).rem c m
  powModLoop c m 256 one b e

/-! ### Full-precision multiplication and division -/

/-- Client: the 512-bit product as high and low word, from the product modulo `2^256 - 1` and modulo `2^256`. -/
def fullMul (c : Cfg) (a b : U256) : Res (U256 × U256) := do
  let mm ← mulMod c U256.MAX a b
  let lo ← a.wrapping_mul c b
  let hi := mm.wrapping_sub c lo
  .ok (if mm.lt c lo then hi.wrapping_sub c (U256.ONE c) else hi, lo)

/-- Client: `x = x.wrapping_mul(U256::new(2).wrapping_sub(d.wrapping_mul(x)))`, `k` times. -/
def newton (c : Cfg) (d : U256) : Nat → U256 → Res U256
  | 0, x => .ok x
  | k + 1, x => do
    let p ← d.wrapping_mul c x
    newton c d k (← x.wrapping_mul c ((U256.new c 2).wrapping_sub c p))

/-- Client: the inverse of an odd number modulo `2^256`: six rounds of Newton's iteration from `(3 * d) ^ 2`, which is
right in its last four bits. -/
def inverse (c : Cfg) (d : U256) : Res U256 := do
  let s ← (U256.new c 3).wrapping_mul c d
  newton c d 6 (s.bitxor (U256.new c 2))

/-- Client: `a * b / d` rounded down, if it is a `U256`, without ever holding the product in one word: the remainder is
subtracted from the product, the powers of two are cancelled and the exact quotient is a product with the inverse. This is
`FullMath.mulDiv` of Uniswap's contracts. -/
def mulDiv (c : Cfg) (a b d : U256) : Res (Option U256) := do
  let (hi, lo) ← fullMul c a b
  if d.le c hi then .ok none else
  let r ← mulMod c d a b
  let hi := if r.gt c lo then hi.wrapping_sub c (U256.ONE c) else hi
  let lo := lo.wrapping_sub c r
  let t ← d.trailing_zeros c
  let odd ← d.shrBy c (.prim .u32 t)
  let inv ← inverse c odd
  if t = 0 then .ok (some (← lo.wrapping_mul c inv)) else
  let l ← lo.shrBy c (.prim .u32 t)
  let h ← hi.shlBy c (.prim .u32 (256 - t : BitVec 32))
  .ok (some (← (l.bitor h).wrapping_mul c inv))

/-- Client: the same rounded up. -/
def mulDivUp (c : Cfg) (a b d : U256) : Res (Option U256) := do
  match ← mulDiv c a b d with
  | none => .ok none
  | some q =>
    let r ← mulMod c d a b
    .ok (if r.eq c U256.ZERO then some q else q.checked_add c (U256.ONE c))

end Ethnum.Limbs
