import Verif.SpecEvm
import Verif.SpecLimbs
import Verif.Model.Bytes
import Verif.Model.Convert

/-
Client code written against the API: the words of an Ethereum virtual machine as `U256`. Not in /repo; what it calls is.
-/

namespace Ethnum.Evm

/-- Client: the instructions with one operand.
`iszero`: `U256::from(a == U256::ZERO)`; `not`: `!a`; `clz`: `U256::from(a.leading_zeros())`. -/
def clientOp1 (c : Cfg) : Op1 → U256 → Res U256
  | .iszero, a => .ok (U256.of_bool c (a.eq c U256.ZERO))
  | .not, a => .ok a.not
  | .clz, a => do .ok (U256.from_prim c .u32 (← a.leading_zeros c))

/-- Client: the loop of `exp`, `k` rounds of
`if e & 1 == 1 { acc = acc.wrapping_mul(b) }; b = b.wrapping_mul(b); e >>= 1;`. -/
def expLoop (c : Cfg) : Nat → U256 → U256 → U256 → Res U256
  | 0, acc, _, _ => .ok acc
  | k + 1, acc, b, e => do
    let acc' ← if (e.bitand (U256.ONE c)).eq c (U256.ONE c) then acc.wrapping_mul c b else .ok acc
    let b' ← b.wrapping_mul c b
    let e' ← e.shrBy c (.prim .u32 1)
    expLoop c k acc' b' e'

/-- Client: the instructions with two operands.
* `div`, `mod`: `a.checked_div(b).unwrap_or(U256::ZERO)`, `checked_rem`;
* `sdiv`, `smod`: `if b == U256::ZERO { b } else { a.as_i256().wrapping_div(b.as_i256()).as_u256() }`, `wrapping_rem`;
* `signextend`: `if a < 31 { let n = 248 - 8 * a.as_u32(); ((b << n).as_i256() >> n).as_u256() } else { b }`;
* `byte`: `if a < 32 { U256::from(b.to_be_bytes()[a.as_usize()]) } else { U256::ZERO }`;
* `shl`, `shr`: `if a < 256 { b << a } else { U256::ZERO }`, `>>`;
* `sar`: `(if a < 256 { b.as_i256() >> a } else { b.as_i256() >> 255 }).as_u256()`. -/
def clientOp2 (c : Cfg) : Op2 → U256 → U256 → Res U256
  | .add, a, b => .ok (a.wrapping_add c b)
  | .mul, a, b => a.wrapping_mul c b
  | .sub, a, b => .ok (a.wrapping_sub c b)
  | .div, a, b => do .ok ((← a.checked_div c b).getD U256.ZERO)
  | .sdiv, a, b => if b.eq c U256.ZERO then .ok b else do .ok (← a.as_i256.wrapping_div c b.as_i256).as_u256
  | .mod, a, b => do .ok ((← a.checked_rem c b).getD U256.ZERO)
  | .smod, a, b => if b.eq c U256.ZERO then .ok b else do .ok (← a.as_i256.wrapping_rem c b.as_i256).as_u256
  | .exp, a, b => expLoop c 256 (U256.ONE c) a b
  | .signextend, a, b =>
    if a.lt_prim c 31 then do
      let n : BitVec 32 := 248 - 8 * a.as_u32 c
      let t ← b.shlBy c (.prim .u32 n)
      let t ← t.as_i256.shrBy c (.prim .u32 n)
      .ok t.as_u256
    else .ok b
  | .lt, a, b => .ok (U256.of_bool c (a.lt c b))
  | .gt, a, b => .ok (U256.of_bool c (a.gt c b))
  | .slt, a, b => .ok (U256.of_bool c (a.as_i256.lt c b.as_i256))
  | .sgt, a, b => .ok (U256.of_bool c (a.as_i256.gt c b.as_i256))
  | .eq, a, b => .ok (U256.of_bool c (a.eq c b))
  | .and, a, b => .ok (a.bitand b)
  | .or, a, b => .ok (a.bitor b)
  | .xor, a, b => .ok (a.bitxor b)
  | .byte, a, b =>
    .ok (if a.lt_prim c 32 then U256.from_prim c .u8 ((b.to_be_bytes c).getD (a.as_prim c .usize).toNat 0) else U256.ZERO)
  | .shl, a, b => if a.lt_prim c 256 then b.shlBy c (.u256 a) else .ok U256.ZERO
  | .shr, a, b => if a.lt_prim c 256 then b.shrBy c (.u256 a) else .ok U256.ZERO
  | .sar, a, b => do
    let t ← if a.lt_prim c 256 then b.as_i256.shrBy c (.u256 a) else b.as_i256.shrBy c (.prim .u32 255)
    .ok t.as_u256

/-- Client: `if n == U256::ZERO { n } else { add_mod(n, a % n, b % n) }` and the same with `mul_mod`, with the functions
of `SpecLimbs`. -/
def clientOp3 (c : Cfg) : Op3 → U256 → U256 → U256 → Res U256
  | .addmod, a, b, n => if n.eq c U256.ZERO then .ok n else do
      let a ← a.rem c n
      let b ← b.rem c n
      .ok (Limbs.addMod c n a b)
  | .mulmod, a, b, n => if n.eq c U256.ZERO then .ok n else Limbs.mulMod c n a b

/-- Client: the words of an interpreter in Rust. `from_be_bytes`, `to_be_bytes`, `i.as_u256()` on a `usize`,
`usize::try_from(a).ok()`, `a == U256::ZERO` and `==`. -/
def client (c : Cfg) : Words U256 where
  op1 := clientOp1 c
  op2 := clientOp2 c
  op3 := clientOp3 c
  ofBytes := U256.from_be_bytes c
  toBytes := U256.to_be_bytes c
  ofIndex n := U256.of_prim_as c .usize (BitVec.ofNat _ n)
  toIndex a := (a.prim_try_from c .usize).map BitVec.toNat
  isZero a := a.eq c U256.ZERO
  same a b := a.eq c b

/-! ### What the theorems say -/

/-- A storage of words that holds the given numbers. -/
def Holds (c : Cfg) (σ : U256 → U256) (τ : Nat → Nat) : Prop := ∀ k, (σ k).toNat c = τ (k.toNat c)

/-- How a call on the client must end, given how it ends in the specification. -/
def SameOutcome (c : Cfg) : Res (Outcome U256) → Res (Outcome Nat) → Prop
  | .ok (.ended d σ), .ok (.ended d' τ) => d = d' ∧ Holds c σ τ
  | .ok (.reverted d), .ok (.reverted d') => d = d'
  | .ok .failed, .ok .failed => True
  | .error .diverge, .error .diverge => True
  | _, _ => False

/-- A contract: the factorial, modulo `2^256`, of the word in its call data. -/
def factorialCode : List (BitVec 8) :=
  [0x60, 0x00, 0x35, 0x60, 0x01, 0x5b, 0x81, 0x15, 0x60, 0x16, 0x57, 0x81, 0x02, 0x90, 0x60, 0x01, 0x90, 0x03, 0x90,
   0x60, 0x05, 0x56, 0x5b, 0x60, 0x00, 0x52, 0x60, 0x20, 0x60, 0x00, 0xf3]

/-- The data that a call gives back. -/
def Outcome.data {w : Type} : Outcome w → Option (List (BitVec 8))
  | .ended d _ => some d
  | .reverted d => some d
  | .failed => none

end Ethnum.Evm
