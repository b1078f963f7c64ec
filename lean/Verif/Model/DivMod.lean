import Verif.Model.Intrinsics

/-
Division intrinsics: src/intrinsics/native/divmod.rs.

A `NonZeroU128` is represented by its `u128`; `new_unchecked` of zero is undefined behaviour.
-/

namespace Ethnum
namespace Intr

/-- `NonZeroU128::new_unchecked(x)` -/
def nonZeroUnchecked (x : U128) : Res U128 := if x = 0 then throwUB .nonZeroZero else .ok x

/-- `shl_nz`, src/intrinsics/native/divmod.rs 20-25 -/
def shl_nz (c : Cfg) (x : U128) (n : U32) : Res U128 := do
  debugAssert c (decide (n < 128))
  let res ← shlC c x n
  debugAssert c (decide (res ≠ 0))
  nonZeroUnchecked res

/-- `shr_nz`, src/intrinsics/native/divmod.rs 28-33 -/
def shr_nz (c : Cfg) (x : U128) (n : U32) : Res U128 := do
  debugAssert c (decide (n < 128))
  let res ← shrC c x n
  debugAssert c (decide (res ≠ 0))
  nonZeroUnchecked res

/-- `const B: u128 = 1 << 64`, src/intrinsics/native/divmod.rs 35 -/
def B : U128 := 1 <<< 64

/-- `0xFFFF_FFFF_FFFF_FFFF`, src/intrinsics/native/divmod.rs 58, 62 -/
def MASK64 : U128 := 0xFFFFFFFFFFFFFFFF

/-- The loop condition of src/intrinsics/native/divmod.rs 69 and 87:
`q >= B || q * vn0 > B * rhat + un` (the right disjunct is evaluated only if the left is false). -/
def corrTest (c : Cfg) (q rhat vn0 un : U128) : Res Bool :=
  if B ≤ q then return true
  else do
    let l ← mulC c q vn0
    let r ← addC c (← mulC c B rhat) un
    return decide (r < l)

/-- The correction loops of src/intrinsics/native/divmod.rs 69-75 and 87-93; `fuel` bounds the
number of evaluations of the loop condition. Returns the corrected quotient digit. -/
def corrLoop (c : Cfg) (vn1 vn0 un : U128) : Nat → U128 → U128 → Res U128
  | 0, _, _ => .error .diverge
  | fuel + 1, q, rhat => do
    if (← corrTest c q rhat vn0 un) then
      let q ← subC c q 1
      let rhat ← addC c rhat vn1
      if B ≤ rhat then return q
      else corrLoop c vn1 vn0 un fuel q rhat
    else return q

/-- Normalisation, src/intrinsics/native/divmod.rs 45-54: shifts the divisor and the dividend left
by `s`; returns (`v`, `un128`, `un10`). -/
def normalize (c : Cfg) (u1 u0 v : U128) (s : U32) : Res (U128 × U128 × U128) :=
  if s > 0 then do
    let v ← shl_nz c v s
    let un128 := (← shlC c u1 s) ||| (← shrC c u0 (← subC c 128 s))
    let un10 ← shlC c u0 s
    return (v, un128, un10)
  else return (v, u1, u0)

/-- One quotient digit, src/intrinsics/native/divmod.rs 65-75 (`un128`, `un1` ↦ `q1`) and 83-93
(`un21`, `un0` ↦ `q0`). Dividing by a `NonZeroU128` cannot panic. -/
def quotDigit (c : Cfg) (un un' vn1 vn0 : U128) : Res U128 := do
  let q := un / vn1
  let rhat ← subC c un (← mulC c q vn1)
  corrLoop c vn1 vn0 un' 3 q rhat

/-- src/intrinsics/native/divmod.rs 16-101; returns (quotient, remainder written to `*r`).
The `v` argument is a `NonZeroU128`, so `v.leading_zeros()` is that of a non-zero word. -/
def udiv256_by_128_to_128 (c : Cfg) (u1 u0 v : U128) : Res (U128 × U128) := do
  debugAssert c (decide (u1 < v))
  let s := u32 (leadingZeros v)
  debugAssert c (decide (s ≠ 128))
  let (v, un128, un10) ← normalize c u1 u0 v s
  let vn1 ← shr_nz c v 64
  let vn0 := v &&& MASK64
  let un1 := un10 >>> 64
  let un0 := un10 &&& MASK64
  let q1 ← quotDigit c un128 un1 vn1 vn0
  let un21 := un128 * B + un1 - q1 * v
  let q0 ← quotDigit c un21 un0 vn1 vn0
  let r ← shrC c (un21 * B + un0 - q0 * v) s
  let q ← addC c (← mulC c q1 B) q0
  return (q, r)

/-- `full_shl`, src/intrinsics/native/divmod.rs 204-214; `[u128; 3]` as a triple (u[0], u[1], u[2]) -/
def full_shl (c : Cfg) (a : U256) (shift : U32) : Res (U128 × U128 × U128) := do
  debugAssert c (decide (shift < 128))
  let u_lo ← shlC c (a.low c) shift
  let u_hi ← a.shr c (← subC c 128 shift)
  return (u_lo, u_hi.low c, u_hi.high c)

/-- `full_shr`, src/intrinsics/native/divmod.rs 217-230 -/
def full_shr (c : Cfg) (u : U128 × U128 × U128) (shift : U32) : Res U256 := do
  debugAssert c (decide (shift < 128))
  let res := U256.ZERO
  let res := res.set_low c (← shrC c u.1 shift)
  let res := res.set_high c (← shrC c u.2.1 shift)
  if shift > 0 then
    let sh ← subC c 128 shift
    let res := res.set_low c (res.low c ||| (← shlC c u.2.1 sh))
    let res := res.set_high c (res.high c ||| (← shlC c u.2.2 sh))
    return res
  else return res

/-- `split_u128_to_u128`, src/intrinsics/native/divmod.rs 234-236: (lo, hi) -/
def split_u128_to_u128 (a : U128) : U128 × U128 := (a &&& MASK64, a >>> 64)

/-- `fullmul_u128`, src/intrinsics/native/divmod.rs 240-258: (lo, hi) -/
def fullmul_u128 (c : Cfg) (a b : U128) : Res (U128 × U128) := do
  let (a0, a1) := split_u128_to_u128 a
  let (b0, b1) := split_u128_to_u128 b
  let t ← mulC c a0 b0
  let (w3, k) := split_u128_to_u128 t
  let t ← addC c (← mulC c a1 b0) k
  let (w1, w2) := split_u128_to_u128 t
  let t ← addC c (← mulC c a0 b1) w1
  let k := t >>> 64
  let w_hi ← addC c (← addC c (← mulC c a1 b1) w2) k
  let w_lo ← addC c (t <<< 64) w3
  return (w_lo, w_hi)

/-- `fullmul_u256_u128`, src/intrinsics/native/divmod.rs 261-276 -/
def fullmul_u256_u128 (c : Cfg) (a : U256) (b : U128) : Res (U128 × U128 × U128) := do
  if b ≠ 0 then
    let (lo, carry) ← fullmul_u128 c (a.low c) b
    let acc0 := lo
    let acc1 := carry
    let (lo, carry) ← fullmul_u128 c (a.high c) b
    let (acc1, cc) := overflowingAdd acc1 lo
    let acc2 ← addC c carry (ofBool 128 cc)
    return (acc0, acc1, acc2)
  else return (0, 0, 0)

/-- `add_carry`, src/intrinsics/native/divmod.rs 279-284 -/
def add_carry (a b : U128) (cin : Bool) : U128 × Bool :=
  let (res1, overflow1) := overflowingAdd b (ofBool 128 cin)
  let (res2, overflow2) := overflowingAdd a res1
  (res2, overflow1 || overflow2)

/-- `sub_carry`, src/intrinsics/native/divmod.rs 287-292 -/
def sub_carry (a b : U128) (cin : Bool) : U128 × Bool :=
  let (res1, overflow1) := overflowingAdd b (ofBool 128 cin)
  let (res2, overflow2) := overflowingSub a res1
  (res2, overflow1 || overflow2)

/-- The quotient-estimate correction `loop` of src/intrinsics/native/divmod.rs 336-351; `fuel`
bounds the number of entries of the loop body. Returns `q_hat`. -/
def knuthLoop (c : Cfg) (v_n_1 v_n_2 u0 : U128) : Nat → U128 → U128 → Res U128
  | 0, _, _ => .error .diverge
  | fuel + 1, q_hat, r_hat => do
    let (lo, hi) ← fullmul_u128 c q_hat v_n_2
    let another_iteration := decide (r_hat < hi) || (decide (hi = r_hat) && decide (u0 < lo))
    if !another_iteration then return q_hat
    else
      let q_hat ← subC c q_hat 1
      let (r_hat, overflow) := overflowingAdd r_hat v_n_1
      if overflow then return q_hat
      else knuthLoop c v_n_1 v_n_2 u0 fuel q_hat r_hat

/-- The quotient estimate, src/intrinsics/native/divmod.rs 318-356. -/
def knuthQhat (c : Cfg) (u0 u1 u2 v_n_1 v_n_2 : U128) : Res U128 :=
  if u2 < v_n_1 then do
    let (q_hat, r_hat) ← udiv256_by_128_to_128 c u2 u1 (← nonZeroUnchecked v_n_1)
    knuthLoop c v_n_1 v_n_2 u0 3 q_hat r_hat
  else return BitVec.allOnes 128

/-- Multiply-subtract and add-back, src/intrinsics/native/divmod.rs 365-382; returns the final
`q_hat` and `u[0..3]`. -/
def knuthSub (c : Cfg) (u0 u1 u2 : U128) (v : U256) (q_hat : U128) :
    Res (U128 × U128 × U128 × U128) := do
  let q_hat_v ← fullmul_u256_u128 c v q_hat
  let (u0, cc) := sub_carry u0 q_hat_v.1 false
  let (u1, cc) := sub_carry u1 q_hat_v.2.1 cc
  let (u2, cc) := sub_carry u2 q_hat_v.2.2 cc
  if cc then
    let q_hat ← subC c q_hat 1
    let (u0, cc) := add_carry u0 (v.low c) false
    let (u1, cc) := add_carry u1 (v.high c) cc
    let u2 := u2 + ofBool 128 cc
    return (q_hat, u0, u1, u2)
  else return (q_hat, u0, u1, u2)

/-- src/intrinsics/native/divmod.rs 309-315: a non-normalised divisor is unreachable. -/
def knuthCheck (c : Cfg) (v_n_1 : U128) : Res Unit :=
  if v_n_1 >>> 127 ≠ 1 then do
    debugAssert c false
    throwUB .unreachable
  else return ()

/-- src/intrinsics/native/divmod.rs 192-391: (quotient, remainder) -/
def div_mod_knuth (c : Cfg) (u v : U256) : Res (U256 × U256) := do
  debugAssert c (decide (u.high c ≠ 0))
  unreachableIf (decide (u.high c = 0))
  -- D1.
  let shift := u32 (leadingZeros (v.high c))
  debugAssert c (decide (shift < 128))
  let v ← v.shl c shift
  let u ← full_shl c u shift
  let q := U256.ZERO
  let v_n_1 := v.high c
  let v_n_2 := v.low c
  knuthCheck c v_n_1
  -- D2. D7. D3.
  let q_hat ← knuthQhat c u.1 u.2.1 u.2.2 v_n_1 v_n_2
  -- D4. D6.
  let (q_hat, u) ← knuthSub c u.1 u.2.1 u.2.2 v q_hat
  -- D5.
  let q := q.set_low c q_hat
  -- D8.
  let remainder ← full_shr c u shift
  return (q, remainder)

/-- The path for a divisor that fits in 128 bits, src/intrinsics/native/divmod.rs 145-171:
(quotient, remainder). -/
def udivmodNarrow (c : Cfg) (dividend divisor : U256) : Res (U256 × U256) := do
  let remainder := U256.ZERO
  if dividend.high c < divisor.low c then
    let (q, r) ← udiv256_by_128_to_128 c (dividend.high c) (dividend.low c)
      (← nonZeroUnchecked (divisor.low c))
    return (U256.from_words c 0 q, remainder.set_low c r)
  else
    let qh ← divC (dividend.high c) (divisor.low c)
    let rh ← remC (dividend.high c) (divisor.low c)
    let (q, r) ← udiv256_by_128_to_128 c rh (dividend.low c)
      (← nonZeroUnchecked (divisor.low c))
    return (U256.from_words c qh q, remainder.set_low c r)

/-- src/intrinsics/native/divmod.rs 104-186: (`res`, `rem`). The remainder is computed only when
the caller passes `Some(rem)`; with `None` only the quotient is. `a.low() % b.low()` (line 126) is
the only operation that this skips; it comes after `a.low() / b.low()` with the same divisor. -/
def udivmod4 (c : Cfg) (a b : U256) (wantRem : Bool) : Res (U256 × Option U256) := do
  if a.high c ||| b.high c = 0 then
    let q ← divC (a.low c) (b.low c)
    if wantRem then
      let r ← remC (a.low c) (b.low c)
      return (U256.from_words c 0 q, some (U256.from_words c 0 r))
    else return (U256.from_words c 0 q, none)
  else
    let dividend := a
    let divisor := b
    if divisor.gt c dividend then
      return (U256.ZERO, if wantRem then some dividend else none)
    else if divisor.high c = 0 then
      let (quotient, remainder) ← udivmodNarrow c dividend divisor
      return (quotient, if wantRem then some remainder else none)
    else
      let (quotient, remainder) ← div_mod_knuth c dividend divisor
      return (quotient, if wantRem then some remainder else none)

/-- Reading an out-parameter that the callee was asked to write: `assume_init`. -/
def assumeInit {α : Type} : Option α → Res α
  | some x => .ok x
  | none => throwUB .uninit

/-- src/intrinsics/native/divmod.rs 394-400 -/
def udiv2 (c : Cfg) (r a : U256) : Res U256 := do
  let (q, _) ← udivmod4 c r a false
  return q

/-- src/intrinsics/native/divmod.rs 403-405 -/
def udiv3 (c : Cfg) (a b : U256) : Res U256 := do
  let (q, _) ← udivmod4 c a b false
  return q

/-- src/intrinsics/native/divmod.rs 408-415 -/
def urem2 (c : Cfg) (r a : U256) : Res U256 := do
  let (_, rem) ← udivmod4 c r a true
  assumeInit rem

/-- src/intrinsics/native/divmod.rs 418-421 -/
def urem3 (c : Cfg) (a b : U256) : Res U256 := do
  let (_, rem) ← udivmod4 c a b true
  assumeInit rem

/-- src/intrinsics/native/divmod.rs 423-449 -/
def idivmod4 (c : Cfg) (a b : I256) (wantRem : Bool) : Res (I256 × Option I256) := do
  let s_a ← a.shr c 255
  let s_b ← b.shr c 255
  let a := (a.bitxor s_a).wrapping_sub c s_a
  let b := (b.bitxor s_b).wrapping_sub c s_b
  let s_b := s_b.bitxor s_a
  let (q, rem) ← udivmod4 c a.as_u256 b.as_u256 wantRem
  let q := q.as_i256
  let q := (q.bitxor s_b).wrapping_sub c s_b
  if wantRem then
    let r := (← assumeInit rem).as_i256
    return (q, some ((r.bitxor s_a).wrapping_sub c s_a))
  else return (q, none)

/-- src/intrinsics/native/divmod.rs 452-458 -/
def idiv2 (c : Cfg) (r a : I256) : Res I256 := do
  let (q, _) ← idivmod4 c r a false
  return q

/-- src/intrinsics/native/divmod.rs 461-463 -/
def idiv3 (c : Cfg) (a b : I256) : Res I256 := do
  let (q, _) ← idivmod4 c a b false
  return q

/-- src/intrinsics/native/divmod.rs 466-473 -/
def irem2 (c : Cfg) (r a : I256) : Res I256 := do
  let (_, rem) ← idivmod4 c r a true
  assumeInit rem

/-- src/intrinsics/native/divmod.rs 476-479 -/
def irem3 (c : Cfg) (a b : I256) : Res I256 := do
  let (_, rem) ← idivmod4 c a b true
  assumeInit rem

end Intr
end Ethnum
