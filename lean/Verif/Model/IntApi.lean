import Verif.Model.UintApi

/-
`impl I256`: src/int/api.rs and the division methods of src/int.rs.
-/

namespace Ethnum
namespace I256

open U256 (checkedOf)

/-- src/int/api.rs 95-98 -/
def count_ones (c : Cfg) (x : I256) : Res U32 := addC c (u32 (countOnes x.w0)) (u32 (countOnes x.w1))
/-- src/int/api.rs 111-114 -/
def count_zeros (c : Cfg) (x : I256) : Res U32 := addC c (u32 (countZeros x.w0)) (u32 (countZeros x.w1))
/-- src/int/api.rs 130-132 -/
def leading_zeros (c : Cfg) (x : I256) : Res U32 := Intr.ictlz c x
/-- src/int/api.rs 148-150 -/
def trailing_zeros (c : Cfg) (x : I256) : Res U32 := Intr.icttz c x
/-- src/int/api.rs 166-168 -/
def leading_ones (c : Cfg) (x : I256) : Res U32 := leading_zeros c (not x)
/-- src/int/api.rs 184-186 -/
def trailing_ones (c : Cfg) (x : I256) : Res U32 := trailing_zeros c (not x)
/-- src/int/api.rs 210-214 -/
def rotate_left (c : Cfg) (x : I256) (n : U32) : Res I256 := Intr.irol3 c x n
/-- src/int/api.rs 239-243 -/
def rotate_right (c : Cfg) (x : I256) (n : U32) : Res I256 := Intr.iror3 c x n
/-- src/int/api.rs 267-270 -/
def swap_bytes (x : I256) : I256 := ⟨swapBytes128 x.w1, swapBytes128 x.w0⟩
/-- src/int/api.rs 297-300 -/
def reverse_bits (x : I256) : I256 := ⟨x.w1.reverse, x.w0.reverse⟩
/-- src/int/api.rs 321-330 -/
def from_be (c : Cfg) (x : I256) : I256 := if c.bigEndian then x else x.swap_bytes
/-- src/int/api.rs 351-360 -/
def from_le (c : Cfg) (x : I256) : I256 := if !c.bigEndian then x else x.swap_bytes
/-- src/int/api.rs 381-391 -/
def to_be (c : Cfg) (x : I256) : I256 := if c.bigEndian then x else x.swap_bytes
/-- src/int/api.rs 412-421 -/
def to_le (c : Cfg) (x : I256) : I256 := if !c.bigEndian then x else x.swap_bytes

/-- `i128::signum` as a bit pattern -/
def signum_i128 (x : U128) : U128 := if x.toInt < 0 then -1 else if x = 0 then 0 else 1
/-- src/int/api.rs 2011-2014: `hi.signum() | (lo != 0) as i128` -/
def signum128 (c : Cfg) (x : I256) : U128 :=
  signum_i128 (x.into_words c).1 ||| ofBool 128 (decide ((x.into_words c).2 ≠ 0))
/-- src/int/api.rs 1990-1992 -/
def signum (c : Cfg) (x : I256) : I256 := new c (signum128 c x)
/-- src/int/api.rs 2029-2031 -/
def is_positive (c : Cfg) (x : I256) : Bool := decide (0 < (signum128 c x).toInt)
/-- src/int/api.rs 2046-2049 -/
def is_negative (c : Cfg) (x : I256) : Bool := decide ((x.into_words c).1.toInt < 0)

/-- src/int/api.rs 1405-1409 -/
def overflowing_add (c : Cfg) (a b : I256) : I256 × Bool := Intr.iaddc c a b
/-- src/int/api.rs 1011-1015 -/
def wrapping_add (c : Cfg) (a b : I256) : I256 := Intr.iadd3 c a b
/-- src/int/api.rs 438-445 -/
def checked_add (c : Cfg) (a b : I256) : Option I256 := checkedOf (overflowing_add c a b)
/-- src/int/api.rs 785-796 -/
def saturating_add (c : Cfg) (a b : I256) : I256 :=
  match checked_add c a b with
  | some x => x
  | none => if b.gt_prim c 0 then MAX c else MIN c

/-- src/int/api.rs 1454-1458 -/
def overflowing_sub (c : Cfg) (a b : I256) : I256 × Bool := Intr.isubc c a b
/-- src/int/api.rs 486-493 -/
def checked_sub (c : Cfg) (a b : I256) : Option I256 := checkedOf (overflowing_sub c a b)
/-- src/int/api.rs 837-848 -/
def saturating_sub (c : Cfg) (a b : I256) : I256 :=
  match checked_sub c a b with
  | some x => x
  | none => if b.gt_prim c 0 then MIN c else MAX c

/-- src/int/api.rs 1430-1434 -/
def overflowing_add_unsigned (c : Cfg) (a : I256) (b : U256) : I256 × Bool :=
  let rhs := b.as_i256
  let (res, overflowed) := overflowing_add c a rhs
  (res, overflowed ^^ rhs.lt_prim c 0)
/-- src/int/api.rs 462-469 -/
def checked_add_unsigned (c : Cfg) (a : I256) (b : U256) : Option I256 :=
  checkedOf (overflowing_add_unsigned c a b)
/-- src/int/api.rs 813-819 -/
def saturating_add_unsigned (c : Cfg) (a : I256) (b : U256) : I256 :=
  match checked_add_unsigned c a b with
  | some x => x
  | none => MAX c
/-- src/int/api.rs 1032-1034 -/
def wrapping_add_unsigned (c : Cfg) (a : I256) (b : U256) : I256 := wrapping_add c a b.as_i256
/-- src/int/api.rs 1479-1483 -/
def overflowing_sub_unsigned (c : Cfg) (a : I256) (b : U256) : I256 × Bool :=
  let rhs := b.as_i256
  let (res, overflowed) := overflowing_sub c a rhs
  (res, overflowed ^^ rhs.lt_prim c 0)
/-- src/int/api.rs 510-517 -/
def checked_sub_unsigned (c : Cfg) (a : I256) (b : U256) : Option I256 :=
  checkedOf (overflowing_sub_unsigned c a b)
/-- src/int/api.rs 865-871 -/
def saturating_sub_unsigned (c : Cfg) (a : I256) (b : U256) : I256 :=
  match checked_sub_unsigned c a b with
  | some x => x
  | none => MIN c
/-- src/int/api.rs 1072-1074 -/
def wrapping_sub_unsigned (c : Cfg) (a : I256) (b : U256) : I256 := wrapping_sub c a b.as_i256

/-- src/int/api.rs 1688-1694 -/
def overflowing_neg (c : Cfg) (a : I256) : Res (I256 × Bool) :=
  if a.eq c (MIN c) then return (MIN c, true) else return (← neg c a, false)
/-- src/int/api.rs 655-662 -/
def checked_neg (c : Cfg) (a : I256) : Res (Option I256) := return checkedOf (← overflowing_neg c a)
/-- src/int/api.rs 888-890 -/
def saturating_neg (c : Cfg) (a : I256) : I256 := saturating_sub c ZERO a
/-- src/int/api.rs 1227-1229 -/
def wrapping_neg (c : Cfg) (a : I256) : I256 := wrapping_sub c ZERO a

/-- src/int/api.rs 725-731 -/
def checked_abs (c : Cfg) (a : I256) : Res (Option I256) :=
  if is_negative c a then checked_neg c a else return some a
/-- src/int/api.rs 907-913 -/
def saturating_abs (c : Cfg) (a : I256) : I256 := if is_negative c a then saturating_neg c a else a
/-- src/int/api.rs 1316-1322 -/
def wrapping_abs (c : Cfg) (a : I256) : I256 := if is_negative c a then wrapping_neg c a else a
/-- src/int/api.rs 1345-1347 -/
def unsigned_abs (c : Cfg) (a : I256) : U256 := (wrapping_abs c a).as_u256
/-- src/int/api.rs 1762-1764 -/
def overflowing_abs (c : Cfg) (a : I256) : I256 × Bool := (wrapping_abs c a, a.eq c (MIN c))
/-- src/int/api.rs 1965-1971 -/
def abs (c : Cfg) (a : I256) : Res I256 := if is_negative c a then neg c a else return a

/-- src/int/api.rs 1506-1525 -/
def abs_diff (c : Cfg) (a b : I256) : U256 :=
  if a.lt c b then b.as_u256.wrapping_sub c a.as_u256 else a.as_u256.wrapping_sub c b.as_u256

/-- src/int/api.rs 1545-1549 -/
def overflowing_mul (c : Cfg) (a b : I256) : Res (I256 × Bool) := Intr.imulc c a b
/-- src/int/api.rs 1091-1095 -/
def wrapping_mul (c : Cfg) (a b : I256) : Res I256 := Intr.imul3 c a b
/-- src/int/api.rs 534-541 -/
def checked_mul (c : Cfg) (a b : I256) : Res (Option I256) := return checkedOf (← overflowing_mul c a b)
/-- src/int/api.rs 931-942 -/
def saturating_mul (c : Cfg) (a b : I256) : Res I256 := do
  match ← checked_mul c a b with
  | some x => return x
  | none => return if a.lt_prim c 0 == b.lt_prim c 0 then MAX c else MIN c

/-- `self == Self::MIN && rhs == -1` -/
def minByMinusOne (c : Cfg) (a b : I256) : Bool := a.eq c (MIN c) && b.eq_prim c (-1)

/-- src/int/api.rs 1891-1897 -/
def div_euclid (c : Cfg) (a b : I256) : Res I256 := do
  let q ← div c a b
  let r ← rem c a b
  if r.lt_prim c 0 then
    if b.gt_prim c 0 then withPrim c sub q 1 else withPrim c add q 1
  else return q
/-- src/int/api.rs 1927-1938 -/
def rem_euclid (c : Cfg) (a b : I256) : Res I256 := do
  let r ← rem c a b
  if r.lt_prim c 0 then
    if b.lt_prim c 0 then sub c r b else add c r b
  else return r

/-- src/int/api.rs 559-567 -/
def checked_div (c : Cfg) (a b : I256) : Res (Option I256) :=
  if b.eq_prim c 0 || minByMinusOne c a b then return none else return some (← Intr.idiv3 c a b)
/-- src/int/api.rs 585-591 -/
def checked_div_euclid (c : Cfg) (a b : I256) : Res (Option I256) :=
  if b.eq_prim c 0 || minByMinusOne c a b then return none else return some (← div_euclid c a b)
/-- src/int/api.rs 609-617 -/
def checked_rem (c : Cfg) (a b : I256) : Res (Option I256) :=
  if b.eq_prim c 0 || minByMinusOne c a b then return none else return some (← Intr.irem3 c a b)
/-- src/int/api.rs 635-641 -/
def checked_rem_euclid (c : Cfg) (a b : I256) : Res (Option I256) :=
  if b.eq_prim c 0 || minByMinusOne c a b then return none else return some (← rem_euclid c a b)

/-- src/int/api.rs 1573-1579 -/
def overflowing_div (c : Cfg) (a b : I256) : Res (I256 × Bool) :=
  if minByMinusOne c a b then return (a, true) else return (← div c a b, false)
/-- src/int/api.rs 1603-1609 -/
def overflowing_div_euclid (c : Cfg) (a b : I256) : Res (I256 × Bool) :=
  if minByMinusOne c a b then return (a, true) else return (← div_euclid c a b, false)
/-- src/int/api.rs 1633-1639 -/
def overflowing_rem (c : Cfg) (a b : I256) : Res (I256 × Bool) :=
  if minByMinusOne c a b then return (ZERO, true) else return (← rem c a b, false)
/-- src/int/api.rs 1663-1669 -/
def overflowing_rem_euclid (c : Cfg) (a b : I256) : Res (I256 × Bool) :=
  if minByMinusOne c a b then return (ZERO, true) else return (← rem_euclid c a b, false)
/-- src/int/api.rs 1122-1124 -/
def wrapping_div (c : Cfg) (a b : I256) : Res I256 := return (← overflowing_div c a b).1
/-- src/int/api.rs 1150-1152 -/
def wrapping_div_euclid (c : Cfg) (a b : I256) : Res I256 := return (← overflowing_div_euclid c a b).1
/-- src/int/api.rs 1178-1180 -/
def wrapping_rem (c : Cfg) (a b : I256) : Res I256 := return (← overflowing_rem c a b).1
/-- src/int/api.rs 1205-1207 -/
def wrapping_rem_euclid (c : Cfg) (a b : I256) : Res I256 := return (← overflowing_rem_euclid c a b).1
/-- src/int/api.rs 965-970 -/
def saturating_div (c : Cfg) (a b : I256) : Res I256 := do
  match ← overflowing_div c a b with
  | (result, false) => return result
  | (_, true) => return MAX c

/-- src/int.rs 481-498 -/
def wrapping_div_rem (c : Cfg) (a b : I256) : Res (I256 × I256) :=
  if b.eq_prim c 0 then do
    unreachableIf (cmp c b ZERO != .eq)
    throwPanic .divByZero
  else do
    unreachableIf (cmp c b ZERO == .eq)
    let (res, rem) ← Intr.idivmod4 c a b true
    return (res, ← Intr.assumeInit rem)
/-- src/int.rs 297-302 -/
def div_rem (c : Cfg) (a b : I256) : Res (I256 × I256) :=
  if minByMinusOne c a b then throwPanic .divOverflow else wrapping_div_rem c a b
/-- src/int.rs 356-370 -/
def checked_div_rem (c : Cfg) (a b : I256) : Res (Option (I256 × I256)) :=
  if b.eq_prim c 0 || minByMinusOne c a b then return none
  else do
    unreachableIf (cmp c b ZERO == .eq)
    let (res, rem) ← Intr.idivmod4 c a b true
    return some (res, ← Intr.assumeInit rem)
/-- src/int.rs 587-594 -/
def overflowing_div_rem (c : Cfg) (a b : I256) : Res (I256 × I256 × Bool) :=
  if minByMinusOne c a b then return (a, ZERO, true)
  else do
    let (q, r) ← wrapping_div_rem c a b
    return (q, r, false)
/-- src/int.rs 423-428 -/
def saturating_div_rem (c : Cfg) (a b : I256) : Res (I256 × I256) := do
  match ← overflowing_div_rem c a b with
  | (q, r, false) => return (q, r)
  | (_, r, true) => return (MAX c, r)

/-- The final sanity check of `wrapping_div_rem_euclid` (src/int.rs 544-547) -/
def euclidCheck (c : Cfg) (remainder : I256) (abs_divisor : U256) : Res Unit :=
  if is_negative c remainder || remainder.as_u256.ge c abs_divisor then do
    debugAssert c false
    throwUB .unreachable
  else return ()

/-- The quotient adjustment of `wrapping_div_rem_euclid` (src/int.rs 549-559) -/
def euclidQuot (c : Cfg) (adjust quotient_sign : Bool) (quotient : I256) : Res I256 :=
  if adjust then
    if quotient_sign then return not quotient
    else withPrim c add_assign quotient 1
  else if quotient_sign then return wrapping_neg c quotient
  else return quotient

/-- src/int.rs 529-562 -/
def wrapping_div_rem_euclid (c : Cfg) (a b : I256) : Res (I256 × I256) := do
  let dividend_sign := is_negative c a
  let quotient_sign := dividend_sign ^^ is_negative c b
  let abs_dividend := unsigned_abs c a
  let abs_divisor := unsigned_abs c b
  let (q, r) ← abs_dividend.div_rem c abs_divisor
  let quotient := q.as_i256
  let remainder := r.as_i256
  let adjust_remainder := dividend_sign && !remainder.eq_prim c 0
  let remainder ← if adjust_remainder then sub c abs_divisor.as_i256 remainder else pure remainder
  euclidCheck c remainder abs_divisor
  let quotient ← euclidQuot c adjust_remainder quotient_sign quotient
  return (quotient, remainder)
/-- src/int.rs 332-337 -/
def div_rem_euclid (c : Cfg) (a b : I256) : Res (I256 × I256) :=
  if minByMinusOne c a b then throwPanic .divOverflow else wrapping_div_rem_euclid c a b
/-- src/int.rs 389-400 -/
def checked_div_rem_euclid (c : Cfg) (a b : I256) : Res (Option (I256 × I256)) :=
  if b.eq_prim c 0 || minByMinusOne c a b then return none
  else do
    unreachableIf (cmp c b ZERO == .eq)
    return some (← wrapping_div_rem_euclid c a b)
/-- src/int.rs 619-626 -/
def overflowing_div_rem_euclid (c : Cfg) (a b : I256) : Res (I256 × I256 × Bool) :=
  if minByMinusOne c a b then return (a, ZERO, true)
  else do
    let (q, r) ← wrapping_div_rem_euclid c a b
    return (q, r, false)
/-- src/int.rs 451-456 -/
def saturating_div_rem_euclid (c : Cfg) (a b : I256) : Res (I256 × I256) := do
  match ← overflowing_div_rem_euclid c a b with
  | (q, r, false) => return (q, r)
  | (_, r, true) => return (MAX c, r)

/-- src/int/api.rs 1254-1258 -/
def wrapping_shl (c : Cfg) (a : I256) (n : U32) : Res I256 := Intr.ishl3 c a (n &&& 0xff)
/-- src/int/api.rs 1283-1287 -/
def wrapping_shr (c : Cfg) (a : I256) (n : U32) : Res I256 := Intr.sar3 c a (n &&& 0xff)
/-- src/int/api.rs 1716-1718 -/
def overflowing_shl (c : Cfg) (a : I256) (n : U32) : Res (I256 × Bool) :=
  return (← wrapping_shl c a n, decide (n > 255))
/-- src/int/api.rs 1740-1742 -/
def overflowing_shr (c : Cfg) (a : I256) (n : U32) : Res (I256 × Bool) :=
  return (← wrapping_shr c a n, decide (n > 255))
/-- src/int/api.rs 679-686 -/
def checked_shl (c : Cfg) (a : I256) (n : U32) : Res (Option I256) := return checkedOf (← overflowing_shl c a n)
/-- src/int/api.rs 703-710 -/
def checked_shr (c : Cfg) (a : I256) (n : U32) : Res (Option I256) := return checkedOf (← overflowing_shr c a n)

/-- The loop of `checked_pow` (src/int/api.rs 755-761) -/
def checked_pow_loop (c : Cfg) : Nat → U32 → I256 → I256 → Res (Option (I256 × I256))
  | 0, _, _, _ => .error .diverge
  | fuel + 1, exp, base, acc =>
    if exp > 1 then do
      let acc? ← if exp &&& 1 = 1 then checked_mul c acc base else pure (some acc)
      match acc? with
      | none => return none
      | some acc =>
        match ← checked_mul c base base with
        | none => return none
        | some base' => checked_pow_loop c fuel (exp / 2) base' acc
    else return some (base, acc)

/-- src/int/api.rs 748-767 -/
def checked_pow (c : Cfg) (a : I256) (exp : U32) : Res (Option I256) :=
  if exp = 0 then return some (ONE c)
  else do
    match ← checked_pow_loop c 32 exp a (ONE c) with
    | none => return none
    | some (base, acc) => checked_mul c acc base

/-- src/int/api.rs 988-994 -/
def saturating_pow (c : Cfg) (a : I256) (exp : U32) : Res I256 := do
  match ← checked_pow c a exp with
  | some x => return x
  | none => return if a.lt_prim c 0 && decide (exp % 2 = 1) then MIN c else MAX c

/-- The loop of `wrapping_pow` (src/int/api.rs 1372-1378) -/
def wrapping_pow_loop (c : Cfg) : Nat → U32 → I256 → I256 → Res (I256 × I256)
  | 0, _, _, _ => .error .diverge
  | fuel + 1, exp, base, acc =>
    if exp > 1 then do
      let acc ← if exp &&& 1 = 1 then wrapping_mul c acc base else pure acc
      let base ← wrapping_mul c base base
      wrapping_pow_loop c fuel (exp / 2) base acc
    else return (base, acc)

/-- src/int/api.rs 1365-1385 -/
def wrapping_pow (c : Cfg) (a : I256) (exp : U32) : Res I256 :=
  if exp = 0 then return ONE c
  else do
    let (base, acc) ← wrapping_pow_loop c 32 exp a (ONE c)
    wrapping_mul c acc base

/-- The loop of `overflowing_pow` (src/int/api.rs 1802-1812) -/
def overflowing_pow_loop (c : Cfg) : Nat → U32 → I256 → I256 → Bool → Res (I256 × I256 × Bool)
  | 0, _, _, _, _ => .error .diverge
  | fuel + 1, exp, base, acc, overflown =>
    if exp > 1 then do
      let (acc, overflown) ← if exp &&& 1 = 1 then do
          let r ← overflowing_mul c acc base
          pure (r.1, overflown || r.2)
        else pure (acc, overflown)
      let r ← overflowing_mul c base base
      overflowing_pow_loop c fuel (exp / 2) r.1 acc (overflown || r.2)
    else return (base, acc, overflown)

/-- src/int/api.rs 1792-1821 -/
def overflowing_pow (c : Cfg) (a : I256) (exp : U32) : Res (I256 × Bool) :=
  if exp = 0 then return (ONE c, false)
  else do
    let (base, acc, overflown) ← overflowing_pow_loop c 32 exp a (ONE c) false
    let r ← overflowing_mul c acc base
    return (r.1, r.2 || overflown)

/-- The loop of `pow` (src/int/api.rs 1844-1850) -/
def pow_loop (c : Cfg) : Nat → U32 → I256 → I256 → Res (I256 × I256)
  | 0, _, _, _ => .error .diverge
  | fuel + 1, exp, base, acc =>
    if exp > 1 then do
      let acc ← if exp &&& 1 = 1 then mul_assign c acc base else pure acc
      let base ← mul c base base
      pow_loop c fuel (exp / 2) base acc
    else return (base, acc)

/-- src/int/api.rs 1837-1857 -/
def pow (c : Cfg) (a : I256) (exp : U32) : Res I256 :=
  if exp = 0 then return ONE c
  else do
    let (base, acc) ← pow_loop c 32 exp a (ONE c)
    mul c acc base

/-- `Sum` (src/macros/iter.rs 7-11, 19-23) -/
def sum (c : Cfg) (l : List I256) : Res I256 := l.foldlM (fun acc x => add c acc x) ZERO
/-- `Product` (src/macros/iter.rs 13-17, 25-29) -/
def product (c : Cfg) (l : List I256) : Res I256 := l.foldlM (fun acc x => mul c acc x) (ONE c)

end I256
end Ethnum
