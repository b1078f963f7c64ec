import Verif.Model.Ops

/-
`impl U256`: src/uint/api.rs and the division methods of src/uint.rs.
Parsing (`from_str_radix`) is in Model/Parse.lean, bytes in Model/Bytes.lean.
-/

namespace Ethnum
namespace U256

/-- `if b { None } else { Some(a) }` -/
def checkedOf {α : Type} (r : α × Bool) : Option α := if r.2 then none else some r.1

/-- src/uint/api.rs 88-91 -/
def count_ones (c : Cfg) (x : U256) : Res U32 := addC c (u32 (countOnes x.w0)) (u32 (countOnes x.w1))
/-- src/uint/api.rs 105-108 -/
def count_zeros (c : Cfg) (x : U256) : Res U32 := addC c (u32 (countZeros x.w0)) (u32 (countZeros x.w1))
/-- src/uint/api.rs 123-125 -/
def leading_zeros (c : Cfg) (x : U256) : Res U32 := Intr.ctlz c x
/-- src/uint/api.rs 140-142 -/
def trailing_zeros (c : Cfg) (x : U256) : Res U32 := Intr.cttz c x
/-- src/uint/api.rs 157-159 -/
def leading_ones (c : Cfg) (x : U256) : Res U32 := leading_zeros c (not x)
/-- src/uint/api.rs 174-176 -/
def trailing_ones (c : Cfg) (x : U256) : Res U32 := trailing_zeros c (not x)
/-- src/uint/api.rs 200-204 -/
def rotate_left (c : Cfg) (x : U256) (n : U32) : Res U256 := Intr.rol3 c x n
/-- src/uint/api.rs 228-232 -/
def rotate_right (c : Cfg) (x : U256) (n : U32) : Res U256 := Intr.ror3 c x n
/-- src/uint/api.rs 255-258 -/
def swap_bytes (x : U256) : U256 := ⟨swapBytes128 x.w1, swapBytes128 x.w0⟩
/-- src/uint/api.rs 281-284 -/
def reverse_bits (x : U256) : U256 := ⟨x.w1.reverse, x.w0.reverse⟩
/-- src/uint/api.rs 305-314 -/
def from_be (c : Cfg) (x : U256) : U256 := if c.bigEndian then x else x.swap_bytes
/-- src/uint/api.rs 335-344 -/
def from_le (c : Cfg) (x : U256) : U256 := if !c.bigEndian then x else x.swap_bytes
/-- src/uint/api.rs 364-373 -/
def to_be (c : Cfg) (x : U256) : U256 := if c.bigEndian then x else x.swap_bytes
/-- src/uint/api.rs 393-402 -/
def to_le (c : Cfg) (x : U256) : U256 := if !c.bigEndian then x else x.swap_bytes

/-- src/uint/api.rs 1155-1159 -/
def overflowing_add (c : Cfg) (a b : U256) : U256 × Bool := Intr.uaddc c a b
/-- src/uint/api.rs 849-853 -/
def wrapping_add (c : Cfg) (a b : U256) : U256 := Intr.add3 c a b
/-- src/uint/api.rs 419-426 -/
def checked_add (c : Cfg) (a b : U256) : Option U256 := checkedOf (overflowing_add c a b)
/-- src/uint/api.rs 716-718 -/
def saturating_add (c : Cfg) (a b : U256) : U256 := (checked_add c a b).getD MAX

/-- src/uint/api.rs 1180-1183 -/
def overflowing_add_signed (c : Cfg) (a : U256) (b : I256) : U256 × Bool :=
  let (res, overflowed) := overflowing_add c a b.as_u256
  (res, overflowed ^^ b.lt_prim c 0)
/-- src/uint/api.rs 444-451 -/
def checked_add_signed (c : Cfg) (a : U256) (b : I256) : Option U256 :=
  checkedOf (overflowing_add_signed c a b)
/-- src/uint/api.rs 736-745 -/
def saturating_add_signed (c : Cfg) (a : U256) (b : I256) : U256 :=
  let (res, overflow) := overflowing_add c a b.as_u256
  if overflow == b.lt_prim c 0 then res else if overflow then MAX else ZERO
/-- src/uint/api.rs 871-873 -/
def wrapping_add_signed (c : Cfg) (a : U256) (b : I256) : U256 := wrapping_add c a b.as_u256

/-- src/uint/api.rs 1203-1207 -/
def overflowing_sub (c : Cfg) (a b : U256) : U256 × Bool := Intr.usubc c a b
/-- src/uint/api.rs 890-894 -/
def wrapping_sub (c : Cfg) (a b : U256) : U256 := Intr.sub3 c a b
/-- src/uint/api.rs 468-475 -/
def checked_sub (c : Cfg) (a b : U256) : Option U256 := checkedOf (overflowing_sub c a b)
/-- src/uint/api.rs 762-764 -/
def saturating_sub (c : Cfg) (a b : U256) : U256 := (checked_sub c a b).getD MIN
/-- src/uint/api.rs 1223-1229 -/
def abs_diff (c : Cfg) (a b : U256) : Res U256 := if a.lt c b then sub c b a else sub c a b

/-- src/uint/api.rs 1385-1387 -/
def overflowing_neg (c : Cfg) (a : U256) : U256 × Bool := (wrapping_add c (not a) (ONE c), a.ne c ZERO)
/-- src/uint/api.rs 1032-1034 -/
def wrapping_neg (c : Cfg) (a : U256) : U256 := (overflowing_neg c a).1
/-- src/uint/api.rs 607-614 -/
def checked_neg (c : Cfg) (a : U256) : Option U256 := checkedOf (overflowing_neg c a)

/-- src/uint/api.rs 1255-1259 -/
def overflowing_mul (c : Cfg) (a b : U256) : Res (U256 × Bool) := Intr.umulc c a b
/-- src/uint/api.rs 914-918 -/
def wrapping_mul (c : Cfg) (a b : U256) : Res U256 := Intr.mul3 c a b
/-- src/uint/api.rs 492-499 -/
def checked_mul (c : Cfg) (a b : U256) : Res (Option U256) := return checkedOf (← overflowing_mul c a b)
/-- src/uint/api.rs 781-786 -/
def saturating_mul (c : Cfg) (a b : U256) : Res U256 := return (← checked_mul c a b).getD MAX

/-- src/uint/api.rs 1549-1551 -/
def div_euclid (c : Cfg) (a b : U256) : Res U256 := div c a b
/-- src/uint/api.rs 1573-1575 -/
def rem_euclid (c : Cfg) (a b : U256) : Res U256 := rem c a b
/-- src/uint/api.rs 516-522 -/
def checked_div (c : Cfg) (a b : U256) : Res (Option U256) :=
  if b.eq c ZERO then return none else return some (← div c a b)
/-- src/uint/api.rs 539-545 -/
def checked_div_euclid (c : Cfg) (a b : U256) : Res (Option U256) :=
  if b.eq c ZERO then return none else return some (← div_euclid c a b)
/-- src/uint/api.rs 562-568 -/
def checked_rem (c : Cfg) (a b : U256) : Res (Option U256) :=
  if b.eq c ZERO then return none else return some (← rem c a b)
/-- src/uint/api.rs 585-591 -/
def checked_rem_euclid (c : Cfg) (a b : U256) : Res (Option U256) :=
  if b.eq c ZERO then return none else return some (← rem_euclid c a b)
/-- src/uint/api.rs 936-938 -/
def wrapping_div (c : Cfg) (a b : U256) : Res U256 := div c a b
/-- src/uint/api.rs 958-960 -/
def wrapping_div_euclid (c : Cfg) (a b : U256) : Res U256 := div c a b
/-- src/uint/api.rs 978-980 -/
def wrapping_rem (c : Cfg) (a b : U256) : Res U256 := rem c a b
/-- src/uint/api.rs 1000-1002 -/
def wrapping_rem_euclid (c : Cfg) (a b : U256) : Res U256 := rem c a b
/-- src/uint/api.rs 807-810 -/
def saturating_div (c : Cfg) (a b : U256) : Res U256 := wrapping_div c a b
/-- src/uint/api.rs 1282-1284 -/
def overflowing_div (c : Cfg) (a b : U256) : Res (U256 × Bool) := return (← div c a b, false)
/-- src/uint/api.rs 1309-1311 -/
def overflowing_div_euclid (c : Cfg) (a b : U256) : Res (U256 × Bool) := return (← div c a b, false)
/-- src/uint/api.rs 1335-1337 -/
def overflowing_rem (c : Cfg) (a b : U256) : Res (U256 × Bool) := return (← rem c a b, false)
/-- src/uint/api.rs 1364-1366 -/
def overflowing_rem_euclid (c : Cfg) (a b : U256) : Res (U256 × Bool) := return (← rem c a b, false)

/-- src/uint.rs 297-329 -/
def div_rem (c : Cfg) (a b : U256) : Res (U256 × U256) :=
  if b.eq_prim c 0 then do
    unreachableIf (b.gt_prim c 0)
    throwPanic .divByZero
  else do
    unreachableIf (b.le_prim c 0)
    let (res, rem) ← Intr.udivmod4 c a b true
    let rem ← Intr.assumeInit rem
    unreachableIf (rem.ge c b)
    unreachableIf (rem.gt c a)
    unreachableIf (res.gt c a)
    return (res, rem)
/-- src/uint.rs 352-354 -/
def div_rem_euclid (c : Cfg) (a b : U256) : Res (U256 × U256) := div_rem c a b
/-- src/uint.rs 371-387 -/
def checked_div_rem (c : Cfg) (a b : U256) : Res (Option (U256 × U256)) :=
  if b.eq c ZERO then do
    unreachableIf (b.gt_prim c 0)
    return none
  else do
    unreachableIf (b.le_prim c 0)
    return some (← div_rem c a b)
/-- src/uint.rs 404-406 -/
def checked_div_rem_euclid (c : Cfg) (a b : U256) : Res (Option (U256 × U256)) := checked_div_rem c a b
/-- src/uint.rs 428-430 -/
def saturating_div_rem (c : Cfg) (a b : U256) : Res (U256 × U256) := div_rem c a b
/-- src/uint.rs 452-454 -/
def saturating_div_rem_euclid (c : Cfg) (a b : U256) : Res (U256 × U256) := div_rem c a b
/-- src/uint.rs 477-479 -/
def wrapping_div_rem (c : Cfg) (a b : U256) : Res (U256 × U256) := div_rem c a b
/-- src/uint.rs 503-505 -/
def wrapping_div_rem_euclid (c : Cfg) (a b : U256) : Res (U256 × U256) := div_rem c a b
/-- src/uint.rs 529-532 -/
def overflowing_div_rem (c : Cfg) (a b : U256) : Res (U256 × U256 × Bool) := do
  let (q, r) ← div_rem c a b
  return (q, r, false)
/-- src/uint.rs 558-561 -/
def overflowing_div_rem_euclid (c : Cfg) (a b : U256) : Res (U256 × U256 × Bool) := do
  let (q, r) ← div_rem c a b
  return (q, r, false)

/-- src/uint/api.rs 1059-1063 -/
def wrapping_shl (c : Cfg) (a : U256) (n : U32) : Res U256 := Intr.shl3 c a (n &&& 0xff)
/-- src/uint/api.rs 1088-1092 -/
def wrapping_shr (c : Cfg) (a : U256) (n : U32) : Res U256 := Intr.shr3 c a (n &&& 0xff)
/-- src/uint/api.rs 1409-1411 -/
def overflowing_shl (c : Cfg) (a : U256) (n : U32) : Res (U256 × Bool) :=
  return (← wrapping_shl c a n, decide (n > 255))
/-- src/uint/api.rs 1433-1435 -/
def overflowing_shr (c : Cfg) (a : U256) (n : U32) : Res (U256 × Bool) :=
  return (← wrapping_shr c a n, decide (n > 255))
/-- src/uint/api.rs 631-638 -/
def checked_shl (c : Cfg) (a : U256) (n : U32) : Res (Option U256) := return checkedOf (← overflowing_shl c a n)
/-- src/uint/api.rs 655-662 -/
def checked_shr (c : Cfg) (a : U256) (n : U32) : Res (Option U256) := return checkedOf (← overflowing_shr c a n)

/-- The `while exp > 1` loop of `checked_pow` (src/uint/api.rs 683-689); `none` is the early
`return None` of `?`. Returns (exp, base, acc). -/
def checked_pow_loop (c : Cfg) : Nat → U32 → U256 → U256 → Res (Option (U32 × U256 × U256))
  | 0, _, _, _ => .error .diverge
  | fuel + 1, exp, base, acc =>
    if exp > 1 then do
      let acc? ← if exp &&& 1 = 1 then checked_mul c acc base else pure (some acc)
      match acc? with
      | none => return none
      | some acc =>
        match ← checked_mul c base base with
        | none => return none
        | some base' => checked_pow_loop c fuel (exp / 2) base' acc
    else return some (exp, base, acc)

/-- src/uint/api.rs 679-699 -/
def checked_pow (c : Cfg) (a : U256) (exp : U32) : Res (Option U256) := do
  match ← checked_pow_loop c 32 exp a (ONE c) with
  | none => return none
  | some (exp, base, acc) => if exp = 1 then checked_mul c acc base else return some acc

/-- src/uint/api.rs 827-832 -/
def saturating_pow (c : Cfg) (a : U256) (exp : U32) : Res U256 := return (← checked_pow c a exp).getD MAX

/-- The loop of `wrapping_pow` (src/uint/api.rs 1119-1125) -/
def wrapping_pow_loop (c : Cfg) : Nat → U32 → U256 → U256 → Res (U32 × U256 × U256)
  | 0, _, _, _ => .error .diverge
  | fuel + 1, exp, base, acc =>
    if exp > 1 then do
      let acc ← if exp &&& 1 = 1 then wrapping_mul c acc base else pure acc
      let base ← wrapping_mul c base base
      wrapping_pow_loop c fuel (exp / 2) base acc
    else return (exp, base, acc)

/-- src/uint/api.rs 1115-1135 -/
def wrapping_pow (c : Cfg) (a : U256) (exp : U32) : Res U256 := do
  let (exp, base, acc) ← wrapping_pow_loop c 32 exp a (ONE c)
  if exp = 1 then wrapping_mul c acc base else return acc

/-- The loop of `overflowing_pow` (src/uint/api.rs 1470-1480) -/
def overflowing_pow_loop (c : Cfg) : Nat → U32 → U256 → U256 → Bool → Res (U32 × U256 × U256 × Bool)
  | 0, _, _, _, _ => .error .diverge
  | fuel + 1, exp, base, acc, overflown =>
    if exp > 1 then do
      let (acc, overflown) ← if exp &&& 1 = 1 then do
          let r ← overflowing_mul c acc base
          pure (r.1, overflown || r.2)
        else pure (acc, overflown)
      let r ← overflowing_mul c base base
      overflowing_pow_loop c fuel (exp / 2) r.1 acc (overflown || r.2)
    else return (exp, base, acc, overflown)

/-- src/uint/api.rs 1463-1492 -/
def overflowing_pow (c : Cfg) (a : U256) (exp : U32) : Res (U256 × Bool) := do
  let (exp, base, acc, overflown) ← overflowing_pow_loop c 32 exp a (ONE c) false
  if exp = 1 then
    let r ← overflowing_mul c acc base
    return (r.1, overflown || r.2)
  else return (acc, overflown)

/-- The loop of `pow` (src/uint/api.rs 1511-1517) -/
def pow_loop (c : Cfg) : Nat → U32 → U256 → U256 → Res (U32 × U256 × U256)
  | 0, _, _, _ => .error .diverge
  | fuel + 1, exp, base, acc =>
    if exp > 1 then do
      let acc ← if exp &&& 1 = 1 then mul_assign c acc base else pure acc
      let base ← mul c base base
      pow_loop c fuel (exp / 2) base acc
    else return (exp, base, acc)

/-- src/uint/api.rs 1507-1527 -/
def pow (c : Cfg) (a : U256) (exp : U32) : Res U256 := do
  let (exp, base, acc) ← pow_loop c 32 exp a (ONE c)
  if exp = 1 then mul_assign c acc base else return acc

/-- src/uint/api.rs 1589-1591 -/
def is_power_of_two (c : Cfg) (a : U256) : Res Bool := return decide ((← count_ones c a) = 1)

/-- src/uint/api.rs 1603-1611 -/
def one_less_than_next_power_of_two (c : Cfg) (a : U256) : Res U256 :=
  if a.le_prim c 1 then return ZERO
  else do
    let p ← withPrim c sub a 1
    let z ← leading_zeros c p
    MAX.shr c z

/-- src/uint/api.rs 1629-1631 -/
def next_power_of_two (c : Cfg) (a : U256) : Res U256 := do
  withPrim c add (← one_less_than_next_power_of_two c a) 1

/-- src/uint/api.rs 1648-1651 -/
def checked_next_power_of_two (c : Cfg) (a : U256) : Res (Option U256) := do
  return checked_add c (← one_less_than_next_power_of_two c a) (ONE c)

/-- `Sum` (src/macros/iter.rs 7-11, 19-23): `iter.fold(ZERO, Add::add)` -/
def sum (c : Cfg) (l : List U256) : Res U256 := l.foldlM (fun acc x => add c acc x) ZERO
/-- `Product` (src/macros/iter.rs 13-17, 25-29): `iter.fold(ONE, Mul::mul)` -/
def product (c : Cfg) (l : List U256) : Res U256 := l.foldlM (fun acc x => mul c acc x) (ONE c)

end U256
end Ethnum
