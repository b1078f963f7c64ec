import Verif.Proofs.Defined.Serde
import Verif.Props.Repr

/-
C41: no call has undefined behaviour, and every call ends.

The model turns each `unsafe` operation into a check of its precondition, and gives each loop that is not a `for`
a fuel. A violated precondition is `Fault.ub`, exhausted fuel is `Fault.diverge`.
-/

namespace Ethnum

/-! ### Specification -/

/-- The call ends, and does so without undefined behaviour: it returns or it panics. -/
structure Safe {α : Type} (x : Res α) : Prop where
  no_ub : ∀ u : UB, x ≠ .error (.ub u)
  ends : x ≠ .error .diverge

theorem Defined.safe {α : Type} {x : Res α} (h : Defined x) : Safe x := by
  rcases h with ⟨a, rfl⟩ | ⟨p, rfl⟩
  · exact ⟨fun _ h => (nomatch h), fun h => (nomatch h)⟩
  · exact ⟨fun _ h => (nomatch h), fun h => (nomatch h)⟩

/-- The preconditions are really checked: writing outside a buffer, reading a byte that was never written, making a
string of bytes that are none, dividing by an unchecked zero and reaching an unreachable hint are all unsafe. -/
example : ¬ Safe (Buf.write (Buf.uninit 3) 3 0) ∧ ¬ Safe (Buf.init (Buf.uninit 1)) ∧ ¬ Safe (strUnchecked [200])
    ∧ ¬ Safe (Intr.nonZeroUnchecked 0) ∧ ¬ Safe (unreachableIf true) ∧ ¬ Safe (copy2 199 0 (Buf.uninit 3))
    ∧ ¬ Safe (decLoop dbg 0 U256.ZERO 0 []) :=
  ⟨fun h => h.no_ub .outOfBounds rfl, fun h => h.no_ub .uninit rfl, fun h => h.no_ub .notUtf8 (by decide +kernel),
   fun h => h.no_ub _ rfl, fun h => h.no_ub .unreachable rfl, fun h => h.no_ub .outOfBounds (by decide +kernel),
   fun h => h.ends rfl⟩

/-- C41: functions of one `U256`. -/
theorem C41_u256_unary (c : Cfg) (a : U256) :
    Safe (U256.count_ones c a) ∧ Safe (U256.count_zeros c a) ∧ Safe (U256.leading_zeros c a)
    ∧ Safe (U256.trailing_zeros c a) ∧ Safe (U256.leading_ones c a) ∧ Safe (U256.trailing_ones c a)
    ∧ Safe (U256.is_power_of_two c a) ∧ Safe (U256.one_less_than_next_power_of_two c a)
    ∧ Safe (U256.next_power_of_two c a) ∧ Safe (U256.checked_next_power_of_two c a) :=
  ⟨(U256.count_ones_defined c a).safe, (U256.count_zeros_defined c a).safe, (U256.leading_zeros_defined c a).safe,
   (U256.trailing_zeros_defined c a).safe, (U256.leading_ones_defined c a).safe,
   (U256.trailing_ones_defined c a).safe, (U256.is_power_of_two_defined c a).safe,
   (U256.one_less_than_next_power_of_two_defined c a).safe, (U256.next_power_of_two_defined c a).safe,
   (U256.checked_next_power_of_two_defined c a).safe⟩

example : U256.MAX.leading_ones dbg = .ok 256 ∧ U256.MAX.next_power_of_two dbg = .error (.panic .addOverflow) := by
  decide +kernel


/-- C41: functions of two `U256` other than division. -/
theorem C41_u256_binary (c : Cfg) (a b : U256) :
    Safe (U256.add c a b) ∧ Safe (U256.sub c a b) ∧ Safe (U256.mul c a b) ∧ Safe (U256.add_assign c a b)
    ∧ Safe (U256.sub_assign c a b) ∧ Safe (U256.mul_assign c a b) ∧ Safe (U256.abs_diff c a b)
    ∧ Safe (U256.overflowing_mul c a b) ∧ Safe (U256.wrapping_mul c a b) ∧ Safe (U256.checked_mul c a b)
    ∧ Safe (U256.saturating_mul c a b) :=
  ⟨(U256.add_defined c a b).safe, (U256.sub_defined c a b).safe, (U256.mul_defined c a b).safe,
   (U256.add_assign_defined c a b).safe, (U256.sub_assign_defined c a b).safe, (U256.mul_assign_defined c a b).safe,
   (U256.abs_diff_defined c a b).safe, (U256.overflowing_mul_defined c a b).safe,
   (U256.wrapping_mul_defined c a b).safe, (U256.checked_mul_defined c a b).safe,
   (U256.saturating_mul_defined c a b).safe⟩

example : U256.MAX.mul dbg U256.MAX = .error (.panic .mulOverflow) ∧ U256.MAX.wrapping_mul dbg U256.MAX = .ok (U256.ONE dbg) := by
  decide +kernel


/-- C41: every form of division of `U256`, also by zero and with a quotient that overflows. -/
theorem C41_u256_division (c : Cfg) (a b : U256) :
    Safe (U256.div c a b) ∧ Safe (U256.rem c a b) ∧ Safe (U256.div_assign c a b) ∧ Safe (U256.rem_assign c a b)
    ∧ Safe (U256.div_euclid c a b) ∧ Safe (U256.rem_euclid c a b) ∧ Safe (U256.checked_div c a b)
    ∧ Safe (U256.checked_div_euclid c a b) ∧ Safe (U256.checked_rem c a b) ∧ Safe (U256.checked_rem_euclid c a b)
    ∧ Safe (U256.wrapping_div c a b) ∧ Safe (U256.wrapping_div_euclid c a b) ∧ Safe (U256.wrapping_rem c a b)
    ∧ Safe (U256.wrapping_rem_euclid c a b) ∧ Safe (U256.saturating_div c a b) ∧ Safe (U256.overflowing_div c a b)
    ∧ Safe (U256.overflowing_div_euclid c a b) ∧ Safe (U256.overflowing_rem c a b)
    ∧ Safe (U256.overflowing_rem_euclid c a b) ∧ Safe (U256.div_rem c a b) ∧ Safe (U256.div_rem_euclid c a b)
    ∧ Safe (U256.checked_div_rem c a b) ∧ Safe (U256.checked_div_rem_euclid c a b)
    ∧ Safe (U256.saturating_div_rem c a b) ∧ Safe (U256.saturating_div_rem_euclid c a b)
    ∧ Safe (U256.wrapping_div_rem c a b) ∧ Safe (U256.wrapping_div_rem_euclid c a b)
    ∧ Safe (U256.overflowing_div_rem c a b) ∧ Safe (U256.overflowing_div_rem_euclid c a b) :=
  ⟨(U256.div_defined c a b).safe, (U256.rem_defined c a b).safe, (U256.div_assign_defined c a b).safe,
   (U256.rem_assign_defined c a b).safe, (U256.div_euclid_defined c a b).safe, (U256.rem_euclid_defined c a b).safe,
   (U256.checked_div_defined c a b).safe, (U256.checked_div_euclid_defined c a b).safe,
   (U256.checked_rem_defined c a b).safe, (U256.checked_rem_euclid_defined c a b).safe,
   (U256.wrapping_div_defined c a b).safe, (U256.wrapping_div_euclid_defined c a b).safe,
   (U256.wrapping_rem_defined c a b).safe, (U256.wrapping_rem_euclid_defined c a b).safe,
   (U256.saturating_div_defined c a b).safe, (U256.overflowing_div_defined c a b).safe,
   (U256.overflowing_div_euclid_defined c a b).safe, (U256.overflowing_rem_defined c a b).safe,
   (U256.overflowing_rem_euclid_defined c a b).safe, (U256.div_rem_defined c a b).safe,
   (U256.div_rem_euclid_defined c a b).safe, (U256.checked_div_rem_defined c a b).safe,
   (U256.checked_div_rem_euclid_defined c a b).safe, (U256.saturating_div_rem_defined c a b).safe,
   (U256.saturating_div_rem_euclid_defined c a b).safe, (U256.wrapping_div_rem_defined c a b).safe,
   (U256.wrapping_div_rem_euclid_defined c a b).safe, (U256.overflowing_div_rem_defined c a b).safe,
   (U256.overflowing_div_rem_euclid_defined c a b).safe⟩

example : U256.MAX.div_rem dbg (U256.ofNat dbg (2 ^ 200 + 1)) = .ok (U256.ofNat dbg (2 ^ 56 - 1), U256.ofNat dbg (2 ^ 200 - 2 ^ 56))
    ∧ U256.MAX.div_rem rel U256.ZERO = .error (.panic .divByZero) := by decide +kernel


/-- C41: shifts, rotations and powers of `U256`. -/
theorem C41_u256_shift_pow (c : Cfg) (a : U256) (n : U32) :
    Safe (U256.shl c a n) ∧ Safe (U256.shr c a n) ∧ Safe (U256.shl_assign c a n) ∧ Safe (U256.shr_assign c a n)
    ∧ Safe (U256.rotate_left c a n) ∧ Safe (U256.rotate_right c a n) ∧ Safe (U256.wrapping_shl c a n)
    ∧ Safe (U256.wrapping_shr c a n) ∧ Safe (U256.overflowing_shl c a n) ∧ Safe (U256.overflowing_shr c a n)
    ∧ Safe (U256.checked_shl c a n) ∧ Safe (U256.checked_shr c a n) ∧ Safe (U256.checked_pow c a n)
    ∧ Safe (U256.saturating_pow c a n) ∧ Safe (U256.wrapping_pow c a n) ∧ Safe (U256.overflowing_pow c a n)
    ∧ Safe (U256.pow c a n) :=
  ⟨(U256.shl_defined c a n).safe, (U256.shr_defined c a n).safe, (U256.shl_assign_defined c a n).safe,
   (U256.shr_assign_defined c a n).safe, (U256.rotate_left_defined c a n).safe,
   (U256.rotate_right_defined c a n).safe, (U256.wrapping_shl_defined c a n).safe,
   (U256.wrapping_shr_defined c a n).safe, (U256.overflowing_shl_defined c a n).safe,
   (U256.overflowing_shr_defined c a n).safe, (U256.checked_shl_defined c a n).safe,
   (U256.checked_shr_defined c a n).safe, (U256.checked_pow_defined c a n).safe,
   (U256.saturating_pow_defined c a n).safe, (U256.wrapping_pow_defined c a n).safe,
   (U256.overflowing_pow_defined c a n).safe, (U256.pow_defined c a n).safe⟩

example : (U256.ofNat dbg 3).pow dbg 162 = .error (.panic .mulOverflow) ∧ (U256.ofNat rel 3).checked_pow rel 161 = .ok (some (U256.ofNat rel (3 ^ 161))) := by
  decide +kernel


/-- C41: shifts of `U256` by an amount of any integer type. -/
theorem C41_u256_shift_by (c : Cfg) (a : U256) (n : ShiftBy c) :
    Safe (U256.shlBy c a n) ∧ Safe (U256.shrBy c a n) ∧ Safe (U256.shlAssignBy c a n) ∧ Safe (U256.shrAssignBy c a n) :=
  ⟨(U256.shlBy_defined c a n).safe, (U256.shrBy_defined c a n).safe, (U256.shlAssignBy_defined c a n).safe,
   (U256.shrAssignBy_defined c a n).safe⟩



/-- C41: `Sum` and `Product` of `U256`. -/
theorem C41_u256_iter (c : Cfg) (l : List U256) :
    Safe (U256.sum c l) ∧ Safe (U256.product c l) :=
  ⟨(U256.sum_defined c l).safe, (U256.product_defined c l).safe⟩



/-- C41: formatting a `U256`. -/
theorem C41_u256_format (c : Cfg) (a : U256) (f : Formatter) (r : Radix) :
    Safe (U256.display c a f) ∧ Safe (U256.debug c a f) ∧ Safe (U256.fmtRadix c r a f) :=
  ⟨(U256.display_defined c a f).safe, (U256.debug_defined c a f).safe, (U256.fmtRadix_defined c r a f).safe⟩

example : U256.MAX.display dbg .default
    = .ok "115792089237316195423570985008687907853269984665640564039457584007913129639935".toList := by decide +kernel


/-- C41: parsing a `U256`, from any bytes and with any radix. -/
theorem C41_u256_parse (c : Cfg) (s : List U8) (r : U32) :
    Safe (U256.from_str_radix c s r) ∧ Safe (U256.from_str c s) ∧ Safe (U256.from_str_hex c s)
    ∧ Safe (U256.from_str_prefixed c s) ∧ Safe (U256.const_from_str_prefixed c s) :=
  ⟨(U256.from_str_radix_defined c s r).safe, (U256.from_str_defined c s).safe, (U256.from_str_hex_defined c s).safe,
   (U256.from_str_prefixed_defined c s).safe, (U256.const_from_str_prefixed_defined c s).safe⟩



/-- C41: serialization of a `U256`, and deserialization from any input. -/
theorem C41_u256_serde (c : Cfg) (k : Serde.Chunking) (o : Serde.Order) (a : U256) (i : Serde.Input) :
    Safe (U256.serialize c k a) ∧ Safe (U256.serialize_decimal c k a) ∧ Safe (U256.serialize_bytes c o a)
    ∧ Safe (U256.serialize_compressed c o a) ∧ Safe (U256.deserialize c i) ∧ Safe (U256.deserialize_decimal c i)
    ∧ Safe (U256.deserialize_prefixed c i) ∧ Safe (U256.deserialize_permissive c i)
    ∧ Safe (U256.deserialize_bytes c o i) ∧ Safe (U256.deserialize_compressed c o i) :=
  ⟨(U256.serialize_defined c k a).safe, (U256.serialize_decimal_defined c k a).safe,
   (U256.serialize_bytes_defined c o a).safe, (U256.serialize_compressed_defined c o a).safe,
   (U256.deserialize_defined c i).safe, (U256.deserialize_decimal_defined c i).safe,
   (U256.deserialize_prefixed_defined c i).safe, (U256.deserialize_permissive_defined c i).safe,
   (U256.deserialize_bytes_defined c o i).safe, (U256.deserialize_compressed_defined c o i).safe⟩



/-- C41: functions of one `I256`. -/
theorem C41_i256_unary (c : Cfg) (a : I256) :
    Safe (I256.neg c a) ∧ Safe (I256.count_ones c a) ∧ Safe (I256.count_zeros c a) ∧ Safe (I256.leading_zeros c a)
    ∧ Safe (I256.trailing_zeros c a) ∧ Safe (I256.leading_ones c a) ∧ Safe (I256.trailing_ones c a)
    ∧ Safe (I256.overflowing_neg c a) ∧ Safe (I256.checked_neg c a) ∧ Safe (I256.checked_abs c a)
    ∧ Safe (I256.abs c a) :=
  ⟨(I256.neg_defined c a).safe, (I256.count_ones_defined c a).safe, (I256.count_zeros_defined c a).safe,
   (I256.leading_zeros_defined c a).safe, (I256.trailing_zeros_defined c a).safe,
   (I256.leading_ones_defined c a).safe, (I256.trailing_ones_defined c a).safe,
   (I256.overflowing_neg_defined c a).safe, (I256.checked_neg_defined c a).safe, (I256.checked_abs_defined c a).safe,
   (I256.abs_defined c a).safe⟩



/-- C41: functions of two `I256` other than division. -/
theorem C41_i256_binary (c : Cfg) (a b : I256) :
    Safe (I256.add c a b) ∧ Safe (I256.sub c a b) ∧ Safe (I256.mul c a b) ∧ Safe (I256.add_assign c a b)
    ∧ Safe (I256.sub_assign c a b) ∧ Safe (I256.mul_assign c a b) ∧ Safe (I256.overflowing_mul c a b)
    ∧ Safe (I256.wrapping_mul c a b) ∧ Safe (I256.checked_mul c a b) ∧ Safe (I256.saturating_mul c a b) :=
  ⟨(I256.add_defined c a b).safe, (I256.sub_defined c a b).safe, (I256.mul_defined c a b).safe,
   (I256.add_assign_defined c a b).safe, (I256.sub_assign_defined c a b).safe, (I256.mul_assign_defined c a b).safe,
   (I256.overflowing_mul_defined c a b).safe, (I256.wrapping_mul_defined c a b).safe,
   (I256.checked_mul_defined c a b).safe, (I256.saturating_mul_defined c a b).safe⟩



/-- C41: every form of division of `I256`, also by zero and with a quotient that overflows. -/
theorem C41_i256_division (c : Cfg) (a b : I256) :
    Safe (I256.div c a b) ∧ Safe (I256.rem c a b) ∧ Safe (I256.div_assign c a b) ∧ Safe (I256.rem_assign c a b)
    ∧ Safe (I256.div_euclid c a b) ∧ Safe (I256.rem_euclid c a b) ∧ Safe (I256.checked_div c a b)
    ∧ Safe (I256.checked_div_euclid c a b) ∧ Safe (I256.checked_rem c a b) ∧ Safe (I256.checked_rem_euclid c a b)
    ∧ Safe (I256.overflowing_div c a b) ∧ Safe (I256.overflowing_div_euclid c a b) ∧ Safe (I256.overflowing_rem c a b)
    ∧ Safe (I256.overflowing_rem_euclid c a b) ∧ Safe (I256.wrapping_div c a b)
    ∧ Safe (I256.wrapping_div_euclid c a b) ∧ Safe (I256.wrapping_rem c a b) ∧ Safe (I256.wrapping_rem_euclid c a b)
    ∧ Safe (I256.saturating_div c a b) ∧ Safe (I256.wrapping_div_rem c a b) ∧ Safe (I256.div_rem c a b)
    ∧ Safe (I256.checked_div_rem c a b) ∧ Safe (I256.overflowing_div_rem c a b) ∧ Safe (I256.saturating_div_rem c a b)
    ∧ Safe (I256.wrapping_div_rem_euclid c a b) ∧ Safe (I256.div_rem_euclid c a b)
    ∧ Safe (I256.checked_div_rem_euclid c a b) ∧ Safe (I256.overflowing_div_rem_euclid c a b)
    ∧ Safe (I256.saturating_div_rem_euclid c a b) :=
  ⟨(I256.div_defined c a b).safe, (I256.rem_defined c a b).safe, (I256.div_assign_defined c a b).safe,
   (I256.rem_assign_defined c a b).safe, (I256.div_euclid_defined c a b).safe, (I256.rem_euclid_defined c a b).safe,
   (I256.checked_div_defined c a b).safe, (I256.checked_div_euclid_defined c a b).safe,
   (I256.checked_rem_defined c a b).safe, (I256.checked_rem_euclid_defined c a b).safe,
   (I256.overflowing_div_defined c a b).safe, (I256.overflowing_div_euclid_defined c a b).safe,
   (I256.overflowing_rem_defined c a b).safe, (I256.overflowing_rem_euclid_defined c a b).safe,
   (I256.wrapping_div_defined c a b).safe, (I256.wrapping_div_euclid_defined c a b).safe,
   (I256.wrapping_rem_defined c a b).safe, (I256.wrapping_rem_euclid_defined c a b).safe,
   (I256.saturating_div_defined c a b).safe, (I256.wrapping_div_rem_defined c a b).safe,
   (I256.div_rem_defined c a b).safe, (I256.checked_div_rem_defined c a b).safe,
   (I256.overflowing_div_rem_defined c a b).safe, (I256.saturating_div_rem_defined c a b).safe,
   (I256.wrapping_div_rem_euclid_defined c a b).safe, (I256.div_rem_euclid_defined c a b).safe,
   (I256.checked_div_rem_euclid_defined c a b).safe, (I256.overflowing_div_rem_euclid_defined c a b).safe,
   (I256.saturating_div_rem_euclid_defined c a b).safe⟩

example : (I256.MIN rel).wrapping_div_rem rel (I256.MINUS_ONE rel) = .ok (I256.MIN rel, I256.ZERO)
    ∧ (I256.MIN dbg).checked_div_rem_euclid dbg I256.ZERO = .ok none := by decide +kernel


/-- C41: shifts, rotations and powers of `I256`. -/
theorem C41_i256_shift_pow (c : Cfg) (a : I256) (n : U32) :
    Safe (I256.shl c a n) ∧ Safe (I256.shr c a n) ∧ Safe (I256.shl_assign c a n) ∧ Safe (I256.shr_assign c a n)
    ∧ Safe (I256.rotate_left c a n) ∧ Safe (I256.rotate_right c a n) ∧ Safe (I256.wrapping_shl c a n)
    ∧ Safe (I256.wrapping_shr c a n) ∧ Safe (I256.overflowing_shl c a n) ∧ Safe (I256.overflowing_shr c a n)
    ∧ Safe (I256.checked_shl c a n) ∧ Safe (I256.checked_shr c a n) ∧ Safe (I256.checked_pow c a n)
    ∧ Safe (I256.saturating_pow c a n) ∧ Safe (I256.wrapping_pow c a n) ∧ Safe (I256.overflowing_pow c a n)
    ∧ Safe (I256.pow c a n) :=
  ⟨(I256.shl_defined c a n).safe, (I256.shr_defined c a n).safe, (I256.shl_assign_defined c a n).safe,
   (I256.shr_assign_defined c a n).safe, (I256.rotate_left_defined c a n).safe,
   (I256.rotate_right_defined c a n).safe, (I256.wrapping_shl_defined c a n).safe,
   (I256.wrapping_shr_defined c a n).safe, (I256.overflowing_shl_defined c a n).safe,
   (I256.overflowing_shr_defined c a n).safe, (I256.checked_shl_defined c a n).safe,
   (I256.checked_shr_defined c a n).safe, (I256.checked_pow_defined c a n).safe,
   (I256.saturating_pow_defined c a n).safe, (I256.wrapping_pow_defined c a n).safe,
   (I256.overflowing_pow_defined c a n).safe, (I256.pow_defined c a n).safe⟩



/-- C41: shifts of `I256` by an amount of any integer type. -/
theorem C41_i256_shift_by (c : Cfg) (a : I256) (n : ShiftBy c) :
    Safe (I256.shlBy c a n) ∧ Safe (I256.shrBy c a n) ∧ Safe (I256.shlAssignBy c a n) ∧ Safe (I256.shrAssignBy c a n) :=
  ⟨(I256.shlBy_defined c a n).safe, (I256.shrBy_defined c a n).safe, (I256.shlAssignBy_defined c a n).safe,
   (I256.shrAssignBy_defined c a n).safe⟩



/-- C41: `Sum` and `Product` of `I256`. -/
theorem C41_i256_iter (c : Cfg) (l : List I256) :
    Safe (I256.sum c l) ∧ Safe (I256.product c l) :=
  ⟨(I256.sum_defined c l).safe, (I256.product_defined c l).safe⟩



/-- C41: formatting a `I256`. -/
theorem C41_i256_format (c : Cfg) (a : I256) (f : Formatter) (r : Radix) :
    Safe (I256.display c a f) ∧ Safe (I256.debug c a f) ∧ Safe (I256.fmtRadix c r a f) :=
  ⟨(I256.display_defined c a f).safe, (I256.debug_defined c a f).safe, (I256.fmtRadix_defined c r a f).safe⟩

example : (I256.MIN dbg).display dbg .default
    = .ok "-57896044618658097711785492504343953926634992332820282019728792003956564819968".toList := by decide +kernel


/-- C41: parsing a `I256`, from any bytes and with any radix. -/
theorem C41_i256_parse (c : Cfg) (s : List U8) (r : U32) :
    Safe (I256.from_str_radix c s r) ∧ Safe (I256.from_str c s) ∧ Safe (I256.from_str_hex c s)
    ∧ Safe (I256.from_str_prefixed c s) ∧ Safe (I256.const_from_str_prefixed c s) :=
  ⟨(I256.from_str_radix_defined c s r).safe, (I256.from_str_defined c s).safe, (I256.from_str_hex_defined c s).safe,
   (I256.from_str_prefixed_defined c s).safe, (I256.const_from_str_prefixed_defined c s).safe⟩

example : I256.from_str dbg (str "-1z") = .ok (.error .invalidDigit) ∧ I256.from_str_radix dbg [] 37 = .error (.panic .explicit) := by
  decide +kernel


/-- C41: serialization of a `I256`, and deserialization from any input. -/
theorem C41_i256_serde (c : Cfg) (k : Serde.Chunking) (o : Serde.Order) (a : I256) (i : Serde.Input) :
    Safe (I256.serialize c k a) ∧ Safe (I256.serialize_decimal c k a) ∧ Safe (I256.serialize_bytes c o a)
    ∧ Safe (I256.serialize_compressed c o a) ∧ Safe (I256.deserialize c i) ∧ Safe (I256.deserialize_decimal c i)
    ∧ Safe (I256.deserialize_prefixed c i) ∧ Safe (I256.deserialize_permissive c i)
    ∧ Safe (I256.deserialize_bytes c o i) ∧ Safe (I256.deserialize_compressed c o i) :=
  ⟨(I256.serialize_defined c k a).safe, (I256.serialize_decimal_defined c k a).safe,
   (I256.serialize_bytes_defined c o a).safe, (I256.serialize_compressed_defined c o a).safe,
   (I256.deserialize_defined c i).safe, (I256.deserialize_decimal_defined c i).safe,
   (I256.deserialize_prefixed_defined c i).safe, (I256.deserialize_permissive_defined c i).safe,
   (I256.deserialize_bytes_defined c o i).safe, (I256.deserialize_compressed_defined c o i).safe⟩

example : (I256.MIN dbg).serialize dbg .bytewise = .ok (.str (str "-0x8000000000000000000000000000000000000000000000000000000000000000")) := by
  decide +kernel


/-- C41: the public `intrinsics` module. -/
theorem C41_intrinsics (c : Cfg) (a b : U256) (s t : I256) (x y : U128) (n : U32) (w : Bool) :
    Safe (Native.umulddi3 c x y) ∧ Safe (Intr.mul3 c a b) ∧ Safe (Intr.mul2 c a b) ∧ Safe (Intr.umulc c a b)
    ∧ Safe (Intr.shl2 c a n) ∧ Safe (Intr.shl3 c a n) ∧ Safe (Intr.shr2 c a n) ∧ Safe (Intr.shr3 c a n)
    ∧ Safe (Intr.sar2 c s n) ∧ Safe (Intr.sar3 c s n) ∧ Safe (Intr.ctlz c a) ∧ Safe (Intr.cttz c a)
    ∧ Safe (Intr.imul2 c s t) ∧ Safe (Intr.imul3 c s t) ∧ Safe (Intr.ishl2 c s n) ∧ Safe (Intr.ishl3 c s n)
    ∧ Safe (Intr.ictlz c s) ∧ Safe (Intr.icttz c s) ∧ Safe (Intr.rol3 c a n) ∧ Safe (Intr.ror3 c a n)
    ∧ Safe (Intr.irol3 c s n) ∧ Safe (Intr.iror3 c s n) ∧ Safe (Intr.udivmod4 c a b w) ∧ Safe (Intr.udiv2 c a b)
    ∧ Safe (Intr.udiv3 c a b) ∧ Safe (Intr.urem2 c a b) ∧ Safe (Intr.urem3 c a b) ∧ Safe (Intr.idivmod4 c s t w)
    ∧ Safe (Intr.idiv2 c s t) ∧ Safe (Intr.idiv3 c s t) ∧ Safe (Intr.irem2 c s t) ∧ Safe (Intr.irem3 c s t)
    ∧ Safe (Intr.imulc c s t) :=
  ⟨(Native.umulddi3_defined c x y).safe, (Intr.mul3_defined c a b).safe, (Intr.mul2_defined c a b).safe,
   (Intr.umulc_defined c a b).safe, (Intr.shl2_defined c a n).safe, (Intr.shl3_defined c a n).safe,
   (Intr.shr2_defined c a n).safe, (Intr.shr3_defined c a n).safe, (Intr.sar2_defined c s n).safe,
   (Intr.sar3_defined c s n).safe, (Intr.ctlz_defined c a).safe, (Intr.cttz_defined c a).safe,
   (Intr.imul2_defined c s t).safe, (Intr.imul3_defined c s t).safe, (Intr.ishl2_defined c s n).safe,
   (Intr.ishl3_defined c s n).safe, (Intr.ictlz_defined c s).safe, (Intr.icttz_defined c s).safe,
   (Intr.rol3_defined c a n).safe, (Intr.ror3_defined c a n).safe, (Intr.irol3_defined c s n).safe,
   (Intr.iror3_defined c s n).safe, (Intr.udivmod4_defined c a b w).safe, (Intr.udiv2_defined c a b).safe,
   (Intr.udiv3_defined c a b).safe, (Intr.urem2_defined c a b).safe, (Intr.urem3_defined c a b).safe,
   (Intr.idivmod4_defined c s t w).safe, (Intr.idiv2_defined c s t).safe, (Intr.idiv3_defined c s t).safe,
   (Intr.irem2_defined c s t).safe, (Intr.irem3_defined c s t).safe, (Intr.imulc_defined c s t).safe⟩



/-- C41: conversion of any floating point number, including infinities and NaN. -/
theorem C41_of_float (c : Cfg) (t : FloatTy) (v : t.Val) :
    Safe (U256.of_float c t v) ∧ Safe (I256.of_float c t v) :=
  ⟨(U256.of_float_defined c t v).safe, (I256.of_float_defined c t v).safe⟩


/-- C41: a binary operator or method with a primitive operand is safe if it is safe on two wide integers. -/
theorem C41_mixed_operands {α β : Type} (op : Cfg → U256 → U256 → Res α) (iop : Cfg → I256 → I256 → Res β) (c : Cfg)
    (h : ∀ a b, Safe (op c a b)) (hi : ∀ a b, Safe (iop c a b)) (a : U256) (s : I256) (v : U128) :
    Safe (a.withPrim c op v) ∧ Safe (U256.primWith c op v a) ∧ Safe (s.withPrim c iop v) ∧ Safe (I256.primWith c iop v s) :=
  ⟨h _ _, h _ _, hi _ _, hi _ _⟩

example (c : Cfg) (a : U256) (v : U128) : Safe (a.withPrim c U256.rem v) :=
  (C41_mixed_operands U256.rem I256.rem c (fun a b => (U256.rem_defined c a b).safe)
    (fun a b => (I256.rem_defined c a b).safe) a I256.ZERO v).1

end Ethnum
