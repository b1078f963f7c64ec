import Verif.Proofs.Convert
import Verif.Props.Repr

/-
C23 From/TryFrom, C24 `as` casts.
-/

namespace Ethnum

/-! ### C23 -/

/-- What a primitive value denotes stays in the type's range and determines the value: the numbers used
in the statements below are the usual ones. -/
theorem C23_prim_spec (c : Cfg) (t : PrimTy) (x y : t.Val c) :
    t.minVal c ≤ t.toInt x ∧ t.toInt x ≤ t.maxVal c ∧ (t.toInt x = t.toInt y → x = y) :=
  ⟨t.toInt_ge x, t.toInt_le x, t.toInt_inj⟩

example : PrimTy.i8.minVal dbg = -128 ∧ PrimTy.isize.maxVal rel = 2 ^ 31 - 1 ∧ PrimTy.u128.maxVal dbg = 2 ^ 128 - 1
    ∧ PrimTy.i16.toInt (c := dbg) (-2) = -2 ∧ PrimTy.u16.toInt (c := dbg) (-2) = 65534 := by decide

/-- The ranges of the twelve primitive types, written out. -/
theorem C23_prim_ranges (c : Cfg) :
    (PrimTy.u8.minVal c = 0 ∧ PrimTy.u8.maxVal c = 255) ∧ (PrimTy.i8.minVal c = -128 ∧ PrimTy.i8.maxVal c = 127)
    ∧ (PrimTy.u16.minVal c = 0 ∧ PrimTy.u16.maxVal c = 65535)
    ∧ (PrimTy.i16.minVal c = -32768 ∧ PrimTy.i16.maxVal c = 32767)
    ∧ (PrimTy.u32.minVal c = 0 ∧ PrimTy.u32.maxVal c = 4294967295)
    ∧ (PrimTy.i32.minVal c = -2147483648 ∧ PrimTy.i32.maxVal c = 2147483647)
    ∧ (PrimTy.u64.minVal c = 0 ∧ PrimTy.u64.maxVal c = 18446744073709551615)
    ∧ (PrimTy.i64.minVal c = -9223372036854775808 ∧ PrimTy.i64.maxVal c = 9223372036854775807)
    ∧ (PrimTy.u128.minVal c = 0 ∧ PrimTy.u128.maxVal c = 340282366920938463463374607431768211455)
    ∧ (PrimTy.i128.minVal c = -170141183460469231731687303715884105728
      ∧ PrimTy.i128.maxVal c = 170141183460469231731687303715884105727)
    ∧ (c.ptr = .w16 → PrimTy.usize.minVal c = 0 ∧ PrimTy.usize.maxVal c = 65535
      ∧ PrimTy.isize.minVal c = -32768 ∧ PrimTy.isize.maxVal c = 32767)
    ∧ (c.ptr = .w32 → PrimTy.usize.minVal c = 0 ∧ PrimTy.usize.maxVal c = 4294967295
      ∧ PrimTy.isize.minVal c = -2147483648 ∧ PrimTy.isize.maxVal c = 2147483647)
    ∧ (c.ptr = .w64 → PrimTy.usize.minVal c = 0 ∧ PrimTy.usize.maxVal c = 18446744073709551615
      ∧ PrimTy.isize.minVal c = -9223372036854775808 ∧ PrimTy.isize.maxVal c = 9223372036854775807) := by
  rcases c with ⟨_ | _, _ | _, _ | _, _ | _ | _, _ | _⟩ <;> decide +kernel

/-- The infallible `From<uN> for U256` preserves the number. -/
theorem C23_u256_from_prim (c : Cfg) (t : PrimTy) (ht : t ∈ [.u8, .u16, .u32, .u64, .u128]) (x : t.Val c) :
    ((U256.from_prim c t x).toNat c : Int) = t.toInt x := by
  have hs : t.signed = false := by simp only [List.mem_cons, List.not_mem_nil, or_false] at ht; rcases ht with h | h | h | h | h <;> subst h <;> rfl
  have h0 : 0 ≤ t.toInt x := by
    unfold PrimTy.toInt; rw [if_neg (by simp [hs])]; exact Int.natCast_nonneg _
  unfold U256.from_prim
  rw [U256.from_prim_eq c t x h0, U256.toNat_ofInt_of_range c h0]
  have := t.toInt_le x; have := t.maxVal_lt (c := c); omega

example : PrimTy.u64 ∈ [PrimTy.u8, .u16, .u32, .u64, .u128] ∧ (U256.from_prim rel .u64 (-1)).toNat rel = 2 ^ 64 - 1 := by decide

/-- `From<iN/uN> for I256` preserves the number. -/
theorem C23_i256_from_prim (c : Cfg) (t : PrimTy) (x : t.Val c) :
    (I256.from_prim c t x).toInt c = t.toInt x := by
  unfold I256.from_prim
  rw [I256.of_prim_as_eq]
  apply I256.toInt_ofInt_of_in
  have := t.toInt_le x; have := t.maxVal_lt (c := c); have := t.toInt_ge x; have := t.minVal_ge (c := c)
  unfold InI256; omega

example : (I256.from_prim dbg .i8 (-3)).toInt dbg = -3 ∧ (I256.from_prim dbg .u128 (-1)).toInt dbg = 2 ^ 128 - 1 := by
  decide

/-- Which conversions from primitive integers exist. To `U256`, each type has exactly one: an infallible one if no value of
the type can be negative, but for `usize`, whose conversion is fallible; a fallible one for the signed types. To `I256`,
all but the pointer-sized types convert infallibly. -/
theorem C23_which (t : PrimTy) :
    (t ∈ U256.fromTypes ↔ t ∉ U256.tryFromTypes)
    ∧ (t ∈ U256.fromTypes ↔ t ≠ .usize ∧ ∀ c, 0 ≤ t.minVal c)
    ∧ (t ∈ I256.fromTypes ↔ t ≠ .usize ∧ t ≠ .isize) := by
  refine ⟨by cases t <;> decide, ?_, by cases t <;> decide⟩
  have key : ∀ t : PrimTy, t ∈ U256.fromTypes ↔ t ≠ .usize ∧ t.signed = false := by
    intro t; cases t <;> decide
  rw [key t]
  refine and_congr_right fun _ => ?_
  constructor
  · intro h c; simp [PrimTy.minVal, h]
  · intro h
    cases hs : t.signed with
    | false => rfl
    | true =>
      have := h dbg
      simp only [PrimTy.minVal, hs, if_true] at this
      have hp : (0 : Int) < 2 ^ (t.bits dbg - 1) := by positivity
      omega

example : PrimTy.u64 ∈ U256.fromTypes ∧ PrimTy.i64 ∈ U256.tryFromTypes ∧ PrimTy.u128 ∈ I256.fromTypes := by decide

/-- `From<bool>`. -/
theorem C23_from_bool (c : Cfg) (b : Bool) :
    (U256.of_bool c b).toNat c = (if b then 1 else 0) ∧ (I256.of_bool c b).toInt c = (if b then 1 else 0) :=
  ⟨of_bool_toNat c b, of_bool_toInt c b⟩

example : (U256.of_bool rel true).toNat rel = 1 ∧ (I256.of_bool dbg false).toInt dbg = 0 := by decide

/-- `TryFrom<iN/usize> for U256` returns `y` exactly when `y` is the number; in particular it fails
exactly on negative numbers. -/
theorem C23_u256_try_from_prim (c : Cfg) (t : PrimTy) (x : t.Val c) (y : U256) :
    (U256.try_from_prim c t x = some y ↔ (y.toNat c : Int) = t.toInt x)
    ∧ (U256.try_from_prim c t x = none ↔ t.toInt x < 0) := by
  have h1 := t.toInt_le x; have h2 := t.maxVal_lt (c := c)
  rw [U256.try_from_prim_eq]
  by_cases h : 0 ≤ t.toInt x
  · rw [if_pos h]
    refine ⟨⟨fun hh => ?_, fun hh => ?_⟩, ?_⟩
    · rw [← Option.some.inj hh, U256.toNat_ofInt_of_range c h (by omega)]
    · rw [← hh, U256.ofInt_natCast, U256.ofNat_toNat]
    · simp; omega
  · rw [if_neg h]
    refine ⟨⟨fun hh => by simp at hh, fun hh => by omega⟩, ?_⟩
    simp; omega

example : U256.try_from_prim dbg .i8 (-1) = none ∧ U256.try_from_prim rel .isize 9 = some (U256.new rel 9) := by
  decide

/-- `TryFrom<U256> for P` returns `v` exactly when `v` is the number; in particular it succeeds
exactly when the number is in the range of `P`. -/
theorem C23_prim_try_from_u256 (c : Cfg) (t : PrimTy) (x : U256) :
    (∀ v, x.prim_try_from c t = some v ↔ t.toInt v = x.toNat c)
    ∧ (x.prim_try_from c t ≠ none ↔ (x.toNat c : Int) ≤ t.maxVal c) := by
  refine ⟨U256.prim_try_from_some c t x, ?_⟩
  constructor
  · intro h
    obtain ⟨v, hv⟩ := Option.ne_none_iff_exists'.1 h
    have := (U256.prim_try_from_some c t x v).1 hv
    have := t.toInt_le v; omega
  · intro h
    have hv : t.toInt (c := c) ((x.low c).setWidth (t.bits c)) = x.toNat c :=
      t.toInt_of_emod (U256.toNat_setWidth_low c x t) (by have := t.minVal_le (c := c); omega) h
    rw [(U256.prim_try_from_some c t x _).2 hv]; simp

example : (U256.new dbg 255).prim_try_from dbg .u8 = some 255 ∧ (U256.new dbg 256).prim_try_from dbg .u8 = none
    ∧ (U256.new dbg 128).prim_try_from dbg .i8 = none ∧ (U256.new rel (2 ^ 31)).prim_try_from rel .isize = none := by
  decide

/-- `TryFrom<I256> for P`. -/
theorem C23_prim_try_from_i256 (c : Cfg) (t : PrimTy) (x : I256) :
    (∀ v, x.prim_try_from c t = some v ↔ t.toInt v = x.toInt c)
    ∧ (x.prim_try_from c t ≠ none ↔ t.minVal c ≤ x.toInt c ∧ x.toInt c ≤ t.maxVal c) := by
  refine ⟨I256.prim_try_from_some c t x, ?_⟩
  constructor
  · intro h
    obtain ⟨v, hv⟩ := Option.ne_none_iff_exists'.1 h
    have := (I256.prim_try_from_some c t x v).1 hv
    have := t.toInt_le v; have := t.toInt_ge v; omega
  · intro h
    have hv : t.toInt (c := c) ((x.low c).setWidth (t.bits c)) = x.toInt c :=
      t.toInt_of_emod (I256.toNat_setWidth_low c x t) h.1 h.2
    rw [(I256.prim_try_from_some c t x _).2 hv]; simp

example : (I256.new dbg (-128)).prim_try_from dbg .i8 = some (-128) ∧ (I256.new dbg (-129)).prim_try_from dbg .i8 = none
    ∧ (I256.new dbg (-1)).prim_try_from dbg .u128 = none := by decide

/-- `TryFrom` between `U256` and `I256`. -/
theorem C23_between (c : Cfg) (x : U256) (y : I256) :
    (I256.try_from_u256 c x = some y ↔ y.toInt c = x.toNat c)
    ∧ (I256.try_from_u256 c x = none ↔ 2 ^ 255 ≤ x.toNat c)
    ∧ (U256.try_from_i256 c y = some x ↔ (x.toNat c : Int) = y.toInt c)
    ∧ (U256.try_from_i256 c y = none ↔ y.toInt c < 0) := by
  have hx := U256.toNat_lt c x
  have hy1 := I256.toInt_lt c y; have hy2 := I256.le_toInt c y
  unfold I256.try_from_u256 U256.try_from_i256
  rw [U256.gt_eq, I256.toNat_as_u256, I256.toNat_MAX, I256.lt_prim_eq, toInt_0]
  refine ⟨?_, ?_, ?_, ?_⟩
  · by_cases h : 2 ^ 255 - 1 < x.toNat c
    · rw [if_pos (decide_eq_true h)]; simp; omega
    · rw [if_neg (by simpa using h)]
      have hv : x.as_i256.toInt c = x.toNat c := by
        rw [I256.toInt_of_lt c (by rw [I256.toNat_as_i256]; omega), I256.toNat_as_i256]
      constructor
      · intro e; rw [← Option.some.inj e, hv]
      · intro e; rw [← hv] at e; rw [I256.toInt_inj c e]
  · by_cases h : 2 ^ 255 - 1 < x.toNat c
    · rw [if_pos (decide_eq_true h)]; simp; omega
    · rw [if_neg (by simpa using h)]; simp; omega
  · by_cases h : y.toInt c < 0
    · rw [if_pos (decide_eq_true h)]; simp; omega
    · rw [if_neg (by simpa using h)]
      have hv : (y.as_u256.toNat c : Int) = y.toInt c := by
        rw [I256.toNat_as_u256, I256.toNat_toInt]; omega
      constructor
      · intro e; rw [← Option.some.inj e, hv]
      · intro e; rw [← hv] at e; rw [U256.toNat_inj c (Int.ofNat.inj e)]
  · by_cases h : y.toInt c < 0
    · rw [if_pos (decide_eq_true h)]; simp; omega
    · rw [if_neg (by simpa using h)]; simp; omega

example : I256.try_from_u256 dbg U256.MAX = none ∧ U256.try_from_i256 dbg (I256.MINUS_ONE dbg) = none
    ∧ I256.try_from_u256 rel (U256.from_words rel 1 2) = some (I256.from_words rel 1 2) := by decide

/-! ### C24 -/

/-- C24: `as_i8` … `as_usize` on `U256`: the value of the target range congruent to the source. -/
theorem C24_u256_as_prim (c : Cfg) (t : PrimTy) (x : U256) :
    t.minVal c ≤ t.toInt (x.as_prim c t) ∧ t.toInt (x.as_prim c t) ≤ t.maxVal c
    ∧ t.toInt (x.as_prim c t) % 2 ^ t.bits c = (x.toNat c : Int) % 2 ^ t.bits c :=
  ⟨t.toInt_ge _, t.toInt_le _, by rw [t.toInt_emod, U256.toNat_as_prim]⟩

example : (U256.MAX).as_prim dbg .i32 = -1 ∧ (U256.from_words rel 7 300).as_prim rel .u8 = 44 := by decide

theorem C24_i256_as_prim (c : Cfg) (t : PrimTy) (x : I256) :
    t.minVal c ≤ t.toInt (x.as_prim c t) ∧ t.toInt (x.as_prim c t) ≤ t.maxVal c
    ∧ t.toInt (x.as_prim c t) % 2 ^ t.bits c = x.toInt c % 2 ^ t.bits c :=
  ⟨t.toInt_ge _, t.toInt_le _, by rw [t.toInt_emod, I256.toNat_as_prim]⟩

example : (I256.new dbg (-200)).as_prim dbg .i8 = 56 := by decide

/-- The residue and the range determine the value, so the two theorems above leave no freedom. -/
theorem C24_unique (c : Cfg) (t : PrimTy) (v : t.Val c) (z : Int) (h1 : t.minVal c ≤ z) (h2 : z ≤ t.maxVal c)
    (h : t.toInt v % 2 ^ t.bits c = z % 2 ^ t.bits c) : t.toInt v = z :=
  t.toInt_of_emod (by rw [← t.toInt_emod, h]) h1 h2

example : PrimTy.i8.minVal dbg ≤ 56 ∧ 56 ≤ PrimTy.i8.maxVal dbg
    ∧ PrimTy.i8.toInt ((I256.new dbg (-200)).as_prim dbg .i8) % 2 ^ PrimTy.i8.bits dbg = 56 % 2 ^ PrimTy.i8.bits dbg := by
  decide

/-- C24: `AsU256`/`AsI256` on primitives (sign extending signed sources) and on each other. -/
theorem C24_as_wide (c : Cfg) (t : PrimTy) (p : t.Val c) (x : U256) (y : I256) :
    ((U256.of_prim_as c t p).toNat c : Int) = t.toInt p % 2 ^ 256
    ∧ (I256.of_prim_as c t p).toInt c = t.toInt p
    ∧ (x.as_i256.toInt c) % 2 ^ 256 = (x.toNat c : Int) % 2 ^ 256
    ∧ (y.as_u256.toNat c : Int) = y.toInt c % 2 ^ 256 := by
  refine ⟨?_, C23_i256_from_prim c t p, ?_, ?_⟩
  · rw [U256.of_prim_as_eq, U256.toNat_ofInt]
  · rw [← I256.toNat_toInt, I256.toNat_as_i256]
    have := U256.toNat_lt c x; omega
  · rw [I256.toNat_as_u256, I256.toNat_toInt]

example : U256.of_prim_as dbg .i16 (-1) = U256.MAX ∧ U256.MAX.as_i256 = I256.MINUS_ONE rel := by decide

end Ethnum
