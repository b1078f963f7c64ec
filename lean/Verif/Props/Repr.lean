import Verif.Proofs.Words
import Verif.Proofs.Bv
import Verif.Proofs.Ops

/-
C01 words, C20 comparison/equality/hashing, C21 bitwise operators.
-/

namespace Ethnum

/-- Sample configurations for the concrete instances beside the theorems: a debug build on a
64-bit little-endian target and a release build on a 32-bit big-endian one. -/
def dbg : Cfg := ⟨false, true, true, .w64, false⟩
def rel : Cfg := ⟨true, false, false, .w32, false⟩
/-- A big-endian debug build with the LLVM back-end, for the examples. -/
def dll : Cfg := ⟨true, true, true, .w32, true⟩
/-- A little-endian release build with the LLVM back-end, for the examples. -/
def rll : Cfg := ⟨false, false, false, .w64, true⟩

/-! ### C01 -/

/-- C01: `from_words(hi, lo)` denotes `hi * 2^128 + lo`. -/
theorem C01_u256_from_words (c : Cfg) (hi lo : U128) :
    (U256.from_words c hi lo).toNat c = hi.toNat * 2 ^ 128 + lo.toNat := U256.toNat_from_words c hi lo

example : (U256.from_words rel 3 7).toNat rel = 3 * 2 ^ 128 + 7 := by decide

/-- C01, signed: the high word is signed, the low word's bits are unsigned. -/
theorem C01_i256_from_words (c : Cfg) (hi lo : U128) :
    (I256.from_words c hi lo).toInt c = hi.toInt * 2 ^ 128 + lo.toNat := by
  rw [I256.toInt_eq_words]; simp

example : (I256.from_words dbg (-3) (-7)).toInt dbg = -3 * 2 ^ 128 + (2 ^ 128 - 7) := by decide

/-- C01: reading the words back. -/
theorem C01_words_roundtrip (c : Cfg) (hi lo : U128) :
    (U256.from_words c hi lo).into_words c = (hi, lo)
    ∧ (U256.from_words c hi lo).high c = hi ∧ (U256.from_words c hi lo).low c = lo
    ∧ (I256.from_words c hi lo).into_words c = (hi, lo)
    ∧ (I256.from_words c hi lo).high c = hi ∧ (I256.from_words c hi lo).low c = lo := by
  simp

example : (U256.from_words rel 3 5).into_words rel = (3, 5) ∧ (U256.from_words rel 3 5).low rel = 5
    ∧ (U256.from_words rel 3 5).toNat rel = 3 * 2 ^ 128 + 5 := by decide

/-- C01: any value is rebuilt from its words, and `high`/`low`/`into_words` agree. -/
theorem C01_words_rebuild (c : Cfg) (x : U256) (y : I256) :
    U256.from_words c (x.into_words c).1 (x.into_words c).2 = x
    ∧ x.into_words c = (x.high c, x.low c)
    ∧ I256.from_words c (y.into_words c).1 (y.into_words c).2 = y
    ∧ y.into_words c = (y.high c, y.low c) := by
  simp

example : (I256.ofInt dbg (-2)).into_words dbg = (-1, -2) := by decide

/-- C01: writing one word changes that word and only that word. -/
theorem C01_set_words (c : Cfg) (x : U256) (y : I256) (v : U128) :
    (x.set_low c v).low c = v ∧ (x.set_low c v).high c = x.high c
    ∧ (x.set_high c v).high c = v ∧ (x.set_high c v).low c = x.low c
    ∧ (y.set_low c v).low c = v ∧ (y.set_low c v).high c = y.high c
    ∧ (y.set_high c v).high c = v ∧ (y.set_high c v).low c = y.low c := by
  refine ⟨?_, ?_, ?_, ?_, ?_, ?_, ?_, ?_⟩ <;>
    simp [U256.set_low_eq, U256.set_high_eq, I256.set_low_eq, I256.set_high_eq]

example : ((U256.from_words dbg 1 2).set_high dbg 9).toNat dbg = 9 * 2 ^ 128 + 2 := by decide

/-- C01: every number below `2^256` has exactly one `U256`, and every `U256` denotes such a number. -/
theorem C01_u256_bijection (c : Cfg) :
    (∀ x : U256, x.toNat c < 2 ^ 256) ∧
    ∀ n < 2 ^ 256, ∃ x : U256, x.toNat c = n ∧ ∀ y : U256, y.toNat c = n → y = x := by
  refine ⟨U256.toNat_lt c, fun n hn => ⟨U256.ofNat c n, U256.toNat_ofNat_of_lt c hn, ?_⟩⟩
  intro y hy
  exact U256.toNat_inj c (by rw [hy, U256.toNat_ofNat_of_lt c hn])

example : U256.MAX.toNat rel = 2 ^ 256 - 1 := by decide

/-- C01: every number in `[-2^255, 2^255)` has exactly one `I256`, and conversely. -/
theorem C01_i256_bijection (c : Cfg) :
    (∀ x : I256, -2 ^ 255 ≤ x.toInt c ∧ x.toInt c < 2 ^ 255) ∧
    ∀ z : Int, -2 ^ 255 ≤ z → z < 2 ^ 255 →
      ∃ x : I256, x.toInt c = z ∧ ∀ y : I256, y.toInt c = z → y = x := by
  refine ⟨fun x => ⟨I256.le_toInt c x, I256.toInt_lt c x⟩, fun z h1 h2 =>
    ⟨I256.ofInt c z, I256.toInt_ofInt_of_in c ⟨h1, h2⟩, ?_⟩⟩
  intro y hy
  exact I256.toInt_inj c (by rw [hy, I256.toInt_ofInt_of_in c ⟨h1, h2⟩])

example : (I256.MIN dbg).toInt dbg = -2 ^ 255 ∧ (I256.MAX rel).toInt rel = 2 ^ 255 - 1 := by decide

/-- The specification functions `ofNat`/`ofInt` used in the other statements really are the
values denoting the number modulo `2^256`. -/
theorem C01_spec_ofNat (c : Cfg) (n : Nat) (z : Int) :
    (U256.ofNat c n).toNat c = n % 2 ^ 256
    ∧ ((U256.ofInt c z).toNat c : Int) = z % 2 ^ 256
    ∧ (I256.ofInt c z).toInt c % 2 ^ 256 = z % 2 ^ 256 := by
  refine ⟨U256.toNat_ofNat c n, U256.toNat_ofInt c z, ?_⟩
  have := I256.toInt_ofInt c z; omega

example : (I256.ofInt dbg (2 ^ 256 - 3)).toInt dbg = -3 := by decide

/-- C01: constructors and constants. -/
theorem C01_constants (c : Cfg) (v : U128) :
    (U256.new c v).toNat c = v.toNat ∧ (I256.new c v).toInt c = v.toInt
    ∧ U256.ZERO.toNat c = 0 ∧ (U256.ONE c).toNat c = 1
    ∧ U256.MIN.toNat c = 0 ∧ U256.MAX.toNat c = 2 ^ 256 - 1
    ∧ I256.ZERO.toInt c = 0 ∧ (I256.ONE c).toInt c = 1 ∧ (I256.MINUS_ONE c).toInt c = -1
    ∧ (I256.MIN c).toInt c = -2 ^ 255 ∧ (I256.MAX c).toInt c = 2 ^ 255 - 1
    ∧ U256.BITS.toNat = 256 ∧ I256.BITS.toNat = 256 := by
  refine ⟨U256.toNat_new c v, I256.toInt_new c v, U256.toNat_ZERO c, U256.toNat_ONE c, U256.toNat_MIN c,
    U256.toNat_MAX c, I256.toInt_ZERO c, I256.toInt_ONE c, I256.toInt_MINUS_ONE c, I256.toInt_MIN c,
    I256.toInt_MAX c, rfl, rfl⟩

example : (I256.new rel (-5)).toInt rel = -5 := by decide

/-! ### C20 -/

/-- C20: all comparison operators on `U256` are those of the numbers. -/
theorem C20_u256_cmp (c : Cfg) (a b : U256) :
    a.cmp c b = compare (a.toNat c) (b.toNat c)
    ∧ a.partial_cmp c b = some (compare (a.toNat c) (b.toNat c))
    ∧ a.eq c b = decide (a.toNat c = b.toNat c) ∧ a.ne c b = decide (a.toNat c ≠ b.toNat c)
    ∧ a.lt c b = decide (a.toNat c < b.toNat c) ∧ a.le c b = decide (a.toNat c ≤ b.toNat c)
    ∧ a.gt c b = decide (a.toNat c > b.toNat c) ∧ a.ge c b = decide (a.toNat c ≥ b.toNat c) :=
  ⟨U256.cmp_eq c a b, congrArg some (U256.cmp_eq c a b), U256.eq_eq c a b, U256.ne_eq c a b,
    U256.lt_eq c a b, U256.le_eq c a b, U256.gt_eq c a b, U256.ge_eq c a b⟩

example : (U256.from_words dbg 1 0).gt dbg (U256.from_words dbg 0 (-1)) = true := by decide

/-- C20: all comparison operators on `I256` are those of the numbers. -/
theorem C20_i256_cmp (c : Cfg) (a b : I256) :
    a.cmp c b = compare (a.toInt c) (b.toInt c)
    ∧ a.partial_cmp c b = some (compare (a.toInt c) (b.toInt c))
    ∧ a.eq c b = decide (a.toInt c = b.toInt c) ∧ a.ne c b = decide (a.toInt c ≠ b.toInt c)
    ∧ a.lt c b = decide (a.toInt c < b.toInt c) ∧ a.le c b = decide (a.toInt c ≤ b.toInt c)
    ∧ a.gt c b = decide (a.toInt c > b.toInt c) ∧ a.ge c b = decide (a.toInt c ≥ b.toInt c) :=
  ⟨I256.cmp_eq c a b, congrArg some (I256.cmp_eq c a b), I256.eq_eq c a b, I256.ne_eq c a b,
    I256.lt_eq c a b, I256.le_eq c a b, I256.gt_eq c a b, I256.ge_eq c a b⟩

example : (I256.MIN rel).lt rel (I256.MAX rel) = true := by decide

/-- C20: comparisons of a `U256` with a `u128`, on either side. -/
theorem C20_u256_prim (c : Cfg) (a : U256) (p : U128) :
    a.eq_prim c p = decide (a.toNat c = p.toNat) ∧ U256.prim_eq c p a = decide (p.toNat = a.toNat c)
    ∧ a.partial_cmp_prim c p = some (compare (a.toNat c) p.toNat)
    ∧ U256.prim_partial_cmp c p a = some (compare p.toNat (a.toNat c))
    ∧ a.lt_prim c p = decide (a.toNat c < p.toNat) ∧ a.le_prim c p = decide (a.toNat c ≤ p.toNat)
    ∧ a.gt_prim c p = decide (a.toNat c > p.toNat) ∧ a.ge_prim c p = decide (a.toNat c ≥ p.toNat) := by
  refine ⟨U256.eq_prim_eq c a p, U256.prim_eq_eq c a p, ?_, ?_, U256.lt_prim_eq c a p, U256.le_prim_eq c a p,
    U256.gt_prim_eq c a p, U256.ge_prim_eq c a p⟩
  · unfold U256.partial_cmp_prim; rw [U256.cmp_eq, U256.toNat_new]
  · unfold U256.prim_partial_cmp; rw [U256.cmp_eq, U256.toNat_new]

example : (U256.from_words dbg 1 0).gt_prim dbg (-1) = true ∧ (U256.new rel 7).eq_prim rel 7 = true := by decide

/-- C20: comparisons of an `I256` with an `i128`, on either side. -/
theorem C20_i256_prim (c : Cfg) (a : I256) (p : U128) :
    a.eq_prim c p = decide (a.toInt c = p.toInt) ∧ I256.prim_eq c p a = decide (p.toInt = a.toInt c)
    ∧ a.partial_cmp_prim c p = some (compare (a.toInt c) p.toInt)
    ∧ I256.prim_partial_cmp c p a = some (compare p.toInt (a.toInt c))
    ∧ a.lt_prim c p = decide (a.toInt c < p.toInt) ∧ a.le_prim c p = decide (a.toInt c ≤ p.toInt)
    ∧ a.gt_prim c p = decide (a.toInt c > p.toInt) ∧ a.ge_prim c p = decide (a.toInt c ≥ p.toInt) := by
  refine ⟨I256.eq_prim_eq c a p, I256.prim_eq_eq c a p, ?_, ?_, I256.lt_prim_eq c a p, I256.le_prim_eq c a p,
    I256.gt_prim_eq c a p, I256.ge_prim_eq c a p⟩
  · unfold I256.partial_cmp_prim; rw [I256.cmp_eq, I256.toInt_new]
  · unfold I256.prim_partial_cmp; rw [I256.cmp_eq, I256.toInt_new]

example : I256.prim_eq dbg (-1) (I256.MINUS_ONE dbg) = true ∧ (I256.MIN dbg).lt_prim dbg (-1) = true := by
  decide

/-- C20: equal numbers feed equal words to a hasher, different numbers different words. -/
theorem C20_hash (c : Cfg) (a b : U256) (x y : I256) :
    (a.hash_words = b.hash_words ↔ a.toNat c = b.toNat c)
    ∧ (x.hash_words = y.hash_words ↔ x.toInt c = y.toInt c) := by
  constructor
  · rw [U256.toNat_inj_iff]
    constructor
    · intro h; simp only [U256.hash_words, List.cons.injEq, and_true] at h; exact U256.ext h.1 h.2
    · rintro rfl; rfl
  · rw [I256.toInt_inj_iff]
    constructor
    · intro h; simp only [I256.hash_words, List.cons.injEq, and_true] at h; exact I256.ext h.1 h.2
    · rintro rfl; rfl

example : (U256.new dbg 1).hash_words ≠ (U256.new dbg 2).hash_words := by decide

/-! ### C21 -/

/-- C21: `!`, `&`, `|`, `^` on `U256` and their assigning forms act on the binary digits. -/
theorem C21_u256_bitwise (c : Cfg) (a b : U256) :
    (a.bitand b).toNat c = a.toNat c &&& b.toNat c ∧ (a.bitor b).toNat c = a.toNat c ||| b.toNat c
    ∧ (a.bitxor b).toNat c = a.toNat c ^^^ b.toNat c ∧ (a.not).toNat c = 2 ^ 256 - 1 - a.toNat c
    ∧ a.bitand_assign b = a.bitand b ∧ a.bitor_assign b = a.bitor b ∧ a.bitxor_assign b = a.bitxor b :=
  ⟨U256.toNat_bitand c a b, U256.toNat_bitor c a b, U256.toNat_bitxor c a b, U256.toNat_not c a, rfl, rfl, rfl⟩

example : ((U256.from_words dbg 0b1100 5).bitxor (U256.from_words dbg 0b1010 1)).toNat dbg
    = 0b0110 * 2 ^ 128 + 4 := by decide

/-- C21: the same on the two's complement pattern of `I256`. -/
theorem C21_i256_bitwise (c : Cfg) (a b : I256) :
    (a.bitand b).toNat c = a.toNat c &&& b.toNat c ∧ (a.bitor b).toNat c = a.toNat c ||| b.toNat c
    ∧ (a.bitxor b).toNat c = a.toNat c ^^^ b.toNat c ∧ (a.not).toInt c = -a.toInt c - 1
    ∧ a.bitand_assign b = a.bitand b ∧ a.bitor_assign b = a.bitor b ∧ a.bitxor_assign b = a.bitxor b :=
  ⟨I256.toNat_bitand c a b, I256.toNat_bitor c a b, I256.toNat_bitxor c a b,
    by rw [I256.toInt_not]; omega, rfl, rfl, rfl⟩

example : ((I256.MIN rel).not).toInt rel = 2 ^ 255 - 1 := by decide

/-- C21, bit by bit: bit `i` of the result is the operator applied to bit `i` of the operands. -/
theorem C21_testBit (c : Cfg) (a b : U256) (i : Nat) (hi : i < 256) :
    ((a.bitand b).toNat c).testBit i = ((a.toNat c).testBit i && (b.toNat c).testBit i)
    ∧ ((a.bitor b).toNat c).testBit i = ((a.toNat c).testBit i || (b.toNat c).testBit i)
    ∧ ((a.bitxor b).toNat c).testBit i = ((a.toNat c).testBit i ^^ (b.toNat c).testBit i)
    ∧ ((a.not).toNat c).testBit i = !(a.toNat c).testBit i := by
  refine ⟨?_, ?_, ?_, ?_⟩ <;> simp only [U256.testBit_toNat, U256.bv_bitand, U256.bv_bitor,
    U256.bv_bitxor, U256.bv_not, BitVec.getLsbD_and, BitVec.getLsbD_or, BitVec.getLsbD_xor,
    BitVec.getLsbD_not, hi, decide_true, Bool.true_and]

example : ((U256.MAX).toNat dbg).testBit 255 = true ∧ (255 < 256) := by decide

end Ethnum
