import Verif.Spec

/-! Words, values and constants. -/

namespace Ethnum

@[simp] theorem toInt_0 : BitVec.toInt (0 : U128) = 0 := rfl
@[simp] theorem toInt_1 : BitVec.toInt (1 : U128) = 1 := rfl
@[simp] theorem toInt_2 : BitVec.toInt (2 : U128) = 2 := rfl
@[simp] theorem toInt_m1 : BitVec.toInt (-1 : U128) = -1 := rfl
@[simp] theorem toNat_0 : BitVec.toNat (0 : U128) = 0 := rfl
@[simp] theorem toNat_1 : BitVec.toNat (1 : U128) = 1 := rfl

namespace U256

variable (c : Cfg)

@[simp] theorem high_from_words (h l : U128) : (from_words c h l).high c = h := by
  unfold high from_words; split <;> rfl
@[simp] theorem low_from_words (h l : U128) : (from_words c h l).low c = l := by
  unfold low from_words; split <;> rfl
@[simp] theorem from_words_high_low (x : U256) : from_words c (x.high c) (x.low c) = x := by
  unfold high low from_words; split <;> rfl
@[simp] theorem into_words_eq (x : U256) : x.into_words c = (x.high c, x.low c) := by
  unfold high low into_words; split <;> rfl
theorem set_low_eq (x : U256) (v : U128) : x.set_low c v = from_words c (x.high c) v := by
  unfold high set_low from_words; split <;> rfl
theorem set_high_eq (x : U256) (v : U128) : x.set_high c v = from_words c v (x.low c) := by
  unfold low set_high from_words; split <;> rfl
@[simp] theorem high_set_low (x : U256) (v : U128) : (x.set_low c v).high c = x.high c := by
  simp [set_low_eq]
@[simp] theorem low_set_low (x : U256) (v : U128) : (x.set_low c v).low c = v := by
  simp [set_low_eq]
@[simp] theorem high_set_high (x : U256) (v : U128) : (x.set_high c v).high c = v := by
  simp [set_high_eq]
@[simp] theorem low_set_high (x : U256) (v : U128) : (x.set_high c v).low c = x.low c := by
  simp [set_high_eq]

theorem toNat_eq (x : U256) : x.toNat c = (x.high c).toNat * 2 ^ 128 + (x.low c).toNat := by
  unfold toNat high low; split <;> rfl
theorem ofNat_eq (n : Nat) :
    ofNat c n = from_words c (BitVec.ofNat 128 (n / 2 ^ 128)) (BitVec.ofNat 128 n) := by
  unfold ofNat from_words; split <;> rfl
@[simp] theorem high_ofNat (n : Nat) : (ofNat c n).high c = BitVec.ofNat 128 (n / 2 ^ 128) := by
  simp [ofNat_eq]
@[simp] theorem low_ofNat (n : Nat) : (ofNat c n).low c = BitVec.ofNat 128 n := by
  simp [ofNat_eq]
@[simp] theorem toNat_from_words (h l : U128) :
    (from_words c h l).toNat c = h.toNat * 2 ^ 128 + l.toNat := by simp [toNat_eq]

theorem toNat_lt (x : U256) : x.toNat c < 2 ^ 256 := by
  rw [toNat_eq]; have := (x.high c).isLt; have := (x.low c).isLt; omega

theorem high_toNat (x : U256) : (x.high c).toNat = x.toNat c / 2 ^ 128 := by
  rw [toNat_eq]; have := (x.low c).isLt; omega
theorem low_toNat (x : U256) : (x.low c).toNat = x.toNat c % 2 ^ 128 := by
  rw [toNat_eq]; have := (x.low c).isLt; omega

theorem toNat_ofNat (n : Nat) : (ofNat c n).toNat c = n % 2 ^ 256 := by
  simp only [toNat_eq, high_ofNat, low_ofNat, BitVec.toNat_ofNat]; omega
theorem toNat_ofNat_of_lt {n : Nat} (h : n < 2 ^ 256) : (ofNat c n).toNat c = n := by
  rw [toNat_ofNat, Nat.mod_eq_of_lt h]

theorem ext_hl {x y : U256} (h : x.high c = y.high c) (l : x.low c = y.low c) : x = y := by
  rw [← from_words_high_low c x, ← from_words_high_low c y, h, l]

theorem toNat_inj {x y : U256} (h : x.toNat c = y.toNat c) : x = y := by
  apply ext_hl c <;> apply BitVec.eq_of_toNat_eq
  · rw [high_toNat, high_toNat, h]
  · rw [low_toNat, low_toNat, h]

theorem toNat_inj_iff {x y : U256} : x.toNat c = y.toNat c ↔ x = y :=
  ⟨toNat_inj c, fun h => h ▸ rfl⟩

@[simp] theorem ofNat_toNat (x : U256) : ofNat c (x.toNat c) = x :=
  toNat_inj c (by rw [toNat_ofNat, Nat.mod_eq_of_lt (toNat_lt c x)])

theorem eq_ofNat_iff {x : U256} {n : Nat} : x = ofNat c n ↔ x.toNat c = n % 2 ^ 256 := by
  rw [← toNat_inj_iff c, toNat_ofNat]

theorem eq_ofNat {x : U256} {n : Nat} (h : x.toNat c = n % 2 ^ 256) : x = ofNat c n :=
  (eq_ofNat_iff c).2 h

theorem ofNat_inj_of_lt {m n : Nat} (hm : m < 2 ^ 256) (hn : n < 2 ^ 256)
    (h : ofNat c m = ofNat c n) : m = n := by
  rw [eq_ofNat_iff, toNat_ofNat] at h; omega

theorem ofNat_congr {m n : Nat} (h : m % 2 ^ 256 = n % 2 ^ 256) : ofNat c m = ofNat c n :=
  eq_ofNat c (by rw [toNat_ofNat, h])

theorem toNat_ofInt (z : Int) : ((ofInt c z).toNat c : Int) = z % 2 ^ 256 := by
  unfold ofInt; rw [toNat_ofNat]; omega
theorem eq_ofInt {x : U256} {z : Int} (h : (x.toNat c : Int) = z % 2 ^ 256) : x = ofInt c z :=
  toNat_inj c (by have := toNat_ofInt c z; omega)
theorem ofInt_natCast (n : Nat) : ofInt c (n : Int) = ofNat c n :=
  eq_ofNat c (by have := toNat_ofInt c n; omega)

@[simp] theorem high_ZERO : ZERO.high c = 0 := by unfold high ZERO; split <;> rfl
@[simp] theorem low_ZERO : ZERO.low c = 0 := by unfold low ZERO; split <;> rfl
@[simp] theorem toNat_ZERO : ZERO.toNat c = 0 := by simp [toNat_eq]
@[simp] theorem toNat_MIN : MIN.toNat c = 0 := toNat_ZERO c
@[simp] theorem toNat_MAX : MAX.toNat c = 2 ^ 256 - 1 := by
  unfold MAX toNat; split <;> rfl
@[simp] theorem high_new (v : U128) : (new c v).high c = 0 := by simp [new]
@[simp] theorem low_new (v : U128) : (new c v).low c = v := by simp [new]
@[simp] theorem toNat_new (v : U128) : (new c v).toNat c = v.toNat := by simp [new]
@[simp] theorem toNat_ONE : (ONE c).toNat c = 1 := by simp [ONE]
theorem ZERO_eq : ZERO = ofNat c 0 := eq_ofNat c (by simp)
theorem ONE_eq : ONE c = ofNat c 1 := eq_ofNat c (by simp)
theorem MAX_eq : MAX = ofNat c (2 ^ 256 - 1) := eq_ofNat c (by simp)

theorem compare_then (a1 a0 b1 b0 : Nat) (ha : a0 < 2 ^ 128) (hb : b0 < 2 ^ 128) :
    (compare a1 b1).then (compare a0 b0) = compare (a1 * 2 ^ 128 + a0) (b1 * 2 ^ 128 + b0) := by
  rcases Nat.lt_trichotomy a1 b1 with h | h | h
  · rw [Nat.compare_eq_lt.2 h,
      Nat.compare_eq_lt.2 (show a1 * 2 ^ 128 + a0 < b1 * 2 ^ 128 + b0 by omega)]; rfl
  · subst h
    rw [Nat.compare_eq_eq.2 rfl]
    rcases Nat.lt_trichotomy a0 b0 with h | h | h
    · rw [Nat.compare_eq_lt.2 h, Nat.compare_eq_lt.2 (by omega)]; rfl
    · rw [Nat.compare_eq_eq.2 h, Nat.compare_eq_eq.2 (by omega)]; rfl
    · rw [Nat.compare_eq_gt.2 h, Nat.compare_eq_gt.2 (by omega)]; rfl
  · rw [Nat.compare_eq_gt.2 h,
      Nat.compare_eq_gt.2 (show b1 * 2 ^ 128 + b0 < a1 * 2 ^ 128 + a0 by omega)]; rfl

theorem cmp_eq (a b : U256) : cmp c a b = compare (a.toNat c) (b.toNat c) := by
  simp only [cmp, into_words_eq, toNat_eq]
  exact compare_then _ _ _ _ (a.low c).isLt (b.low c).isLt

theorem eq_eq (a b : U256) : eq c a b = decide (a.toNat c = b.toNat c) := by
  rw [Bool.eq_iff_iff]
  simp only [eq, into_words_eq, Bool.and_eq_true, decide_eq_true_eq, toNat_inj_iff]
  exact ⟨fun h => ext_hl c h.1 h.2, fun h => h ▸ ⟨rfl, rfl⟩⟩

theorem ne_eq (a b : U256) : ne c a b = decide (a.toNat c ≠ b.toNat c) := by
  simp [ne, eq_eq]

theorem lt_eq (a b : U256) : lt c a b = decide (a.toNat c < b.toNat c) := by
  rw [Bool.eq_iff_iff]
  simp [lt, partial_cmp, cmp_eq, Nat.compare_eq_lt]
theorem gt_eq (a b : U256) : gt c a b = decide (b.toNat c < a.toNat c) := by
  rw [Bool.eq_iff_iff]
  simp [gt, partial_cmp, cmp_eq, Nat.compare_eq_gt]
theorem le_eq (a b : U256) : le c a b = decide (a.toNat c ≤ b.toNat c) := by
  rw [Bool.eq_iff_iff]
  simp [le, partial_cmp, cmp_eq, Nat.compare_eq_lt]; omega
theorem ge_eq (a b : U256) : ge c a b = decide (b.toNat c ≤ a.toNat c) := by
  rw [Bool.eq_iff_iff]
  simp [ge, partial_cmp, cmp_eq, Nat.compare_eq_gt]; omega

theorem eq_prim_eq (a : U256) (p : U128) : eq_prim c a p = decide (a.toNat c = p.toNat) := by
  simp [eq_prim, eq_eq]
theorem prim_eq_eq (a : U256) (p : U128) : prim_eq c p a = decide (p.toNat = a.toNat c) := by
  simp [prim_eq, eq_eq]
theorem lt_prim_eq (a : U256) (p : U128) : lt_prim c a p = decide (a.toNat c < p.toNat) := by
  exact (lt_eq c a (new c p)).trans (by simp)
theorem le_prim_eq (a : U256) (p : U128) : le_prim c a p = decide (a.toNat c ≤ p.toNat) := by
  exact (le_eq c a (new c p)).trans (by simp)
theorem gt_prim_eq (a : U256) (p : U128) : gt_prim c a p = decide (p.toNat < a.toNat c) := by
  exact (gt_eq c a (new c p)).trans (by simp)
theorem ge_prim_eq (a : U256) (p : U128) : ge_prim c a p = decide (p.toNat ≤ a.toNat c) := by
  exact (ge_eq c a (new c p)).trans (by simp)

end U256

namespace I256

variable (c : Cfg)

@[simp] theorem high_from_words (h l : U128) : (from_words c h l).high c = h := by
  unfold high from_words; split <;> rfl
@[simp] theorem low_from_words (h l : U128) : (from_words c h l).low c = l := by
  unfold low from_words; split <;> rfl
@[simp] theorem from_words_high_low (x : I256) : from_words c (x.high c) (x.low c) = x := by
  unfold high low from_words; split <;> rfl
@[simp] theorem into_words_eq (x : I256) : x.into_words c = (x.high c, x.low c) := by
  unfold high low into_words; split <;> rfl
theorem set_low_eq (x : I256) (v : U128) : x.set_low c v = from_words c (x.high c) v := by
  unfold high set_low from_words; split <;> rfl
theorem set_high_eq (x : I256) (v : U128) : x.set_high c v = from_words c v (x.low c) := by
  unfold low set_high from_words; split <;> rfl

@[simp] theorem high_as_u256 (x : I256) : x.as_u256.high c = x.high c := rfl
@[simp] theorem low_as_u256 (x : I256) : x.as_u256.low c = x.low c := rfl
@[simp] theorem toNat_as_u256 (x : I256) : x.as_u256.toNat c = x.toNat c := rfl
@[simp] theorem high_as_i256 (x : U256) : x.as_i256.high c = x.high c := rfl
@[simp] theorem low_as_i256 (x : U256) : x.as_i256.low c = x.low c := rfl
@[simp] theorem toNat_as_i256 (x : U256) : x.as_i256.toNat c = x.toNat c := rfl
@[simp] theorem as_i256_as_u256 (x : I256) : x.as_u256.as_i256 = x := rfl
@[simp] theorem as_u256_as_i256 (x : U256) : x.as_i256.as_u256 = x := rfl

theorem toNat_eq (x : I256) : x.toNat c = (x.high c).toNat * 2 ^ 128 + (x.low c).toNat :=
  U256.toNat_eq c x.as_u256
theorem toNat_lt (x : I256) : x.toNat c < 2 ^ 256 := U256.toNat_lt c x.as_u256
theorem high_toNat (x : I256) : (x.high c).toNat = x.toNat c / 2 ^ 128 := U256.high_toNat c x.as_u256
theorem low_toNat (x : I256) : (x.low c).toNat = x.toNat c % 2 ^ 128 := U256.low_toNat c x.as_u256
@[simp] theorem toNat_from_words (h l : U128) :
    (from_words c h l).toNat c = h.toNat * 2 ^ 128 + l.toNat := by simp [toNat_eq]

theorem ext_hl {x y : I256} (h : x.high c = y.high c) (l : x.low c = y.low c) : x = y := by
  rw [← from_words_high_low c x, ← from_words_high_low c y, h, l]

theorem toNat_inj {x y : I256} (h : x.toNat c = y.toNat c) : x = y :=
  congrArg U256.as_i256 (U256.toNat_inj c (x := x.as_u256) (y := y.as_u256) h)

theorem toInt_lt (x : I256) : x.toInt c < 2 ^ 255 := by
  unfold toInt; have := toNat_lt c x; split <;> omega
theorem le_toInt (x : I256) : -2 ^ 255 ≤ x.toInt c := by
  unfold toInt; have := toNat_lt c x; split <;> omega
theorem toInt_in (x : I256) : InI256 (x.toInt c) := ⟨le_toInt c x, toInt_lt c x⟩

/-- The bit pattern in terms of the signed value. -/
theorem toNat_toInt (x : I256) : (x.toNat c : Int) = x.toInt c % 2 ^ 256 := by
  unfold toInt; have := toNat_lt c x; split <;> omega

theorem toInt_inj {x y : I256} (h : x.toInt c = y.toInt c) : x = y :=
  toNat_inj c (by have := toNat_toInt c x; have := toNat_toInt c y; omega)
theorem toInt_inj_iff {x y : I256} : x.toInt c = y.toInt c ↔ x = y :=
  ⟨toInt_inj c, fun h => h ▸ rfl⟩

theorem ofInt_eq (z : Int) :
    ofInt c z = from_words c (BitVec.ofInt 128 (z / 2 ^ 128)) (BitVec.ofInt 128 z) := by
  unfold ofInt from_words; split <;> rfl
@[simp] theorem high_ofInt (z : Int) : (ofInt c z).high c = BitVec.ofInt 128 (z / 2 ^ 128) := by
  simp [ofInt_eq]
@[simp] theorem low_ofInt (z : Int) : (ofInt c z).low c = BitVec.ofInt 128 z := by
  simp [ofInt_eq]
theorem toNat_ofInt (z : Int) : ((ofInt c z).toNat c : Int) = z % 2 ^ 256 := by
  simp only [toNat_eq, high_ofInt, low_ofInt, BitVec.toNat_ofInt]; omega
theorem toInt_ofInt (z : Int) : (ofInt c z).toInt c = (z + 2 ^ 255) % 2 ^ 256 - 2 ^ 255 := by
  unfold toInt; have := toNat_ofInt c z; split <;> omega
theorem toInt_ofInt_of_in {z : Int} (h : InI256 z) : (ofInt c z).toInt c = z := by
  rw [toInt_ofInt]; obtain ⟨h1, h2⟩ := h; omega

theorem eq_ofInt_iff {x : I256} {z : Int} : x = ofInt c z ↔ (x.toNat c : Int) = z % 2 ^ 256 :=
  ⟨fun h => h ▸ toNat_ofInt c z, fun h => toNat_inj c (by have := toNat_ofInt c z; omega)⟩
theorem eq_ofInt {x : I256} {z : Int} (h : (x.toNat c : Int) = z % 2 ^ 256) : x = ofInt c z :=
  (eq_ofInt_iff c).2 h
theorem eq_ofInt_of_toInt {x : I256} {z : Int} (h : x.toInt c = z) : x = ofInt c z :=
  eq_ofInt c (by rw [toNat_toInt, h])
theorem eq_ofInt_of_emod {x : I256} {z : Int} (h : x.toInt c % 2 ^ 256 = z % 2 ^ 256) :
    x = ofInt c z := eq_ofInt c (by rw [toNat_toInt, h])
@[simp] theorem ofInt_toInt (x : I256) : ofInt c (x.toInt c) = x :=
  (eq_ofInt_of_toInt c rfl).symm
theorem ofInt_congr {y z : Int} (h : y % 2 ^ 256 = z % 2 ^ 256) : ofInt c y = ofInt c z :=
  eq_ofInt c (by rw [toNat_ofInt, h])

theorem toInt_of_lt {x : I256} (h : x.toNat c < 2 ^ 255) : x.toInt c = x.toNat c := by
  simp [toInt, h]
theorem toInt_neg_iff (x : I256) : x.toInt c < 0 ↔ 2 ^ 255 ≤ x.toNat c := by
  unfold toInt; have := toNat_lt c x; split <;> omega
/-- the sign is the sign of the high word -/
theorem high_neg_iff (x : I256) : (x.high c).toInt < 0 ↔ x.toInt c < 0 := by
  rw [toInt_neg_iff, toNat_eq]
  have := (x.high c).isLt; have := (x.low c).isLt
  rw [BitVec.toInt_eq_toNat_cond]; split <;> omega
theorem toInt_eq_words (x : I256) : x.toInt c = (x.high c).toInt * 2 ^ 128 + (x.low c).toNat := by
  unfold toInt; rw [toNat_eq]
  have := (x.high c).isLt; have := (x.low c).isLt
  rw [BitVec.toInt_eq_toNat_cond]; split <;> split <;> omega

@[simp] theorem toNat_ZERO : ZERO.toNat c = 0 := U256.toNat_ZERO c
@[simp] theorem toInt_ZERO : ZERO.toInt c = 0 := by simp [toInt]
theorem ZERO_eq : ZERO = ofInt c 0 := eq_ofInt_of_toInt c (by simp)
@[simp] theorem toNat_MIN : (MIN c).toNat c = 2 ^ 255 := by simp [MIN]
@[simp] theorem toInt_MIN : (MIN c).toInt c = -2 ^ 255 := by simp [toInt]
@[simp] theorem toNat_MAX : (MAX c).toNat c = 2 ^ 255 - 1 := by simp [MAX]
@[simp] theorem toInt_MAX : (MAX c).toInt c = 2 ^ 255 - 1 := by simp [toInt]
theorem MIN_eq : MIN c = ofInt c (-2 ^ 255) := eq_ofInt_of_toInt c (by simp)
theorem MAX_eq : MAX c = ofInt c (2 ^ 255 - 1) := eq_ofInt_of_toInt c (by simp)

theorem sshiftRight_127 (v : U128) :
    v.sshiftRight 127 = if v.toInt < 0 then BitVec.allOnes 128 else 0 := by
  apply BitVec.eq_of_toInt_eq
  rw [BitVec.toInt_sshiftRight, Int.shiftRight_eq_div_pow]
  have := v.toInt_lt; have := v.le_toInt
  split
  · rw [BitVec.toInt_allOnes]; simp; omega
  · simp; omega

@[simp] theorem toInt_new (v : U128) : (new c v).toInt c = v.toInt := by
  rw [toInt_eq_words]; simp only [new, high_from_words, low_from_words, sshiftRight_127]
  have := v.isLt
  rw [BitVec.toInt_eq_toNat_cond v]
  split <;> rename_i h <;> split <;> simp at * <;> omega

@[simp] theorem toInt_ONE : (ONE c).toInt c = 1 := by simp [ONE]
@[simp] theorem toInt_MINUS_ONE : (MINUS_ONE c).toInt c = -1 := by simp [MINUS_ONE]
theorem ONE_eq : ONE c = ofInt c 1 := eq_ofInt_of_toInt c (by simp)

theorem compare_then (a1 b1 : Int) (a0 b0 : Nat) (ha : a0 < 2 ^ 128) (hb : b0 < 2 ^ 128) :
    (compare a1 b1).then (compare a0 b0) = compare (a1 * 2 ^ 128 + a0) (b1 * 2 ^ 128 + b0) := by
  rcases Int.lt_trichotomy a1 b1 with h | h | h
  · rw [Int.compare_eq_lt.2 h, Int.compare_eq_lt.2 (by omega)]; rfl
  · subst h
    rw [Int.compare_eq_eq.2 rfl]
    rcases Nat.lt_trichotomy a0 b0 with h | h | h
    · rw [Nat.compare_eq_lt.2 h, Int.compare_eq_lt.2 (by omega)]; rfl
    · rw [Nat.compare_eq_eq.2 h, Int.compare_eq_eq.2 (by omega)]; rfl
    · rw [Nat.compare_eq_gt.2 h, Int.compare_eq_gt.2 (by omega)]; rfl
  · rw [Int.compare_eq_gt.2 h, Int.compare_eq_gt.2 (by omega)]; rfl

theorem cmp_eq (a b : I256) : cmp c a b = compare (a.toInt c) (b.toInt c) := by
  simp only [cmp, into_words_eq, toInt_eq_words]
  exact compare_then _ _ _ _ (a.low c).isLt (b.low c).isLt

theorem eq_eq (a b : I256) : eq c a b = decide (a.toInt c = b.toInt c) := by
  rw [Bool.eq_iff_iff]
  simp only [eq, into_words_eq, Bool.and_eq_true, decide_eq_true_eq, toInt_inj_iff]
  exact ⟨fun h => ext_hl c h.1 h.2, fun h => h ▸ ⟨rfl, rfl⟩⟩

theorem ne_eq (a b : I256) : ne c a b = decide (a.toInt c ≠ b.toInt c) := by
  simp [ne, eq_eq]
theorem lt_eq (a b : I256) : lt c a b = decide (a.toInt c < b.toInt c) := by
  rw [Bool.eq_iff_iff]
  simp [lt, partial_cmp, cmp_eq, Int.compare_eq_lt]
theorem gt_eq (a b : I256) : gt c a b = decide (b.toInt c < a.toInt c) := by
  rw [Bool.eq_iff_iff]
  simp [gt, partial_cmp, cmp_eq, Int.compare_eq_gt]
theorem le_eq (a b : I256) : le c a b = decide (a.toInt c ≤ b.toInt c) := by
  rw [Bool.eq_iff_iff]
  simp [le, partial_cmp, cmp_eq, Int.compare_eq_lt]; omega
theorem ge_eq (a b : I256) : ge c a b = decide (b.toInt c ≤ a.toInt c) := by
  rw [Bool.eq_iff_iff]
  simp [ge, partial_cmp, cmp_eq, Int.compare_eq_gt]; omega

theorem eq_prim_eq (a : I256) (p : U128) : eq_prim c a p = decide (a.toInt c = p.toInt) := by
  simp [eq_prim, eq_eq]
theorem prim_eq_eq (a : I256) (p : U128) : prim_eq c p a = decide (p.toInt = a.toInt c) := by
  simp [prim_eq, eq_eq]
theorem lt_prim_eq (a : I256) (p : U128) : lt_prim c a p = decide (a.toInt c < p.toInt) := by
  exact (lt_eq c a (new c p)).trans (by simp)
theorem le_prim_eq (a : I256) (p : U128) : le_prim c a p = decide (a.toInt c ≤ p.toInt) := by
  exact (le_eq c a (new c p)).trans (by simp)
theorem gt_prim_eq (a : I256) (p : U128) : gt_prim c a p = decide (p.toInt < a.toInt c) := by
  exact (gt_eq c a (new c p)).trans (by simp)
theorem ge_prim_eq (a : I256) (p : U128) : ge_prim c a p = decide (p.toInt ≤ a.toInt c) := by
  exact (ge_eq c a (new c p)).trans (by simp)

end I256

@[simp] theorem I256.as_i256_ofNat (c : Cfg) (n : Nat) :
    (U256.ofNat c n).as_i256 = I256.ofInt c n :=
  I256.eq_ofInt c (by simp [U256.toNat_ofNat])

end Ethnum
