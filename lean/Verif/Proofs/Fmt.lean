import Verif.SpecFmt
import Verif.Proofs.Ops
import Verif.Proofs.Convert
import Verif.Props.UArith

namespace Ethnum

/-- Every character of the text is ASCII. -/
def IsAscii (t : List Char) : Prop := ∀ ch ∈ t, ch.toNat < 128
/-- A text as initialised buffer content. -/
def txt (t : List Char) : Buf := t.map (fun ch => some (asc ch))

theorem Buf.init_txt (t : List Char) : Buf.init (txt t) = .ok (t.map asc) := by
  induction t with
  | nil => rfl
  | cons a l ih =>
    show (Buf.init (txt l) >>= fun r => Except.ok (asc a :: r)) = _
    rw [ih]; rfl

theorem strUnchecked_asc {t : List Char} (h : IsAscii t) : strUnchecked (t.map asc) = .ok t := by
  have hb : ∀ ch ∈ t, (asc ch).toNat = ch.toNat := fun ch hc => by
    unfold asc; rw [BitVec.toNat_ofNat]; have := h ch hc; omega
  unfold strUnchecked
  rw [if_pos]
  · rw [List.map_map]
    congr 1
    conv => rhs; rw [← List.map_id t]
    apply List.map_congr_left
    intro ch hc
    show Char.ofNat (asc ch).toNat = ch
    rw [hb ch hc]; exact Char.ofNat_toNat ch
  · rw [List.all_map, List.all_eq_true]
    intro ch hc
    simp only [Function.comp, decide_eq_true_eq]
    rw [hb ch hc]; exact h ch hc

theorem IsAscii.append {s t : List Char} (hs : IsAscii s) (ht : IsAscii t) : IsAscii (s ++ t) := by
  intro ch hc
  rcases List.mem_append.1 hc with h | h
  · exact hs ch h
  · exact ht ch h

theorem digitChar_ascii : ∀ d < 16, (Nat.digitChar d).toNat < 128 := by decide

theorem toDigits_ascii (b n : Nat) (hb : 1 < b) (hb2 : b ≤ 16) : IsAscii (Nat.toDigits b n) := by
  induction n using Nat.strongRecOn with
  | ind n ih =>
    rw [Nat.toDigits_eq_if hb]
    split
    · intro ch hc
      rw [List.mem_singleton.1 hc]; exact digitChar_ascii _ (by omega)
    · apply IsAscii.append
      · exact ih _ (Nat.div_lt_self (by omega) hb)
      · intro ch hc
        rw [List.mem_singleton.1 hc]
        have := Nat.mod_lt n (show 0 < b by omega)
        exact digitChar_ascii _ (by omega)

theorem Buf.length_uninit (n : Nat) : (Buf.uninit n).length = n := List.length_replicate
theorem Buf.drop_uninit (n : Nat) : (Buf.uninit n).drop n = [] :=
  List.drop_eq_nil_of_le (by rw [Buf.length_uninit])

theorem drop_set {α : Type} (l : List α) (k : Nat) (a : α) (h : k < l.length) :
    (l.set k a).drop k = a :: l.drop (k + 1) := by
  rw [List.drop_set, if_neg (Nat.lt_irrefl k), Nat.sub_self]
  rw [List.drop_eq_getElem_cons h]; rfl

/-! ### Radix formatting -/

namespace Radix

/-- A digit character of the base, `d < b`. -/
def digitCh : Radix → Nat → Char
  | upperHex, d => (Nat.digitChar d).toUpper
  | _, d => Nat.digitChar d

theorem PREFIX_eq (r : Radix) : r.PREFIX = r.pfx := by cases r <;> rfl

variable (r : Radix)

theorem one_lt_b : 1 < r.b := by cases r <;> decide
theorem b_le : r.b ≤ 16 := by cases r <;> decide

theorem numeral_eq (n : Nat) :
    r.numeral n = if n < r.b then [r.digitCh n] else r.numeral (n / r.b) ++ [r.digitCh (n % r.b)] := by
  cases r with
  | upperHex =>
    unfold numeral
    dsimp only
    rw [Nat.toDigits_eq_if (by decide)]
    show _ = if n < 16 then _ else List.map Char.toUpper (Nat.toDigits 16 (n / 16)) ++ [digitCh _ (n % 16)]
    split
    · rfl
    · rw [List.map_append]; rfl
  | _ => exact Nat.toDigits_eq_if (by decide)

theorem length_numeral_le {n k : Nat} (hk : 0 < k) : (r.numeral n).length ≤ k ↔ n < r.b ^ k := by
  cases r with
  | upperHex =>
    unfold numeral
    rw [List.length_map]; exact Nat.length_toDigits_le_iff (by decide) hk
  | _ => exact Nat.length_toDigits_le_iff (by decide) hk

theorem numeral_ascii (n : Nat) : IsAscii (r.numeral n) := by
  have hu : ∀ d < 16, (Nat.digitChar d).toUpper.toNat < 128 := by decide
  induction n using Nat.strongRecOn with
  | ind n ih =>
    have hd : ∀ d < r.b, (r.digitCh d).toNat < 128 := fun d h => by
      have := r.b_le
      cases r with
      | upperHex => exact hu d (by omega)
      | _ => exact digitChar_ascii d (by omega)
    have hb := r.one_lt_b
    rw [numeral_eq]
    split
    · intro ch hc
      rw [List.mem_singleton.1 hc]; exact hd _ (by assumption)
    · apply IsAscii.append
      · exact ih _ (Nat.div_lt_self (by omega) hb)
      · intro ch hc
        rw [List.mem_singleton.1 hc]
        exact hd _ (Nat.mod_lt n (by omega))

theorem digit_eq (c : Cfg) (d : Nat) (h : d < r.b) : r.digit c (BitVec.ofNat 8 d) = .ok (asc (r.digitCh d)) := by
  unfold digit addC subC
  generalize c.overflowChecks = o
  revert o d
  cases r <;> decide

theorem loop_spec (c : Cfg) (base : U256) (hbase : base.toNat c = r.b) :
    ∀ (k : Nat) (x : U256) (buf : Buf) (t : List Char), k ≤ buf.length → buf.drop k = txt t
      → (r.numeral (x.toNat c)).length ≤ k
      → ∃ k' buf', r.loop c base k x buf = .ok (k', buf') ∧ buf'.drop k' = txt (r.numeral (x.toNat c) ++ t) := by
  have hb := r.one_lt_b
  have hb16 := r.b_le
  intro k
  induction k with
  | zero =>
    intro x buf t _ _ h
    exfalso
    have := (r.length_numeral_le (n := x.toNat c) (k := 1) (by omega)).1 (by omega)
    rw [numeral_eq, if_pos (by simpa using this)] at h
    simp at h
  | succ k ih =>
    intro x buf t hk hbuf hlen
    have hx := U256.toNat_lt c x
    unfold loop
    rw [U256.rem_eq, U256.div_assign_eq, if_neg (by omega), if_neg (by omega), ok_bind, ok_bind, hbase]
    have hmod := Nat.mod_lt (x.toNat c) (show 0 < r.b by omega)
    have e8 : (U256.ofNat c (x.toNat c % r.b)).as_u8 c = BitVec.ofNat 8 (x.toNat c % r.b) := by
      apply BitVec.eq_of_toNat_eq
      have := U256.toNat_as_prim c (U256.ofNat c (x.toNat c % r.b)) .u8
      rw [U256.toNat_ofNat_of_lt c (by omega)] at this
      change (((U256.ofNat c (x.toNat c % r.b)).as_u8 c).toNat : Int) = _ % 2 ^ 8 at this
      rw [BitVec.toNat_ofNat]; omega
    rw [e8, digit_eq r c _ hmod, ok_bind]
    have hdiv : (U256.ofNat c (x.toNat c / r.b)).toNat c = x.toNat c / r.b :=
      U256.toNat_ofNat_of_lt c (Nat.lt_of_le_of_lt (Nat.div_le_self _ _) hx)
    dsimp only
    rw [U256.eq_eq, hdiv, U256.toNat_ZERO]
    have hset : (buf.set k (some (asc (r.digitCh (x.toNat c % r.b))))).drop k
        = txt (r.digitCh (x.toNat c % r.b) :: t) := by
      rw [drop_set _ _ _ (by omega), hbuf]; rfl
    by_cases hlt : x.toNat c < r.b
    · rw [if_pos (by simpa using Nat.div_eq_of_lt hlt)]
      refine ⟨_, _, rfl, ?_⟩
      rw [hset, numeral_eq, if_pos hlt, Nat.mod_eq_of_lt hlt]; rfl
    · have hne : x.toNat c / r.b ≠ 0 := by
        have := Nat.div_pos (Nat.le_of_not_lt hlt) (show 0 < r.b by omega)
        omega
      rw [if_neg (by simpa using hne)]
      rw [numeral_eq, if_neg hlt] at hlen
      obtain ⟨k', buf', h1, h2⟩ := ih (U256.ofNat c (x.toNat c / r.b)) (buf.set k _) _ (by rw [List.length_set]; omega) hset
        (by rw [hdiv]; rw [List.length_append, List.length_singleton] at hlen; omega)
      refine ⟨k', buf', h1, ?_⟩
      rw [h2, hdiv, numeral_eq r (x.toNat c), if_neg hlt, List.append_assoc]; rfl

theorem numeral_ne_nil (n : Nat) : r.numeral n ≠ [] := by
  rw [numeral_eq]; split <;> simp

theorem fmt_u256_eq (c : Cfg) (x : U256) (nn : Bool) (f : Formatter) :
    r.fmt_u256 c x nn f = .ok (f.pad_integral nn r.pfx (r.numeral (x.toNat c))) := by
  unfold fmt_u256
  have hbase : (U256.from_prim c .u8 r.BASE).toNat c = r.b := by
    have e : PrimTy.u8.toInt (c := c) r.BASE = r.b := by cases r <;> rfl
    have h16 := r.b_le
    have hn : (0 : Int) ≤ PrimTy.u8.toInt (c := c) r.BASE := by omega
    have hle : PrimTy.u8.toInt (c := c) r.BASE < 2 ^ 256 := by omega
    have := U256.from_prim_eq c .u8 r.BASE hn
    unfold U256.from_prim
    rw [this]
    have := U256.toNat_ofInt_of_range c hn hle
    omega
  have hlen : (r.numeral (x.toNat c)).length ≤ 256 := by
    rw [length_numeral_le r (by omega)]
    exact Nat.lt_of_lt_of_le (U256.toNat_lt c x) (Nat.pow_le_pow_left r.one_lt_b 256)
  obtain ⟨k, buf, h1, h2⟩ := r.loop_spec c _ hbase 256 x (Buf.uninit 256) []
    (by rw [Buf.length_uninit]) (by rw [Buf.drop_uninit]; rfl) hlen
  rw [List.append_nil] at h2
  dsimp only
  rw [h1, ok_bind]
  dsimp only
  rw [h2, if_neg, Buf.init_txt, ok_bind, strUnchecked_asc (r.numeral_ascii _), ok_bind, r.PREFIX_eq]; rfl
  cases hnum : r.numeral (x.toNat c) with
  | nil => exact absurd hnum (r.numeral_ne_nil _)
  | cons a l => simp [txt]

end Radix

/-! ### Decimal formatting -/

theorem isize_range (c : Cfg) : PrimTy.minVal c .isize ≤ -2 ^ 15 ∧ 2 ^ 15 - 1 ≤ PrimTy.maxVal c .isize := by
  unfold PrimTy.minVal PrimTy.maxVal PrimTy.bits PrimTy.signed PtrWidth.bits
  cases c.ptr <;> decide

theorem isizeC_ok (c : Cfg) (z : Int) (p : Panic) (h1 : -2 ^ 15 ≤ z) (h2 : z < 2 ^ 15) : isizeC c z p = .ok z := by
  have := isize_range c
  unfold isizeC
  rw [if_pos ⟨by omega, by omega⟩]

theorem isizeShl1_eq (c : Cfg) (z : Int) (h1 : 0 ≤ z) (h2 : z < 2 ^ 14) : isizeShl1 c z = 2 * z := by
  have := isize_range c
  unfold isizeShl1
  apply PrimTy.toInt_of_emod
  · rw [BitVec.toNat_ofInt]
    have : (0 : Int) ≤ 2 * z % 2 ^ (PrimTy.isize.bits c) := Int.emod_nonneg _ (by positivity)
    rw [Int.toNat_of_nonneg (by exact_mod_cast this)]; norm_cast
  · omega
  · omega

theorem as_isize_eq (c : Cfg) (x : U256) (h : x.toNat c < 2 ^ 15) : x.as_isize c = x.toNat c := by
  have := isize_range c
  unfold U256.as_isize
  apply PrimTy.toInt_of_emod
  · exact U256.toNat_as_prim c x .isize
  · omega
  · omega

theorem lut_table : ∀ v < 100, DEC_DIGITS_LUT[2 * v]? = some (asc (Nat.digitChar (v / 10)))
    ∧ DEC_DIGITS_LUT[2 * v + 1]? = some (asc (Nat.digitChar (v % 10))) := by
  decide +kernel

/-- The two decimal digits of `v < 100`. -/
def two (v : Nat) : List Char := [Nat.digitChar (v / 10), Nat.digitChar (v % 10)]

theorem Buf.write_ok (buf : Buf) (k : Nat) (b : U8) (h : k < buf.length) :
    buf.write k b = .ok (buf.set k (some b)) := by
  unfold Buf.write
  rw [if_pos ⟨by omega, by omega⟩]; rfl

theorem copy2_eq (v k : Nat) (buf : Buf) (hv : v < 100) (hk : k + 2 ≤ buf.length) :
    ∃ buf', copy2 (2 * v : Nat) k buf = .ok buf' ∧ buf'.length = buf.length
      ∧ buf'.take k = buf.take k ∧ buf'.drop k = txt (two v) ++ buf.drop (k + 2) := by
  unfold copy2
  rw [if_pos (by omega), Int.toNat_natCast, (lut_table v hv).1, (lut_table v hv).2]
  dsimp only
  have h2 : k + 1 < (buf.set k (some (asc (Nat.digitChar (v / 10))))).length := by rw [List.length_set]; omega
  rw [Buf.write_ok _ _ _ (by omega), ok_bind, show (k : Int) + 1 = ((k + 1 : Nat) : Int) by omega, Buf.write_ok _ _ _ h2]
  refine ⟨_, rfl, by simp, ?_, ?_⟩
  · rw [List.take_set_of_le (by omega), List.take_set_of_le (by omega)]
  rw [List.drop_eq_getElem_cons (by simp; omega), drop_set _ _ _ h2]
  simp [two, txt, List.drop_set]
  intro h; omega

theorem toDigits4 (N : Nat) (h : 10000 ≤ N) :
    Nat.toDigits 10 N = Nat.toDigits 10 (N / 10000) ++ (two (N % 10000 / 100) ++ two (N % 10000 % 100)) := by
  rw [Nat.toDigits_of_base_le (n := N) (by omega) (by omega), Nat.toDigits_of_base_le (n := N / 10) (by omega) (by omega),
    Nat.toDigits_of_base_le (n := N / 10 / 10) (by omega) (by omega),
    Nat.toDigits_of_base_le (n := N / 10 / 10 / 10) (by omega) (by omega)]
  rw [show N / 10 / 10 / 10 / 10 = N / 10000 by omega, show N / 10 / 10 / 10 % 10 = N % 10000 / 100 / 10 by omega,
    show N / 10 / 10 % 10 = N % 10000 / 100 % 10 by omega, show N / 10 % 10 = N % 10000 % 100 / 10 by omega,
    show N % 10 = N % 10000 % 100 % 10 by omega]
  simp [two]

theorem decLoop_spec (c : Cfg) : ∀ (fuel : Nat) (n : U256) (k : Nat) (buf : Buf) (t : List Char),
    n.toNat c < 10000 ^ fuel → buf.length = 79 → k ≤ 79 → buf.drop k = txt t
    → (Nat.toDigits 10 (n.toNat c)).length ≤ k
    → ∃ n' k' buf' t', decLoop c (fuel + 1) n k buf = .ok (n', (k' : Nat), buf') ∧ n'.toNat c < 10000
      ∧ buf'.length = 79 ∧ k' ≤ 79 ∧ buf'.drop k' = txt t'
      ∧ Nat.toDigits 10 (n'.toNat c) ++ t' = Nat.toDigits 10 (n.toNat c) ++ t
      ∧ (Nat.toDigits 10 (n'.toNat c)).length ≤ k' := by
  intro fuel
  induction fuel with
  | zero =>
    intro n k buf t hn hb hk hd hl
    rw [decLoop, U256.ge_prim_eq, if_neg (by
      simp only [decide_eq_true_eq]
      rw [Nat.pow_zero] at hn
      show ¬ 10000 ≤ _
      omega)]
    rw [Nat.pow_zero] at hn
    exact ⟨n, k, buf, t, rfl, by omega, hb, hk, hd, rfl, hl⟩
  | succ fuel ih =>
    intro n k buf t hn hb hk hd hl
    rw [decLoop, U256.ge_prim_eq]
    have e10000 : (10000 : U128).toNat = 10000 := rfl
    rw [e10000]
    by_cases hge : 10000 ≤ n.toNat c
    · rw [if_pos (by simpa using hge)]
      have hnew : (U256.new c 10000).toNat c = 10000 := by rw [U256.toNat_new]; rfl
      have hdr := (C04_div_rem c n (U256.new c 10000) (by omega)).1
      rw [hnew] at hdr
      rw [hdr, ok_bind]
      dsimp only
      have hx := U256.toNat_lt c n
      have hrem : (U256.ofNat c (n.toNat c % 10000)).as_isize c = (n.toNat c % 10000 : Nat) := by
        have : (U256.ofNat c (n.toNat c % 10000)).toNat c = n.toNat c % 10000 := U256.toNat_ofNat_of_lt c (by omega)
        rw [as_isize_eq c _ (by omega), this]
      have hquo : (U256.ofNat c (n.toNat c / 10000)).toNat c = n.toNat c / 10000 := U256.toNat_ofNat_of_lt c (by omega)
      rw [hrem]
      have hlen5 : ¬ (Nat.toDigits 10 (n.toNat c)).length ≤ 4 := by
        rw [Nat.length_toDigits_le_iff (by omega) (by omega)]; omega
      have htd : ((n.toNat c % 10000 : Nat) : Int).tdiv 100 = (n.toNat c % 10000 / 100 : Nat) := by
        rw [Int.tdiv_eq_ediv_of_nonneg (by omega)]; omega
      have htm : ((n.toNat c % 10000 : Nat) : Int).tmod 100 = (n.toNat c % 10000 % 100 : Nat) := by
        rw [Int.tmod_eq_emod_of_nonneg (by omega)]; omega
      rw [htd, htm, isizeShl1_eq c _ (by omega) (by omega), isizeShl1_eq c _ (by omega) (by omega),
        isizeC_ok c _ _ (by omega) (by omega), ok_bind]
      rw [show (k : Int) - 4 = ((k - 4 : Nat) : Int) by omega]
      obtain ⟨buf1, h1, h1l, h1t, h1d⟩ := copy2_eq (n.toNat c % 10000 / 100) (k - 4) buf (by omega) (by omega)
      rw [show (2 : Int) * ((n.toNat c % 10000 / 100 : Nat) : Int) = ((2 * (n.toNat c % 10000 / 100) : Nat) : Int) by omega,
        h1, ok_bind, isizeC_ok c _ _ (by omega) (by omega), ok_bind]
      obtain ⟨buf2, h2, h2l, h2t, h2d⟩ := copy2_eq (n.toNat c % 10000 % 100) (k - 2) buf1 (by omega) (by omega)
      rw [show (2 : Int) * ((n.toNat c % 10000 % 100 : Nat) : Int) = ((2 * (n.toNat c % 10000 % 100) : Nat) : Int) by omega,
        show ((k - 4 : Nat) : Int) + 2 = ((k - 2 : Nat) : Int) by omega, h2, ok_bind]
      have hdrop : buf2.drop (k - 4) = txt (two (n.toNat c % 10000 / 100) ++ two (n.toNat c % 10000 % 100) ++ t) := by
        have a1 : buf2.drop (k - 4) = (buf2.take (k - 2)).drop (k - 4) ++ buf2.drop (k - 2) := by
          conv => lhs; rw [← List.take_append_drop (k - 2) buf2]
          rw [List.drop_append_of_le_length (by rw [List.length_take]; omega)]
        have a2 : (buf1.take (k - 2)).drop (k - 4) = txt (two (n.toNat c % 10000 / 100)) := by
          rw [List.drop_take, h1d, show k - 2 - (k - 4) = 2 by omega]; rfl
        have a3 : buf1.drop (k - 2 + 2) = txt t := by
          rw [show k - 2 + 2 = k - 4 + 4 by omega, ← List.drop_drop, h1d, show k - 4 + 2 = k - 2 by omega]
          show (buf.drop (k - 2)).drop 2 = _
          rw [List.drop_drop, show k - 2 + 2 = k by omega, hd]
        rw [a1, h2t, a2, h2d, a3]
        simp only [txt, List.map_append, List.append_assoc]
      have hT := toDigits4 (n.toNat c) hge
      obtain ⟨n', k', buf', t', r1, r2, r3, r4, r5, r6, r7⟩ := ih (U256.ofNat c (n.toNat c / 10000)) (k - 4) buf2 _ (by
          rw [hquo]; rw [Nat.pow_succ] at hn; exact Nat.div_lt_of_lt_mul (by rwa [Nat.mul_comm] at hn))
        (by omega) (by omega) hdrop (by
          rw [hquo]
          rw [hT] at hl
          simp only [List.length_append, two, List.length_cons, List.length_nil] at hl
          omega)
      refine ⟨n', k', buf', t', r1, r2, r3, r4, r5, ?_, r7⟩
      rw [r6, hquo, hT]; simp only [List.append_assoc]
    · rw [if_neg (by simpa using hge)]
      exact ⟨n, k, buf, t, rfl, by omega, hb, hk, hd, rfl, hl⟩

theorem toDigits2 (n : Nat) (h : 100 ≤ n) : Nat.toDigits 10 n = Nat.toDigits 10 (n / 100) ++ two (n % 100) := by
  rw [Nat.toDigits_of_base_le (n := n) (by omega) (by omega), Nat.toDigits_of_base_le (n := n / 10) (by omega) (by omega)]
  rw [show n / 10 / 10 = n / 100 by omega, show n / 10 % 10 = n % 100 / 10 by omega, show n % 10 = n % 100 % 10 by omega]
  simp [two]

theorem toDigits_two (n : Nat) (h : 10 ≤ n) (h2 : n < 100) : Nat.toDigits 10 n = two n := by
  rw [Nat.toDigits_of_base_le (n := n) (by omega) (by omega), Nat.toDigits_of_lt_base (by omega)]; rfl

theorem asc_digit (c : Cfg) (n : Nat) (h : n < 10) : addC c (BitVec.ofInt 8 (n : Int)) 48 = .ok (asc (Nat.digitChar n)) := by
  unfold addC
  generalize c.overflowChecks = o
  revert o n
  decide

theorem decTail_last (c : Cfg) (n k : Nat) (buf : Buf) (t : List Char) (hn : n < 100) (hb : buf.length = 79) (hk : k ≤ 79)
    (hd : buf.drop k = txt t) (hl : (Nat.toDigits 10 n).length ≤ k) :
    ∃ k' buf', (if (n : Int) < 10 then do
        let curr ← isizeC c ((k : Int) - 1) .subOverflow
        let d ← addC c (BitVec.ofInt 8 (n : Int)) 48
        let buf ← buf.write curr d
        return (curr, buf)
      else do
        let d1 := isizeShl1 c n
        let curr ← isizeC c ((k : Int) - 2) .subOverflow
        let buf ← copy2 d1 curr buf
        return (curr, buf) : Res (Int × Buf)) = .ok ((k' : Nat), buf') ∧ k' ≤ 79
      ∧ buf'.drop k' = txt (Nat.toDigits 10 n ++ t) := by
  by_cases h10 : n < 10
  · rw [if_pos (by omega), isizeC_ok c _ _ (by omega) (by omega), ok_bind, asc_digit c n h10, ok_bind]
    rw [Nat.toDigits_of_lt_base h10, List.length_singleton] at hl
    rw [show (k : Int) - 1 = ((k - 1 : Nat) : Int) by omega, Buf.write_ok _ _ _ (by omega), ok_bind]
    refine ⟨k - 1, _, rfl, by omega, ?_⟩
    rw [drop_set _ _ _ (by omega), show k - 1 + 1 = k by omega, hd, Nat.toDigits_of_lt_base h10]; rfl
  · rw [if_neg (by omega)]
    rw [toDigits_two n (by omega) hn] at hl
    have hl2 : 2 ≤ k := hl
    obtain ⟨buf1, h1, _, _, h1d⟩ := copy2_eq n (k - 2) buf hn (by omega)
    dsimp only
    rw [isizeShl1_eq c _ (by omega) (by omega), isizeC_ok c _ _ (by omega) (by omega), ok_bind,
      show (k : Int) - 2 = ((k - 2 : Nat) : Int) by omega, show (2 : Int) * (n : Int) = ((2 * n : Nat) : Int) by omega,
      h1, ok_bind]
    refine ⟨k - 2, _, rfl, by omega, ?_⟩
    rw [h1d, show k - 2 + 2 = k by omega, hd, toDigits_two n (by omega) hn]
    simp only [txt, List.map_append]

theorem decTail_spec (c : Cfg) (n k : Nat) (buf : Buf) (t : List Char) (hn : n < 10000) (hb : buf.length = 79) (hk : k ≤ 79)
    (hd : buf.drop k = txt t) (hl : (Nat.toDigits 10 n).length ≤ k) :
    ∃ k' buf', decTail c n k buf = .ok ((k' : Nat), buf') ∧ k' ≤ 79 ∧ buf'.drop k' = txt (Nat.toDigits 10 n ++ t) := by
  unfold decTail
  by_cases h : n < 100
  · rw [if_neg (by omega)]
    show ∃ k' buf', (Except.ok ((n : Int), (k : Int), buf) >>= _) = _ ∧ _
    rw [ok_bind]
    exact decTail_last c n k buf t h hb hk hd hl
  · rw [if_pos (by omega)]
    have htd : (n : Int).tdiv 100 = (n / 100 : Nat) := by
      rw [Int.tdiv_eq_ediv_of_nonneg (by omega)]; omega
    have htm : (n : Int).tmod 100 = (n % 100 : Nat) := by
      rw [Int.tmod_eq_emod_of_nonneg (by omega)]; omega
    have hlen3 : ¬ (Nat.toDigits 10 n).length ≤ 2 := by
      rw [Nat.length_toDigits_le_iff (by omega) (by omega)]; omega
    obtain ⟨buf1, h1, h1l, _, h1d⟩ := copy2_eq (n % 100) (k - 2) buf (by omega) (by omega)
    dsimp only
    rw [htd, htm, isizeShl1_eq c _ (by omega) (by omega), isizeC_ok c _ _ (by omega) (by omega), ok_bind,
      show (k : Int) - 2 = ((k - 2 : Nat) : Int) by omega,
      show (2 : Int) * ((n % 100 : Nat) : Int) = ((2 * (n % 100) : Nat) : Int) by omega, h1, ok_bind]
    show ∃ k' buf', (Except.ok (((n / 100 : Nat) : Int), ((k - 2 : Nat) : Int), buf1) >>= _) = _ ∧ _
    rw [ok_bind]
    have hT := toDigits2 n (by omega)
    obtain ⟨k', buf', r1, r2, r3⟩ := decTail_last c (n / 100) (k - 2) buf1 (two (n % 100) ++ t) (by omega) (by omega) (by omega)
      (by rw [h1d, show k - 2 + 2 = k by omega, hd]; simp only [txt, List.map_append])
      (by rw [hT] at hl; simp only [List.length_append, two, List.length_cons, List.length_nil] at hl; omega)
    refine ⟨k', buf', r1, r2, ?_⟩
    rw [r3, hT, List.append_assoc]

theorem pow10_78 : 2 ^ 256 < 10 ^ 78 := by decide
theorem pow10000_99 : 2 ^ 256 < 10000 ^ 99 := by decide +kernel

theorem fmt_u256_eq (c : Cfg) (x : U256) (nn : Bool) (f : Formatter) :
    fmt_u256 c x nn f = .ok (f.pad_integral nn [] (Nat.toDigits 10 (x.toNat c))) := by
  unfold fmt_u256
  have hx := U256.toNat_lt c x
  have hlen : (Nat.toDigits 10 (x.toNat c)).length ≤ 78 := by
    rw [Nat.length_toDigits_le_iff (by omega) (by omega)]
    exact Nat.lt_trans hx pow10_78
  obtain ⟨n', k', buf', t', r1, r2, r3, r4, r5, r6, r7⟩ := decLoop_spec c 99 x 79 (Buf.uninit 79) []
    (Nat.lt_trans hx pow10000_99) (Buf.length_uninit _) (Nat.le_refl _) (by rw [Buf.drop_uninit]; rfl) (by omega)
  change decLoop c 100 x 79 (Buf.uninit 79) = _ at r1
  rw [r1, ok_bind]
  dsimp only
  rw [as_isize_eq c _ (by omega)]
  obtain ⟨k2, buf2, s1, s2, s3⟩ := decTail_spec c (n'.toNat c) k' buf' t' r2 r3 r4 r5 r7
  rw [s1, ok_bind]
  dsimp only
  rw [if_neg (by omega), Int.toNat_natCast, s3, r6, List.append_nil, Buf.init_txt, ok_bind,
    strUnchecked_asc (toDigits_ascii 10 _ (by omega) (by omega)), ok_bind]; rfl

end Ethnum
