import Verif.SpecUnits
import Verif.Props.UArith
import Verif.Props.Pow
import Verif.Props.Parse
import Verif.Props.Fmt
import Verif.Props.RoundTrip
import Mathlib.Tactic.FieldSimp
import Mathlib.Tactic.Positivity

/-
C78 amounts with decimals.
-/

namespace Ethnum
open Amount

/-! ### Lemmas -/

private theorem unit_eq (c : Cfg) (d : U32) (hd : d.toNat ≤ 77) : ∃ u, unit c d = .ok u ∧ u.toNat c = 10 ^ d.toNat := by
  have h10 : (U256.new c 10).toNat c = 10 := by rw [U256.toNat_new]; rfl
  have hlt : (10 : ℕ) ^ d.toNat < 2 ^ 256 := lt_of_le_of_lt (Nat.pow_le_pow_right (by decide) hd) (by decide +kernel)
  refine ⟨_, ?_, U256.toNat_ofNat_of_lt c hlt⟩
  unfold unit
  rw [(C16_pow c _ d).2.2.2.2, h10, if_neg (by omega)]

private theorem split_spec (t : List U8) : (∀ i f, splitOnce t = some (i, f) → t = i ++ 46 :: f ∧ 46 ∉ i)
    ∧ (∀ i f, t = i ++ 46 :: f → 46 ∉ i → splitOnce t = some (i, f)) ∧ (splitOnce t = none → 46 ∉ t) := by
  induction t with
  | nil => exact ⟨fun i f h => (by cases h), fun i f h => (by simp at h), fun _ => by simp⟩
  | cons b t ih =>
    refine ⟨?_, ?_, ?_⟩
    · intro i f h
      unfold splitOnce at h
      by_cases hb : b = 46
      · rw [if_pos hb] at h; cases h; rw [hb]; exact ⟨rfl, by simp⟩
      · rw [if_neg hb] at h
        cases hs : splitOnce t with
        | none => rw [hs] at h; cases h
        | some p =>
          rw [hs] at h; cases h
          obtain ⟨h1, h2⟩ := ih.1 p.1 p.2 hs
          refine ⟨by rw [List.cons_append, ← h1], fun hm => ?_⟩
          rcases List.mem_cons.1 hm with hm | hm
          · exact hb hm.symm
          · exact h2 hm
    · intro i f h hn
      unfold splitOnce
      cases i with
      | nil => cases h; rw [if_pos rfl]
      | cons a i =>
        cases h
        rw [if_neg (by rintro rfl; exact hn (by simp)), ih.2.1 i f rfl (fun h => hn (List.mem_cons_of_mem _ h))]
        rfl
    · intro h hm
      unfold splitOnce at h
      by_cases hb : b = 46
      · rw [if_pos hb] at h; cases h
      · rw [if_neg hb, Option.map_eq_none_iff] at h
        rcases List.mem_cons.1 hm with hm | hm
        · exact hb hm.symm
        · exact ih.2.2 h hm

private theorem mem_of_dropPlus {t : List U8} {b : U8} (h : b ∈ dropPlus t) : b ∈ t := by
  cases t with
  | nil => exact h
  | cons a t =>
    unfold dropPlus at h; dsimp only at h
    split at h
    · exact List.mem_cons_of_mem _ h
    · exact h

private theorem digits_of {l : List U8} {v : ℕ} (h : Numeral 10 l v) : ∀ b ∈ l, 48 ≤ b ∧ b ≤ 57 := by
  have hd : ∀ {b : U8} {d : ℕ}, IsDigit 10 b d → 48 ≤ b ∧ b ≤ 57 := fun {b d} h => by
    rw [BitVec.le_def, BitVec.le_def]
    obtain ⟨h1, ⟨-, h2⟩ | ⟨h2, -⟩⟩ := h
    · exact ⟨by rw [h2]; exact Nat.le_add_right 48 d, by rw [h2]; show 48 + d ≤ 57; omega⟩
    · omega
  induction h with
  | one h => intro b hb; rw [List.mem_singleton.1 hb]; exact hd h
  | snoc _ h ih =>
    intro b hb
    rcases List.mem_append.1 hb with hb | hb
    · exact ih b hb
    · rw [List.mem_singleton.1 hb]; exact hd h

private theorem dropPlus_point (i f : List U8) : dropPlus (i ++ 46 :: f) = dropPlus i ++ 46 :: f := by
  cases i with
  | nil => rfl
  | cons b i => show dropPlus (b :: (i ++ 46 :: f)) = _; unfold dropPlus; dsimp only; split <;> rfl

private theorem from_str_iff (c : Cfg) (s : List U8) (x : U256) : U256.from_str c s = .ok (.ok x) ↔ Numeral 10 (dropPlus s) (x.toNat c) := by
  rw [C28_from_str]; exact (C28_from_str_radix c s 10 (by decide)).2.1 x

private theorem dropPlus_digits {f : List U8} (h : ∀ b ∈ f, (48 : U8) ≤ b ∧ b ≤ 57) : dropPlus f = f := by
  cases f with
  | nil => rfl
  | cons b f =>
    unfold dropPlus; dsimp only
    rw [if_neg]
    rintro rfl
    exact absurd (h 43 (by simp)).1 (by decide)

private theorem amount {d m n v : ℕ} : (v : ℚ) / 10 ^ d = m + n / 10 ^ d ↔ v = m * 10 ^ d + n := by
  have hp : (10 : ℚ) ^ d ≠ 0 := by positivity
  rw [show (m : ℚ) + n / 10 ^ d = ((m * 10 ^ d + n : ℕ) : ℚ) / 10 ^ d by push_cast; field_simp]
  rw [div_left_inj' hp]
  exact Nat.cast_inj

/-! ### The property -/

/-- C78 (writing): with 1 to 77 decimals, in every build, every amount is written as a decimal with exactly that many places, which
denotes the amount divided by the unit; the part before the point has no superfluous zeros. -/
theorem C78_format (c : Cfg) (x : U256) (d : U32) (h1 : 1 ≤ d.toNat) (h77 : d.toNat ≤ 77) :
    ∃ text, Amount.format c x d = .ok text ∧ Decimal d.toNat (text.map asc) ((x.toNat c : ℚ) / 10 ^ d.toNat)
      ∧ Nat.toDigits 10 (x.toNat c / 10 ^ d.toNat) ++ ['.'] <+: text := by
  obtain ⟨u, eu, hu⟩ := unit_eq c d h77
  have hu0 : u.toNat c ≠ 0 := by rw [hu]; positivity
  have hx := x.toNat_lt c
  have hq : (U256.ofNat c (x.toNat c / u.toNat c)).toNat c = x.toNat c / 10 ^ d.toNat := by
    rw [U256.toNat_ofNat_of_lt c (lt_of_le_of_lt (Nat.div_le_self _ _) hx), hu]
  have hr : (U256.ofNat c (x.toNat c % u.toNat c)).toNat c = x.toNat c % 10 ^ d.toNat := by
    rw [U256.toNat_ofNat_of_lt c (lt_of_le_of_lt (Nat.mod_le _ _) hx), hu]
  have hlen : (Nat.toDigits 10 (x.toNat c % 10 ^ d.toNat)).length ≤ d.toNat :=
    (Nat.length_toDigits_le_iff (by decide) (by omega)).2 (Nat.mod_lt _ (by positivity))
  have hpad : (Formatter.mk 8 (some d.toNat) ' ' none).pad_integral true [] (Nat.toDigits 10 (x.toNat c % 10 ^ d.toNat))
      = List.replicate (d.toNat - (Nat.toDigits 10 (x.toNat c % 10 ^ d.toNat)).length) '0'
        ++ Nat.toDigits 10 (x.toNat c % 10 ^ d.toNat) := by
    generalize Nat.toDigits 10 (x.toNat c % 10 ^ d.toNat) = ds at hlen
    have e1 : (Formatter.mk 8 (some d.toNat) ' ' none).sign_plus = false := by
      show (8 : U32).getLsbD 0 = false; decide
    have e2 : (Formatter.mk 8 (some d.toNat) ' ' none).alternate = false := by
      show (8 : U32).getLsbD 2 = false; decide
    have e3 : (Formatter.mk 8 (some d.toNat) ' ' none).sign_aware_zero_pad = true := by
      show (8 : U32).getLsbD 3 = true; decide
    simp only [Formatter.pad_integral, e1, e2, e3, Bool.not_true, Bool.false_eq_true, if_false, if_true, List.nil_append, List.length_nil,
      Nat.zero_add]
    split
    · rw [show d.toNat - ds.length = 0 by omega]; rfl
    · rfl
  refine ⟨Nat.toDigits 10 (x.toNat c / 10 ^ d.toNat) ++ '.' :: (List.replicate (d.toNat - (Nat.toDigits 10 (x.toNat c % 10 ^ d.toNat)).length) '0'
        ++ Nat.toDigits 10 (x.toNat c % 10 ^ d.toNat)), ?_, ?_, ?_⟩
  · unfold Amount.format
    rw [eu]
    simp only [bind, Except.bind, (C04_div c x u hu0).1, (C04_rem c x u hu0).1]
    rw [(C32_display c _ (I256.ONE c) _).1, (C32_display c _ (I256.ONE c) _).1, hq, hr, hpad]
    rfl
  · refine ⟨(Nat.toDigits 10 (x.toNat c / 10 ^ d.toNat)).map asc, _, _, _, by rw [List.map_append, List.map_cons]; rfl, decimal_denotes _,
      by rw [List.map_append]; exact (decimal_denotes _).zeros (by decide) _, ?_, ?_⟩
    · rw [List.length_map, List.length_append, List.length_replicate]; omega
    · rw [amount, Nat.mul_comm, Nat.div_add_mod]
  · exact ⟨_, by rw [List.append_assoc]; rfl⟩

example : Amount.format dbg (U256.ofNat dbg 1500000000000000000) 18 = .ok "1.500000000000000000".toList
    ∧ Amount.format rel (U256.ofNat rel 7) 18 = .ok "0.000000000000000007".toList := by decide +kernel

/-- C78 (reading): with at most 77 decimals, in every build, reading never panics, and the texts accepted are exactly the decimals with
that many places, with or without a `+`, that denote an amount below `2 ^ 256`; the amount read is the one denoted. -/
theorem C78_parse (c : Cfg) (t : List U8) (d : U32) (h77 : d.toNat ≤ 77) :
    (∃ r, Amount.parse c t d = .ok r)
    ∧ ∀ v : U256, Amount.parse c t d = .ok (some v) ↔ Decimal d.toNat (dropPlus t) ((v.toNat c : ℚ) / 10 ^ d.toNat) := by
  obtain ⟨u, eu, hu⟩ := unit_eq c d h77
  have htot : ∀ s : List U8, ∃ r, U256.from_str c s = .ok r := fun s => by
    rw [C28_from_str]; exact (C28_from_str_radix c s 10 (by decide)).1
  -- after the split
  have hsp : ∀ i f, splitOnce t = some (i, f) → (∃ r, Amount.parse c t d = .ok r)
      ∧ ∀ v : U256, Amount.parse c t d = .ok (some v) ↔ ∃ m n, Numeral 10 (dropPlus i) m ∧ Numeral 10 f n ∧ f.length = d.toNat
        ∧ v.toNat c = m * 10 ^ d.toNat + n := by
    intro i f hs
    unfold Amount.parse
    rw [hs]
    dsimp only
    by_cases hf : f.length ≠ d.toNat ∨ f.all (fun b => decide (48 ≤ b ∧ b ≤ 57)) = false
    · rw [if_pos hf]
      refine ⟨⟨_, rfl⟩, fun v => ⟨fun h => (by cases h), ?_⟩⟩
      rintro ⟨m, n, -, h2, h3, -⟩
      rcases hf with hf | hf
      · exact absurd h3 hf
      · have : f.all (fun b => decide (48 ≤ b ∧ b ≤ 57)) = true := by
          rw [List.all_eq_true]; intro b hb; exact decide_eq_true (digits_of h2 b hb)
        rw [this] at hf; cases hf
    · rw [if_neg hf]
      have hlen : f.length = d.toNat := by by_contra h; exact hf (Or.inl h)
      have hall : f.all (fun b => decide (48 ≤ b ∧ b ≤ 57)) ≠ false := fun h => hf (Or.inr h)
      have hdig : ∀ b ∈ f, (48 : U8) ≤ b ∧ b ≤ 57 := fun b hb =>
        of_decide_eq_true (List.all_eq_true.1 (by simpa only [Bool.not_eq_false] using hall) b hb)
      have hdp := dropPlus_digits hdig
      rw [eu]
      obtain ⟨ri, eri⟩ := htot i
      obtain ⟨rf, erf⟩ := htot f
      simp only [bind, Except.bind, eri]
      cases ri with
      | error e =>
        refine ⟨⟨_, rfl⟩, fun v => ⟨fun h => (by cases h), ?_⟩⟩
        rintro ⟨m, n, h1', -, -, h4⟩
        have hm : m < 2 ^ 256 := by
          have := v.toNat_lt c
          have : m * 1 ≤ m * 10 ^ d.toNat := Nat.mul_le_mul_left m (Nat.one_le_two_pow.trans (Nat.pow_le_pow_left (by decide) _))
          omega
        have := C28_complete c i 10 (by decide) m hm h1'
        rw [← C28_from_str, eri] at this; cases this
      | ok xi =>
        have hxi := (from_str_iff c i xi).1 eri
        simp only [erf]
        cases rf with
        | error e =>
          refine ⟨⟨_, rfl⟩, fun v => ⟨fun h => (by cases h), ?_⟩⟩
          rintro ⟨m, n, -, h2, -, h4⟩
          have := C28_complete c f 10 (by decide) n (by have := v.toNat_lt c; omega) (by rw [hdp]; exact h2)
          rw [← C28_from_str, erf] at this; cases this
        | ok xf =>
          have hxf := (from_str_iff c f xf).1 erf
          rw [hdp] at hxf
          have huniq : ∀ m, Numeral 10 (dropPlus i) m → m < 2 ^ 256 → m = xi.toNat c := fun m hm hlt => by
            have := C28_complete c i 10 (by decide) m hlt hm
            rw [← C28_from_str, eri] at this
            have := congrArg (fun r => match r with | Except.ok (Except.ok y) => U256.toNat c y | _ => 0) this
            simp only [U256.toNat_ofNat_of_lt c hlt] at this
            exact this.symm
          have huniq' : ∀ n, Numeral 10 f n → n < 2 ^ 256 → n = xf.toNat c := fun n hn hlt => by
            have := C28_complete c f 10 (by decide) n hlt (by rw [hdp]; exact hn)
            rw [← C28_from_str, erf] at this
            have := congrArg (fun r => match r with | Except.ok (Except.ok y) => U256.toNat c y | _ => 0) this
            simp only [U256.toNat_ofNat_of_lt c hlt] at this
            exact this.symm
          have hrhs : ∀ v : U256, (∃ m n, Numeral 10 (dropPlus i) m ∧ Numeral 10 f n ∧ f.length = d.toNat ∧ v.toNat c = m * 10 ^ d.toNat + n)
              ↔ v.toNat c = xi.toNat c * u.toNat c + xf.toNat c := fun v => by
            constructor
            · rintro ⟨m, n, h1', h2, -, h4⟩
              have := v.toNat_lt c
              have : m * 1 ≤ m * 10 ^ d.toNat := Nat.mul_le_mul_left m (Nat.one_le_two_pow.trans (Nat.pow_le_pow_left (by decide) _))
              rw [h4, huniq m h1' (by omega), huniq' n h2 (by omega), hu]
            · intro h; exact ⟨_, _, hxi, hxf, hlen, by rw [h, hu]⟩
          simp only [(C03_mul c xi u).2.2.1]
          by_cases hp : xi.toNat c * u.toNat c < 2 ^ 256
          · rw [if_pos hp]
            dsimp only [pure, Except.pure]
            rw [(C02_checked c _ _).1, U256.toNat_ofNat_of_lt c hp]
            refine ⟨⟨_, rfl⟩, fun v => ?_⟩
            rw [hrhs]
            by_cases hsum : xi.toNat c * u.toNat c + xf.toNat c < 2 ^ 256
            · rw [if_pos hsum]
              constructor
              · intro h
                have h' : U256.ofNat c (xi.toNat c * u.toNat c + xf.toNat c) = v := by injection h with h; injection h
                rw [← h', U256.toNat_ofNat_of_lt c hsum]
              · intro h; rw [← h, U256.ofNat_toNat]
            · rw [if_neg hsum]
              exact ⟨fun h => (by cases h), fun h => absurd (v.toNat_lt c) (by omega)⟩
          · rw [if_neg hp]
            refine ⟨⟨_, rfl⟩, fun v => ?_⟩
            rw [hrhs]
            exact ⟨fun h => (by cases h), fun h => absurd (v.toNat_lt c) (by omega)⟩
  cases hs : splitOnce t with
  | none =>
    have e : Amount.parse c t d = .ok none := by unfold Amount.parse; rw [hs]
    refine ⟨⟨_, e⟩, fun v => ⟨fun h => (by rw [e] at h; cases h), ?_⟩⟩
    rintro ⟨i, f, m, n, h1', h2, -⟩
    exact absurd hs fun hs => (split_spec t).2.2 hs (mem_of_dropPlus (by rw [h1']; simp))
  | some p =>
    obtain ⟨i, f⟩ := p
    obtain ⟨hA, hB⟩ := hsp i f hs
    refine ⟨hA, fun v => ?_⟩
    rw [hB v]
    obtain ⟨ht, hni⟩ := (split_spec t).1 i f hs
    constructor
    · rintro ⟨m, n, a1, a2, a3, a4⟩
      exact ⟨dropPlus i, f, m, n, by rw [ht, dropPlus_point], a1, a2, a3, amount.2 a4⟩
    · rintro ⟨i', f', m, n, a1, a2, a3, a4, a5⟩
      have e : dropPlus i = i' ∧ f = f' := by
        rw [ht, dropPlus_point] at a1
        have b1 := (split_spec _).2.1 (dropPlus i) f rfl (fun h => hni (mem_of_dropPlus h))
        have b2 := (split_spec _).2.1 i' f' rfl (fun h => absurd (digits_of a2 _ h).1 (by decide))
        rw [a1, b2] at b1
        cases b1; exact ⟨rfl, rfl⟩
      rw [e.1, e.2]
      exact ⟨m, n, a2, a3, a4, amount.1 a5⟩

example : Amount.parse dbg (str "1.500000000000000000") 18 = .ok (some (U256.ofNat dbg 1500000000000000000))
    ∧ Amount.parse rel (str "+0.07") 2 = .ok (some (U256.ofNat rel 7)) ∧ Amount.parse dbg (str "0.+7") 2 = .ok none
    ∧ Amount.parse dbg (str "1.5") 2 = .ok none ∧ Amount.parse dbg (str ".50") 2 = .ok none ∧ Amount.parse dbg (str "1..5") 2 = .ok none
    ∧ Amount.parse rel (str "11579208923731619542357098500868790785326998466564056403945758400791312963993.5") 1 = .ok (some U256.MAX)
    ∧ Amount.parse rel (str "11579208923731619542357098500868790785326998466564056403945758400791312963993.6") 1 = .ok none := by decide +kernel

/-- C78 (round trip): what is written is read back, in every build. -/
theorem C78_round_trip (c : Cfg) (x : U256) (d : U32) (h1 : 1 ≤ d.toNat) (h77 : d.toNat ≤ 77) :
    ∃ text, Amount.format c x d = .ok text ∧ Amount.parse c (text.map asc) d = .ok (some x) := by
  obtain ⟨text, e, hd, -⟩ := C78_format c x d h1 h77
  refine ⟨text, e, ((C78_parse c _ d h77).2 x).2 ?_⟩
  rwa [show dropPlus (text.map asc) = text.map asc from ?_]
  obtain ⟨i, f, m, n, h, hi, -⟩ := hd
  rw [h, dropPlus_point, hi.dropPlus_eq (by decide)]

example : Amount.format dbg U256.MAX 77 = .ok "1.15792089237316195423570985008687907853269984665640564039457584007913129639935".toList
    ∧ Amount.parse dbg (str "1.15792089237316195423570985008687907853269984665640564039457584007913129639935") 77 = .ok (some U256.MAX) := by
  decide +kernel

/-- C78 (more decimals): with 78 decimals or more the unit does not fit; with debug assertions writing panics for every amount. -/
theorem C78_too_many (c : Cfg) (x : U256) (d : U32) (hc : c.debugAssertions = true) (h : 78 ≤ d.toNat) :
    Amount.format c x d = .error (.panic .mulOverflow) := by
  have h10 : (U256.new c 10).toNat c = 10 := by rw [U256.toNat_new]; rfl
  have hge : 2 ^ 256 ≤ 10 ^ d.toNat := le_trans (by decide +kernel) (Nat.pow_le_pow_right (by decide) h)
  unfold Amount.format Amount.unit
  rw [(C16_pow c _ d).2.2.2.2, h10, if_pos ⟨hc, hge⟩]
  rfl

example : Amount.format dbg (U256.ofNat dbg 1) 78 = .error (.panic .mulOverflow) := by decide +kernel

end Ethnum
