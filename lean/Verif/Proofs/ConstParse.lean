import Verif.Proofs.ParseSpec
import Verif.Proofs.IntApi

namespace Ethnum

namespace Const

theorem check_true {P : Prop} [Decidable P] (h : P) : check (decide P) = .error (.panic .explicit) := by
  rw [decide_eq_true h]; rfl
theorem check_false {P : Prop} [Decidable P] (h : ¬ P) : check (decide P) = .ok () := by
  rw [decide_eq_false h]; rfl

theorem add_eq (c : Cfg) (a : U256) (b : U8) : add c a b =
    if a.toNat c + b.toNat < 2 ^ 256 then .ok (U256.ofNat c (a.toNat c + b.toNat)) else .error (.panic .explicit) := by
  unfold add
  rw [U256.into_words_eq]
  have hv := U256.toNat_eq c a
  have h1 := (a.high c).isLt; have h2 := (a.low c).isLt; have h3 := b.isLt
  have hb : (b.setWidth 128).toNat = b.toNat := by rw [BitVec.toNat_setWidth]; omega
  unfold overflowingAdd
  dsimp only
  rw [hb]
  have ht : (ofBool 128 true).toNat = 1 := rfl
  have hf : (ofBool 128 false).toNat = 0 := rfl
  by_cases hc : 2 ^ 128 ≤ (a.low c).toNat + b.toNat
  · rw [decide_eq_true hc]
    by_cases h : 2 ^ 128 ≤ (a.high c).toNat + 1
    · rw [check_true (by rw [ht]; exact h), error_bind, if_neg (by omega)]
    · rw [check_false (by rw [ht]; exact h), ok_bind, if_pos (by omega)]
      show Except.ok _ = _
      congr 1
      rw [U256.ofNat_eq]
      congr 1
      · apply BitVec.eq_of_toNat_eq; rw [BitVec.toNat_add, BitVec.toNat_ofNat, ht]; omega
      · apply BitVec.eq_of_toNat_eq; rw [BitVec.toNat_add, BitVec.toNat_ofNat, hb]; omega
  · rw [decide_eq_false hc]
    rw [check_false (by rw [hf]; omega), ok_bind, if_pos (by omega)]
    show Except.ok _ = _
    congr 1
    rw [U256.ofNat_eq]
    congr 1
    · apply BitVec.eq_of_toNat_eq; rw [BitVec.toNat_add, BitVec.toNat_ofNat, hf]; omega
    · apply BitVec.eq_of_toNat_eq; rw [BitVec.toNat_add, BitVec.toNat_ofNat, hb]; omega

theorem mul_eq (c : Cfg) (a : U256) (r : U128) (hr : r.toNat ≤ 16) : mul c a r =
    if a.toNat c * r.toNat < 2 ^ 256 ∧ NoCarry r.toNat (a.toNat c) then .ok (U256.ofNat c (a.toNat c * r.toNat))
    else .error (.panic .explicit) := by
  unfold mul
  rw [U256.into_words_eq]
  dsimp only
  have hv := U256.toNat_eq c a
  have h1 := (a.high c).isLt; have h2 := (a.low c).isLt
  have h64 : (64 : U32).toNat = 64 := rfl
  rw [shrC_ok c (by rw [h64]; omega), ok_bind, h64]
  have hll : (a.low c &&& BitVec.setWidth 128 (BitVec.allOnes 64)).toNat = (a.low c).toNat % 2 ^ 64 := by
    rw [BitVec.toNat_and]
    have : (BitVec.setWidth 128 (BitVec.allOnes 64)).toNat = 2 ^ 64 - 1 := by decide
    rw [this, Nat.and_two_pow_sub_one_eq_mod]
  have hlh : (a.low c >>> 64).toNat = (a.low c).toNat / 2 ^ 64 := by
    rw [BitVec.toNat_ushiftRight, Nat.shiftRight_eq_div_pow]
  generalize hLL : (a.low c &&& BitVec.setWidth 128 (BitVec.allOnes 64)) = ll at hll
  generalize hLH : (a.low c >>> 64) = lh at hlh
  have hR : ll.toNat * r.toNat ≤ (2 ^ 64 - 1) * 16 := Nat.mul_le_mul (by omega) hr
  have hQ : lh.toNat * r.toNat ≤ (2 ^ 64 - 1) * 16 := Nat.mul_le_mul (by omega) hr
  rw [mulC_ok c (by omega), ok_bind, mulC_ok c (by omega), ok_bind]
  unfold overflowingAdd overflowingMul
  dsimp only
  rw [shlC_ok c (by rw [h64]; omega), shrC_ok c (by rw [h64]; omega), h64]
  have hmlh : (lh * r).toNat = lh.toNat * r.toNat := by rw [BitVec.toNat_mul]; omega
  have hmll : (ll * r).toNat = ll.toNat * r.toNat := by rw [BitVec.toNat_mul]; omega
  have hs1 : ((lh * r) <<< 64).toNat = lh.toNat * r.toNat % 2 ^ 64 * 2 ^ 64 := by
    rw [BitVec.toNat_shiftLeft, hmlh, Nat.shiftLeft_eq]; omega
  have hs2 : ((lh * r) >>> 64).toNat = lh.toNat * r.toNat / 2 ^ 64 := by
    rw [BitVec.toNat_ushiftRight, hmlh, Nat.shiftRight_eq_div_pow]
  have hlo : (a.low c).toNat * r.toNat = lh.toNat * r.toNat * 2 ^ 64 + ll.toNat * r.toNat := by
    have : (a.low c).toNat = lh.toNat * 2 ^ 64 + ll.toNat := by omega
    rw [this]; ring
  have hprod : a.toNat c * r.toNat = (a.high c).toNat * r.toNat * 2 ^ 128 + (lh.toNat * r.toNat * 2 ^ 64 + ll.toNat * r.toNat) := by
    rw [hv, Nat.add_mul, hlo]; ring
  have hnc : NoCarry r.toNat (a.toNat c)
      ↔ (lh.toNat * r.toNat) / 2 ^ 64 = (lh.toNat * r.toNat * 2 ^ 64 + ll.toNat * r.toNat) / 2 ^ 128 := by
    unfold NoCarry
    have e1 : a.toNat c % 2 ^ 128 = (a.low c).toNat := by omega
    rw [e1, hlo, ← hlh]
  generalize hX : ll.toNat * r.toNat = R at *
  generalize hY : lh.toNat * r.toNat = Q at *
  generalize hZ : (a.high c).toNat * r.toNat = P at *
  by_cases hP : 2 ^ 128 ≤ P
  · rw [check_true hP, error_bind, if_neg (fun hh => by have := hh.1; omega)]
  · rw [check_false hP, ok_bind, ok_bind]
    have hmhi : (a.high c * r).toNat = P := by
      rw [BitVec.toNat_mul, hZ]; omega
    by_cases hC : 2 ^ 128 ≤ R + Q % 2 ^ 64 * 2 ^ 64
    · rw [check_true (by rw [hmll, hs1]; exact hC), error_bind, if_neg (fun hh => by have := hnc.1 hh.2; omega)]
    · rw [check_false (by rw [hmll, hs1]; exact hC), ok_bind, ok_bind]
      by_cases hH : 2 ^ 128 ≤ P + Q / 2 ^ 64
      · rw [check_true (by rw [hmhi, hs2]; exact hH), error_bind, if_neg (fun hh => by have := hh.1; omega)]
      · rw [check_false (by rw [hmhi, hs2]; exact hH), ok_bind, if_pos ⟨by omega, hnc.2 (by omega)⟩]
        have e : U256.from_words c (a.high c * r + (lh * r) >>> 64) (ll * r + (lh * r) <<< 64)
            = U256.ofNat c (a.toNat c * r.toNat) := by
          apply U256.toNat_inj c
          rw [U256.toNat_from_words, U256.toNat_ofNat_of_lt c (by omega), BitVec.toNat_add,
            BitVec.toNat_add, hmhi, hs2, hmll, hs1]
          omega
        rw [e]; rfl

/-- The four radices of literals. -/
def IsRadix (r : U128) : Prop := r = 2 ∨ r = 8 ∨ r = 10 ∨ r = 16

theorem nextDigit_eq (c : Cfg) (b : U8) (r : U128) (hr : IsRadix r) :
    nextDigit c b r = .ok ((toDigit b r.toNat).map (fun d => BitVec.ofNat 8 d)) := by
  have hb := b.isLt
  have e48 : (48 : U8).toNat = 48 := rfl
  have e97 : (97 : U8).toNat = 97 := rfl
  have e65 : (65 : U8).toNat = 65 := rfl
  have e10 : (10 : U8).toNat = 10 := rfl
  have hsub : ∀ k : U8, k.toNat ≤ b.toNat → (b - k).toNat = b.toNat - k.toNat := fun k hk => by
    rw [BitVec.toNat_sub]; have := k.isLt; omega
  have hdig : 48 ≤ b.toNat → b.toNat ≤ 57 → b.toNat - 48 < r.toNat →
      (do return some (← subC c b 48) : Res (Option U8)) = .ok ((toDigit b r.toNat).map (fun d => BitVec.ofNat 8 d)) := by
    intro h1 h2 h3
    rw [subC_ok c (by rw [e48]; exact h1), ok_bind]
    unfold toDigit
    dsimp only
    rw [if_pos ⟨h1, h2⟩]
    dsimp only
    rw [if_pos h3]
    show Except.ok (some _) = Except.ok (some _)
    congr 2
    apply BitVec.eq_of_toNat_eq
    rw [hsub 48 h1, BitVec.toNat_ofNat, e48]; omega
  have hlow : 97 ≤ b.toNat → b.toNat ≤ 102 → r.toNat = 16 →
      (do return some (← addC c (← subC c b 97) 10) : Res (Option U8))
        = .ok ((toDigit b r.toNat).map (fun d => BitVec.ofNat 8 d)) := by
    intro h1 h2 h3
    rw [subC_ok c (by rw [e97]; exact h1), ok_bind,
      addC_ok c (by rw [hsub 97 h1, e97, e10]; omega), ok_bind]
    unfold toDigit
    dsimp only
    rw [if_neg (by omega), if_pos ⟨h1, by omega⟩]
    dsimp only
    rw [if_pos (by omega)]
    show Except.ok (some _) = Except.ok (some _)
    congr 2
    apply BitVec.eq_of_toNat_eq
    rw [BitVec.toNat_add, hsub 97 h1, BitVec.toNat_ofNat, e97, e10]
  have hup : 65 ≤ b.toNat → b.toNat ≤ 70 → r.toNat = 16 →
      (do return some (← addC c (← subC c b 65) 10) : Res (Option U8))
        = .ok ((toDigit b r.toNat).map (fun d => BitVec.ofNat 8 d)) := by
    intro h1 h2 h3
    rw [subC_ok c (by rw [e65]; exact h1), ok_bind,
      addC_ok c (by rw [hsub 65 h1, e65, e10]; omega), ok_bind]
    unfold toDigit
    dsimp only
    rw [if_neg (by omega), if_neg (by omega), if_pos ⟨h1, by omega⟩]
    dsimp only
    rw [if_pos (by omega)]
    show Except.ok (some _) = Except.ok (some _)
    congr 2
    apply BitVec.eq_of_toNat_eq
    rw [BitVec.toNat_add, hsub 65 h1, BitVec.toNat_ofNat, e65, e10]
  have hnone : (48 ≤ b.toNat → b.toNat ≤ 57 → r.toNat ≤ b.toNat - 48) →
      (97 ≤ b.toNat → b.toNat ≤ 122 → r.toNat ≤ b.toNat - 97 + 10) →
      (65 ≤ b.toNat → b.toNat ≤ 90 → r.toNat ≤ b.toNat - 65 + 10) →
      (pure none : Res (Option U8)) = .ok ((toDigit b r.toNat).map (fun d => BitVec.ofNat 8 d)) := by
    intro h1 h2 h3
    have : toDigit b r.toNat = none := by
      unfold toDigit
      dsimp only
      split_ifs with g1 g2 g3 <;> dsimp only
      · rw [if_neg (by have := h1 g1.1 g1.2; omega)]
      · rw [if_neg (by have := h2 g2.1 g2.2; omega)]
      · rw [if_neg (by have := h3 g3.1 g3.2; omega)]
    rw [this]; rfl
  unfold nextDigit
  dsimp only
  rcases hr with rfl | rfl | rfl | rfl
  all_goals
    have e2 : (2 : U128).toNat = 2 := rfl
    have e8 : (8 : U128).toNat = 8 := rfl
    have e10' : (10 : U128).toNat = 10 := rfl
    have e16 : (16 : U128).toNat = 16 := rfl
    simp only [show ((2 : U128) = 8) = False by decide, show ((2 : U128) = 10) = False by decide,
      show ((2 : U128) = 16) = False by decide, show ((8 : U128) = 2) = False by decide,
      show ((8 : U128) = 10) = False by decide, show ((8 : U128) = 16) = False by decide,
      show ((10 : U128) = 2) = False by decide, show ((10 : U128) = 8) = False by decide,
      show ((10 : U128) = 16) = False by decide, show ((16 : U128) = 2) = False by decide,
      show ((16 : U128) = 8) = False by decide, show ((16 : U128) = 10) = False by decide,
      or_true, or_false, and_true, and_false, if_false] 
    split_ifs
    all_goals first
      | exact hdig (by omega) (by omega) (by omega)
      | exact hlow (by omega) (by omega) (by omega)
      | exact hup (by omega) (by omega) (by omega)
      | exact hnone (by omega) (by omega) (by omega)

/-- What the loop computes: `none` is the panic. -/
def cscan (r : Nat) : List U8 → Nat → Option Nat
  | [], v => some v
  | b :: l, v =>
    match toDigit b r with
    | none => none
    | some x => if v * r + x < 2 ^ 256 ∧ NoCarry r v then cscan r l (v * r + x) else none

theorem sep_iff (b : U8) : (b = 95 ∨ isAsciiWhitespace b = true) ↔ IsSeparator b := by
  unfold IsSeparator isAsciiWhitespace
  simp only [Bool.or_eq_true, decide_eq_true_eq, or_assoc]

theorem loop_eq (c : Cfg) (r : U128) (hr : IsRadix r) : ∀ (l : List U8) (v : Nat), v < 2 ^ 256 →
    loop c r l (U256.ofNat c v) = match cscan r.toNat (digitsOf l) v with
      | some w => .ok (U256.ofNat c w)
      | none => .error (.panic .explicit) := by
  have hr16 : r.toNat ≤ 16 := by rcases hr with rfl | rfl | rfl | rfl <;> decide
  have hr2 : 2 ≤ r.toNat := by rcases hr with rfl | rfl | rfl | rfl <;> decide
  intro l
  induction l with
  | nil => intro v _; rfl
  | cons b l ih =>
    intro v hv
    unfold loop
    by_cases hs : IsSeparator b
    · rw [if_pos ((sep_iff b).2 hs), ih v hv]
      have : digitsOf (b :: l) = digitsOf l := by
        unfold digitsOf; rw [List.filter_cons_of_neg (by simpa using hs)]
      rw [this]
    · rw [if_neg (fun h => hs ((sep_iff b).1 h))]
      have : digitsOf (b :: l) = b :: digitsOf l := by
        unfold digitsOf; rw [List.filter_cons_of_pos (by simpa using hs)]
      rw [this, nextDigit_eq c b r hr, ok_bind]
      unfold cscan
      cases hd : toDigit b r.toNat with
      | none => rfl
      | some x =>
        have hx := toDigit_lt hd
        simp only [Option.map_some]
        rw [mul_eq c _ r hr16, U256.toNat_ofNat_of_lt c hv]
        have hx8 : (BitVec.ofNat 8 x).toNat = x := by rw [BitVec.toNat_ofNat]; omega
        by_cases h1 : v * r.toNat < 2 ^ 256 ∧ NoCarry r.toNat v
        · rw [if_pos h1, ok_bind, add_eq, U256.toNat_ofNat_of_lt c h1.1, hx8]
          by_cases h2 : v * r.toNat + x < 2 ^ 256
          · rw [if_pos h2, if_pos ⟨h2, h1.2⟩, ok_bind, ih _ h2]
          · rw [if_neg h2, if_neg (fun h => h2 h.1)]; rfl
        · rw [if_neg h1, if_neg (fun h => h1 ⟨by omega, h.2⟩)]; rfl

theorem cscan_iff {r : Nat} (hr : 0 < r) (hr2 : r ≤ 36) : ∀ (l p : List U8) (v w : Nat), Num0 r p v → v < 2 ^ 256 →
    (cscan r l v = some w ↔ Num0 r (p ++ l) w ∧ w < 2 ^ 256
      ∧ ∀ q u, q <+: l → q ≠ l → Num0 r (p ++ q) u → NoCarry r u) := by
  intro l
  induction l with
  | nil =>
    intro p v w hp hv
    rw [List.append_nil]
    constructor
    · intro h; cases h
      refine ⟨hp, hv, fun q u hq hne _ => ?_⟩
      rw [List.prefix_nil] at hq; exact absurd hq hne
    · intro h; rw [num0_unique hp h.1]; rfl
  | cons b l ih =>
    intro p v w hp hv
    have happ : ∀ q, p ++ b :: q = (p ++ [b]) ++ q := by simp
    unfold cscan
    rcases num0_step (b := b) hp hr2 with ⟨h1, h2⟩ | ⟨x, h1, h2⟩
    · rw [h1]; dsimp only
      constructor
      · intro h; cases h
      · rintro ⟨h, _⟩
        rw [happ] at h
        obtain ⟨u, h3, _⟩ := num0_prefix hr h
        exact absurd h3 (h2 u)
    · rw [h1]; dsimp only
      by_cases hB : v * r + x < 2 ^ 256 ∧ NoCarry r v
      · rw [if_pos hB, ih _ _ w h2 hB.1, happ l]
        refine and_congr Iff.rfl (and_congr Iff.rfl ?_)
        constructor
        · intro h q u hq hne hu
          cases q with
          | nil => rw [List.append_nil] at hu; rw [← num0_unique hp hu]; exact hB.2
          | cons a q =>
            rw [List.cons_prefix_cons] at hq
            obtain ⟨rfl, hq⟩ := hq
            exact h q u hq (fun h => hne (by rw [h])) (by rw [← happ]; exact hu)
        · intro h q u hq hne hu
          exact h (b :: q) u (by rw [List.cons_prefix_cons]; exact ⟨rfl, hq⟩) (by simpa using hne) (by rw [happ]; exact hu)
      · rw [if_neg hB]
        constructor
        · intro h; cases h
        · rintro ⟨h, h4, h5⟩
          exfalso
          apply hB
          rw [happ] at h
          obtain ⟨u, h3, h6⟩ := num0_prefix hr h
          rw [← num0_unique h2 h3] at h6
          exact ⟨by omega, h5 [] v List.nil_prefix (by simp) (by rw [List.append_nil]; exact hp)⟩

theorem noCarry_pow2 {r v : Nat} (hr : r = 2 ∨ r = 8 ∨ r = 16) : NoCarry r v := by
  unfold NoCarry
  rcases hr with rfl | rfl | rfl <;> omega

theorem noCarry_small {v : Nat} (h : v * 10 < 2 ^ 128) : NoCarry 10 v := by
  unfold NoCarry; omega

theorem radixOf_iff {l : List U8} (hl : l ≠ []) (r : Nat) (d : List U8) :
    LiteralForm l r d ↔ r = (radixOf l).1.toNat ∧ d = digitsOf (radixOf l).2 := by
  have two : (2 : U128).toNat = 2 := rfl
  have eight : (8 : U128).toNat = 8 := rfl
  have ten : (10 : U128).toNat = 10 := rfl
  have sixteen : (16 : U128).toNat = 16 := rfl
  have hshort : (∀ a t, t ≠ [] → l = [48, a] ++ t → a ≠ 98 ∧ a ≠ 111 ∧ a ≠ 120) →
      (LiteralForm l r d ↔ r = 10 ∧ d = digitsOf l) := by
    intro h
    unfold LiteralForm
    constructor
    · rintro (⟨t, h1, h2, _⟩ | ⟨t, h1, h2, _⟩ | ⟨t, h1, h2, _⟩ | ⟨_, _, h3, h4⟩)
      · exact absurd rfl (h _ t h1 h2).1
      · exact absurd rfl (h _ t h1 h2).2.1
      · exact absurd rfl (h _ t h1 h2).2.2
      · exact ⟨h3, h4⟩
    · rintro ⟨h3, h4⟩; exact Or.inr (Or.inr (Or.inr ⟨hl, h, h3, h4⟩))
  unfold radixOf
  split
  · rename_i a b e rest
    by_cases ha : a = 48
    · subst ha
      have hex : ∀ {k : U8} {t : List U8}, 48 :: b :: e :: rest = [48, k] ++ t → b = k ∧ t = e :: rest := by
        intro k t h
        have := List.cons.inj (List.cons.inj h).2
        exact ⟨this.1, this.2.symm⟩
      have hform : LiteralForm (48 :: b :: e :: rest) r d ↔
          (b = 98 ∧ r = 2 ∧ d = digitsOf (e :: rest)) ∨ (b = 111 ∧ r = 8 ∧ d = digitsOf (e :: rest))
          ∨ (b = 120 ∧ r = 16 ∧ d = digitsOf (e :: rest))
          ∨ ((b ≠ 98 ∧ b ≠ 111 ∧ b ≠ 120) ∧ r = 10 ∧ d = digitsOf (48 :: b :: e :: rest)) := by
        unfold LiteralForm
        refine or_congr ?_ (or_congr ?_ (or_congr ?_ ?_))
        · constructor
          · rintro ⟨t, _, h2, h3, h4⟩; obtain ⟨h5, rfl⟩ := hex h2; exact ⟨h5, h3, h4⟩
          · rintro ⟨rfl, h3, h4⟩; exact ⟨_, by simp, rfl, h3, h4⟩
        · constructor
          · rintro ⟨t, _, h2, h3, h4⟩; obtain ⟨h5, rfl⟩ := hex h2; exact ⟨h5, h3, h4⟩
          · rintro ⟨rfl, h3, h4⟩; exact ⟨_, by simp, rfl, h3, h4⟩
        · constructor
          · rintro ⟨t, _, h2, h3, h4⟩; obtain ⟨h5, rfl⟩ := hex h2; exact ⟨h5, h3, h4⟩
          · rintro ⟨rfl, h3, h4⟩; exact ⟨_, by simp, rfl, h3, h4⟩
        · constructor
          · rintro ⟨_, h2, h3, h4⟩; exact ⟨h2 b _ (by simp) rfl, h3, h4⟩
          · rintro ⟨h2, h3, h4⟩
            refine ⟨hl, fun k t _ h => ?_, h3, h4⟩
            obtain ⟨rfl, _⟩ := hex h; exact h2
      rw [hform]
      by_cases h98 : b = 98
      · subst h98; rw [if_pos ⟨rfl, rfl⟩]; simp
      · rw [if_neg (fun h => h98 h.2)]
        by_cases h111 : b = 111
        · subst h111; rw [if_pos ⟨rfl, rfl⟩]; simp
        · rw [if_neg (fun h => h111 h.2)]
          by_cases h120 : b = 120
          · subst h120; rw [if_pos ⟨rfl, rfl⟩]; simp
          · rw [if_neg (fun h => h120 h.2)]; 
            rw [ten]
            constructor
            · rintro (⟨h, _⟩ | ⟨h, _⟩ | ⟨h, _⟩ | ⟨_, h⟩)
              · exact absurd h h98
              · exact absurd h h111
              · exact absurd h h120
              · exact h
            · intro h; exact Or.inr (Or.inr (Or.inr ⟨⟨h98, h111, h120⟩, h⟩))
    · rw [if_neg (fun h => ha h.1), if_neg (fun h => ha h.1), if_neg (fun h => ha h.1)]
      rw [hshort (fun k t _ h => absurd (List.cons.inj h).1 ha), ten]
  · rename_i h
    rw [hshort ?_, ten]
    intro k t ht h2
    cases t with
    | nil => exact absurd rfl ht
    | cons x t => exact absurd h2 (h 48 k x t)

theorem radixOf_isRadix (l : List U8) : IsRadix (radixOf l).1 := by
  unfold radixOf IsRadix
  split
  · split_ifs <;> simp
  · simp

theorem from_str_prefixed_iff (c : Cfg) (l : List U8) :
    (∀ x, from_str_prefixed c l = .ok x ↔ Accepts l (x.toNat c))
    ∧ (∀ e, from_str_prefixed c l = .error e → e = .panic .explicit) := by
  unfold from_str_prefixed
  by_cases hl : l = []
  · subst hl
    have e : ([] : List U8).isEmpty = true := rfl
    rw [if_pos e]
    refine ⟨fun x => ⟨fun h => (by cases h), ?_⟩, fun e h => by cases h; rfl⟩
    rintro ⟨r, d, h, _⟩
    unfold LiteralForm at h
    simp at h
  · have e : ¬ l.isEmpty = true := by simpa using hl
    rw [if_neg e]
    have hrad := radixOf_isRadix l
    have hform := radixOf_iff hl
    generalize radixOf l = rd at hrad hform
    obtain ⟨r, ds⟩ := rd
    dsimp only at hrad hform ⊢
    have hr16 : r.toNat ≤ 36 := by rcases hrad with rfl | rfl | rfl | rfl <;> decide
    have hr2 : 0 < r.toNat := by rcases hrad with rfl | rfl | rfl | rfl <;> decide
    have h0 : U256.ZERO = U256.ofNat c 0 := by apply U256.toNat_inj c; rw [U256.toNat_ZERO, U256.toNat_ofNat_of_lt c (by omega)]
    rw [h0, loop_eq c r hrad ds 0 (by omega)]
    have hcs := fun w => cscan_iff hr2 hr16 (digitsOf ds) [] 0 w (num0_nil.2 rfl) (by omega)
    simp only [List.nil_append] at hcs
    constructor
    · intro x
      have hcond : Accepts l (x.toNat c) ↔ cscan r.toNat (digitsOf ds) 0 = some (x.toNat c) := by
        rw [hcs]
        unfold Accepts
        constructor
        · rintro ⟨r', d, h1, h2, h3⟩
          obtain ⟨rfl, rfl⟩ := (hform r' d).1 h1
          refine ⟨h2, U256.toNat_lt c x, fun q u hq hne hu => ?_⟩
          by_cases h10 : r.toNat = 10
          · rw [h10] at hu ⊢
            rcases hu with ⟨_, rfl⟩ | hu
            · exact noCarry_small (by omega)
            · exact h3 h10 q u hq hne hu
          · apply noCarry_pow2
            rcases hrad with rfl | rfl | rfl | rfl
            · exact Or.inl rfl
            · exact Or.inr (Or.inl rfl)
            · exact absurd rfl h10
            · exact Or.inr (Or.inr rfl)
        · rintro ⟨h1, _, h3⟩
          exact ⟨_, _, (hform _ _).2 ⟨rfl, rfl⟩, h1, fun h10 q u hq hne hu => by
            have := h3 q u hq hne (Or.inr (h10 ▸ hu)); rwa [h10] at this⟩
      rw [hcond]
      cases hsc : cscan r.toNat (digitsOf ds) 0 with
      | none =>
        constructor
        · intro h; cases h
        · intro h; cases h
      | some w =>
        have hw := ((hcs w).1 hsc).2.1
        dsimp only
        constructor
        · intro h
          have : U256.ofNat c w = x := by cases h; rfl
          rw [← this, U256.toNat_ofNat_of_lt c hw]
        · intro h
          have : w = x.toNat c := by cases h; rfl
          rw [this, U256.ofNat_toNat]
    · intro e h
      cases hsc : cscan r.toNat (digitsOf ds) 0 with
      | none => rw [hsc] at h; cases h; rfl
      | some w => rw [hsc] at h; cases h

end Const

end Ethnum
