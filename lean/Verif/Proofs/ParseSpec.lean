import Mathlib.Data.List.Induction
import Verif.SpecText
import Verif.Proofs.Parse

namespace Ethnum

theorem toDigit_iff {b : U8} {r d : Nat} (hr : r ≤ 36) : toDigit b r = some d ↔ IsDigit r b d := by
  unfold toDigit IsDigit
  dsimp only
  have hb := b.isLt
  constructor
  · intro h
    split_ifs at h <;> simp only [] at h <;> split_ifs at h <;> simp only [Option.some.injEq] at h <;> omega
  · rintro ⟨h1, h2⟩
    split_ifs <;> try dsimp only
    all_goals try split_ifs
    all_goals first | omega | (simp only [Option.some.injEq]; omega)

/-- A possibly empty string of digits. -/
def Num0 (r : Nat) (l : List U8) (v : Nat) : Prop := (l = [] ∧ v = 0) ∨ Numeral r l v

theorem Numeral.ne_nil {r : Nat} {l : List U8} {v : Nat} (h : Numeral r l v) : l ≠ [] := by
  cases h <;> simp

theorem num0_nil {r v : Nat} : Num0 r [] v ↔ v = 0 := by
  constructor
  · rintro (h | h)
    · exact h.2
    · exact absurd rfl h.ne_nil
  · intro h; exact Or.inl ⟨rfl, h⟩

theorem num0_of_ne {r v : Nat} {l : List U8} (hl : l ≠ []) : Num0 r l v ↔ Numeral r l v :=
  ⟨fun h => h.elim (fun h => absurd h.1 hl) id, Or.inr⟩

theorem num0_snoc {r v : Nat} {l : List U8} {b : U8} :
    Num0 r (l ++ [b]) v ↔ ∃ u d, Num0 r l u ∧ IsDigit r b d ∧ v = u * r + d := by
  constructor
  · intro h
    have h := (num0_of_ne (by simp)).1 h
    generalize hm : l ++ [b] = m at h
    cases h with
    | @one b' d hd =>
      have : l = [] ∧ b = b' := by
        cases l with
        | nil => simpa using hm
        | cons a t => simp at hm
      refine ⟨0, v, Or.inl ⟨this.1, rfl⟩, this.2 ▸ hd, by omega⟩
    | @snoc l' v' b' d hl hd =>
      have := List.append_inj' hm rfl
      obtain ⟨rfl, hb⟩ := this
      cases hb
      exact ⟨v', d, Or.inr hl, hd, rfl⟩
  · rintro ⟨u, d, h, hd, rfl⟩
    rcases h with ⟨rfl, rfl⟩ | h
    · right; rw [List.nil_append]
      have : 0 * r + d = d := by omega
      rw [this]; exact .one hd
    · right; exact .snoc h hd

theorem IsDigit.unique {r d e : Nat} {b : U8} (h : IsDigit r b d) (h' : IsDigit r b e) : d = e := by
  unfold IsDigit at h h'; omega

theorem num0_unique {r : Nat} : ∀ {l : List U8} {v w : Nat}, Num0 r l v → Num0 r l w → v = w := by
  intro l
  induction l using List.reverseRecOn with
  | nil => intro v w h1 h2; rw [num0_nil] at h1 h2; omega
  | append_singleton l b ih =>
    intro v w h1 h2
    rw [num0_snoc] at h1 h2
    obtain ⟨u, d, a1, a2, rfl⟩ := h1
    obtain ⟨u', d', b1, b2, rfl⟩ := h2
    rw [ih a1 b1, a2.unique b2]

theorem num0_prefix {r : Nat} (hr : 0 < r) {p : List U8} : ∀ {q : List U8} {w : Nat}, Num0 r (p ++ q) w →
    ∃ v, Num0 r p v ∧ v ≤ w := by
  intro q
  induction q using List.reverseRecOn with
  | nil => intro w h; rw [List.append_nil] at h; exact ⟨w, h, le_rfl⟩
  | append_singleton q b ih =>
    intro w h
    rw [← List.append_assoc, num0_snoc] at h
    obtain ⟨u, d, h1, h2, rfl⟩ := h
    obtain ⟨v, h3, h4⟩ := ih h1
    exact ⟨v, h3, by have := Nat.le_mul_of_pos_right u hr; omega⟩

theorem num0_step {r : Nat} {p : List U8} {b : U8} {v : Nat} (hp : Num0 r p v) (hr : r ≤ 36) :
    (toDigit b r = none ∧ ∀ w, ¬ Num0 r (p ++ [b]) w)
    ∨ ∃ x, toDigit b r = some x ∧ Num0 r (p ++ [b]) (v * r + x) := by
  cases h : toDigit b r with
  | none =>
    left
    refine ⟨rfl, fun w hw => ?_⟩
    obtain ⟨u, d, _, hd, _⟩ := num0_snoc.1 hw
    rw [← toDigit_iff hr] at hd
    rw [h] at hd; cases hd
  | some x => exact Or.inr ⟨x, rfl, num0_snoc.2 ⟨v, x, hp, (toDigit_iff hr).1 h, rfl⟩⟩

theorem scan_ok {B r : Nat} {err : IntErrorKind} (hr : 0 < r) (hr2 : r ≤ 36) : ∀ (l : List U8) (p : List U8) (v w : Nat),
    Num0 r p v → v ≤ B → (scan B r err l v = .ok w ↔ Num0 r (p ++ l) w ∧ w ≤ B) := by
  intro l
  induction l with
  | nil =>
    intro p v w hp hv
    rw [List.append_nil]
    constructor
    · intro h; cases h; exact ⟨hp, hv⟩
    · intro h; rw [num0_unique hp h.1]; rfl
  | cons b l ih =>
    intro p v w hp hv
    have happ : p ++ b :: l = (p ++ [b]) ++ l := by simp
    unfold scan
    rcases num0_step (b := b) hp hr2 with ⟨h1, h2⟩ | ⟨x, h1, h2⟩
    · rw [h1]; dsimp only
      constructor
      · intro h; cases h
      · rintro ⟨h, _⟩
        rw [happ] at h
        obtain ⟨u, h3, _⟩ := num0_prefix hr h
        exact absurd h3 (h2 u)
    · rw [h1]; dsimp only
      by_cases hB : B < v * r + x
      · rw [if_pos hB]
        constructor
        · intro h; cases h
        · rintro ⟨h, h4⟩
          rw [happ] at h
          obtain ⟨u, h3, h5⟩ := num0_prefix hr h
          rw [num0_unique h2 h3] at hB; omega
      · rw [if_neg hB, ih _ _ w h2 (by omega), happ]

theorem scan_over {B r : Nat} {err : IntErrorKind} (herr : err ≠ .invalidDigit) (hr : 0 < r) (hr2 : r ≤ 36) :
    ∀ (l : List U8) (p : List U8) (v : Nat), Num0 r p v → v ≤ B →
      (scan B r err l v = .error err ↔ ∃ q w, q <+: l ∧ Num0 r (p ++ q) w ∧ B < w) := by
  intro l
  induction l with
  | nil =>
    intro p v hp hv
    constructor
    · intro h; cases h
    · rintro ⟨q, w, hq, hw, hB⟩
      rw [List.prefix_nil] at hq
      subst hq
      rw [List.append_nil] at hw
      rw [num0_unique hp hw] at hv; omega
  | cons b l ih =>
    intro p v hp hv
    unfold scan
    have key : ∀ q w, q <+: b :: l → Num0 r (p ++ q) w → B < w →
        ∃ q', q' <+: l ∧ Num0 r ((p ++ [b]) ++ q') w := by
      intro q w hq hw hB
      cases q with
      | nil => rw [List.append_nil] at hw; rw [num0_unique hp hw] at hv; omega
      | cons a q' =>
        rw [List.cons_prefix_cons] at hq
        obtain ⟨rfl, hq⟩ := hq
        exact ⟨q', hq, by simpa using hw⟩
    rcases num0_step (b := b) hp hr2 with ⟨h1, h2⟩ | ⟨x, h1, h2⟩
    · rw [h1]; dsimp only
      constructor
      · intro h; cases h; exact absurd rfl herr
      · rintro ⟨q, w, hq, hw, hB⟩
        obtain ⟨q', _, h3⟩ := key q w hq hw hB
        obtain ⟨u, h4, _⟩ := num0_prefix hr h3
        exact absurd h4 (h2 u)
    · rw [h1]; dsimp only
      by_cases hB : B < v * r + x
      · rw [if_pos hB]
        refine ⟨fun _ => ⟨[b], _, ?_, h2, hB⟩, fun _ => rfl⟩
        exact ⟨l, rfl⟩
      · rw [if_neg hB, ih _ _ h2 (by omega)]
        constructor
        · rintro ⟨q, w, hq, hw, hB⟩
          refine ⟨b :: q, w, ?_, by simpa using hw, hB⟩
          rw [List.cons_prefix_cons]; exact ⟨rfl, hq⟩
        · rintro ⟨q, w, hq, hw, hB⟩
          obtain ⟨q', h5, h6⟩ := key q w hq hw hB
          exact ⟨q', w, h5, h6, hB⟩

theorem scan_err {B r : Nat} {err e : IntErrorKind} : ∀ (l : List U8) (v : Nat), scan B r err l v = .error e →
    e = err ∨ e = .invalidDigit := by
  intro l
  induction l with
  | nil => intro v h; cases h
  | cons b l ih =>
    intro v h
    unfold scan at h
    split at h
    · cases h; right; rfl
    · split at h
      · cases h; left; rfl
      · exact ih _ h

theorem stripPrefix_iff {pfx l d : List U8} : stripPrefix pfx l = some d ↔ l = pfx ++ d := by
  unfold stripPrefix
  constructor
  · intro h
    split at h
    · rename_i ht; cases h
      conv_lhs => rw [← List.take_append_drop pfx.length l, ht]
    · cases h
  · rintro rfl; simp

theorem parseSpec_empty {T : Type} {lo hi : Nat} {of : Int → T} {pfx : List U8} {r : Nat} {s : List U8} :
    parseSpec lo hi of pfx r s = .error .empty ↔ s = [] := by
  unfold parseSpec
  by_cases hs : s = []
  · rw [if_pos hs]; simp [hs]
  · rw [if_neg hs]
    simp only [hs, iff_false]
    intro h
    split at h
    · cases h
    · split at h
      · cases h
      · cases hsc : scan (if (signSplit (decide (0 < lo)) s).1 then lo else hi) r
          (if (signSplit (decide (0 < lo)) s).1 then .negOverflow else .posOverflow) ‹List U8› 0 with
        | ok w => rw [hsc] at h; cases h
        | error e =>
          rw [hsc] at h
          have he : e = .empty := by cases h; rfl
          rcases scan_err _ _ hsc with h1 | h1
          · rw [he] at h1; split at h1 <;> cases h1
          · rw [he] at h1; cases h1

theorem parseSpec_ok {T : Type} {lo hi : Nat} {of : Int → T} {pfx : List U8} {r : Nat} {s : List U8} {x : T}
    (hr : 0 < r) (hr2 : r ≤ 36) :
    parseSpec lo hi of pfx r s = .ok x ↔ ∃ neg t w, s ≠ [] ∧ signSplit (decide (0 < lo)) s = (neg, pfx ++ t)
      ∧ Numeral r t w ∧ w ≤ (if neg then lo else hi) ∧ x = of (sgn neg w) := by
  unfold parseSpec
  by_cases hs : s = []
  · rw [if_pos hs]
    constructor
    · intro h; cases h
    · rintro ⟨_, _, _, h, _⟩; exact absurd hs h
  · rw [if_neg hs]
    obtain ⟨neg, l⟩ := signSplit (decide (0 < lo)) s
    dsimp only
    cases hst : stripPrefix pfx l with
    | none =>
      dsimp only
      constructor
      · intro h; cases h
      · rintro ⟨neg', t, w, _, h, _⟩
        simp only [Prod.mk.injEq] at h
        rw [stripPrefix_iff.2 h.2] at hst; cases hst
    | some d =>
      rw [stripPrefix_iff] at hst
      dsimp only
      by_cases hd : d = []
      · rw [if_pos hd]
        constructor
        · intro h; cases h
        · rintro ⟨neg', t, w, _, h, hn, _⟩
          simp only [Prod.mk.injEq] at h
          rw [hst] at h
          have := List.append_cancel_left h.2
          rw [← this] at hn; exact absurd hd hn.ne_nil
      · rw [if_neg hd]
        constructor
        · intro h
          cases hsc : scan (if neg then lo else hi) r (if neg then .negOverflow else .posOverflow) d 0 with
          | error e => rw [hsc] at h; cases h
          | ok w =>
            rw [hsc] at h
            have := (scan_ok hr hr2 d [] 0 w (num0_nil.2 rfl) (Nat.zero_le _)).1 hsc
            rw [List.nil_append, num0_of_ne hd] at this
            refine ⟨neg, d, w, hs, by rw [hst], this.1, this.2, ?_⟩
            cases h; rfl
        · rintro ⟨neg', t, w, _, h, hn, hw, rfl⟩
          simp only [Prod.mk.injEq] at h
          obtain ⟨rfl, h⟩ := h
          rw [hst] at h
          have := List.append_cancel_left h
          subst this
          rw [(scan_ok hr hr2 d [] 0 w (num0_nil.2 rfl) (Nat.zero_le _)).2 ⟨by rw [List.nil_append]; exact Or.inr hn, hw⟩]
          rfl

theorem parseSpec_over {T : Type} {lo hi : Nat} {of : Int → T} {pfx : List U8} {r : Nat} {s : List U8} {e : IntErrorKind}
    (he : e = .posOverflow ∨ e = .negOverflow) (hr : 0 < r) (hr2 : r ≤ 36) :
    parseSpec lo hi of pfx r s = .error e ↔ ∃ neg t p w, s ≠ [] ∧ signSplit (decide (0 < lo)) s = (neg, pfx ++ t)
      ∧ p <+: t ∧ Numeral r p w ∧ (if neg then lo else hi) < w ∧ e = (if neg then .negOverflow else .posOverflow) := by
  unfold parseSpec
  by_cases hs : s = []
  · rw [if_pos hs]
    constructor
    · intro h; cases h; rcases he with h | h <;> cases h
    · rintro ⟨_, _, _, _, h, _⟩; exact absurd hs h
  · rw [if_neg hs]
    obtain ⟨neg, l⟩ := signSplit (decide (0 < lo)) s
    dsimp only
    have hinv : (Except.error .invalidDigit : ParseResult T) = .error e → False := by
      intro h; cases h; rcases he with h | h <;> cases h
    cases hst : stripPrefix pfx l with
    | none =>
      dsimp only
      constructor
      · intro h; exact (hinv h).elim
      · rintro ⟨neg', t, p, w, _, h, _⟩
        simp only [Prod.mk.injEq] at h
        rw [stripPrefix_iff.2 h.2] at hst; cases hst
    | some d =>
      rw [stripPrefix_iff] at hst
      dsimp only
      by_cases hd : d = []
      · rw [if_pos hd]
        constructor
        · intro h; exact (hinv h).elim
        · rintro ⟨neg', t, p, w, _, h, hp, hn, _⟩
          simp only [Prod.mk.injEq] at h
          rw [hst] at h
          have := List.append_cancel_left h.2
          rw [← this, hd, List.prefix_nil] at hp; exact absurd hp hn.ne_nil
      · rw [if_neg hd]
        have herr : (if neg then IntErrorKind.negOverflow else .posOverflow) ≠ .invalidDigit := by cases neg <;> simp
        have hov := scan_over (B := if neg then lo else hi) herr hr hr2 d [] 0 (num0_nil.2 rfl) (Nat.zero_le _)
        constructor
        · intro h
          cases hsc : scan (if neg then lo else hi) r (if neg then .negOverflow else .posOverflow) d 0 with
          | ok w => rw [hsc] at h; cases h
          | error e' =>
            rw [hsc] at h
            have hee : e' = e := by cases h; rfl
            subst hee
            rcases scan_err _ _ hsc with h1 | h1
            · rw [h1] at hsc
              obtain ⟨q, w, hq, hw, hB⟩ := hov.1 hsc
              rw [List.nil_append] at hw
              refine ⟨neg, d, q, w, hs, by rw [hst], hq, ?_, hB, h1⟩
              rcases hw with ⟨_, rfl⟩ | hw
              · omega
              · exact hw
            · subst h1; rcases he with h | h <;> cases h
        · rintro ⟨neg', t, p, w, _, h, hp, hn, hw, rfl⟩
          simp only [Prod.mk.injEq] at h
          obtain ⟨rfl, h⟩ := h
          rw [hst] at h
          have := List.append_cancel_left h
          subst this
          rw [hov.2 ⟨p, w, hp, by rw [List.nil_append]; exact Or.inr hn, hw⟩]
          rfl

end Ethnum
