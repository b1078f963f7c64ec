import Verif.SpecIter
import Verif.Props.Operators

/-
Lemmas for C61: folding a checked operation over an iterator.
-/

namespace Ethnum
namespace Iter

variable {σ α β : Type} {next : Next σ α}

theorem Yields.snoc {s s' s'' : σ} {l : List α} {x : α} (h : Yields next s l s') (hx : next s' = (.ok (some x), s'')) :
    Yields next s (l ++ [x]) s'' := by
  induction h with
  | nil s => exact .cons hx (.nil _)
  | cons h t ih => exact .cons h (ih hx)

theorem Yields.snoc_inv {l : List α} {x : α} : ∀ {s s'' : σ}, Yields next s (l ++ [x]) s'' →
    ∃ s', Yields next s l s' ∧ next s' = (.ok (some x), s'') := by
  induction l with
  | nil =>
    intro s s'' h
    cases h with
    | cons h t => cases t; exact ⟨_, .nil _, h⟩
  | cons y l ih =>
    intro s s'' h
    cases h with
    | cons h t =>
      obtain ⟨s', a, b⟩ := ih t
      exact ⟨s', .cons h a, b⟩

section
variable {checks : Bool} {total : List α → β} {In : β → Prop} [DecidablePred In] {mk : β → α} {val : α → β} {f : β → β → β}
  {op : α → α → Res α} {p : Panic}

/-- What one step needs to satisfy. -/
structure Step (checks : Bool) (total : List α → β) (In : β → Prop) [DecidablePred In] (mk : β → α) (val : α → β)
    (f : β → β → β) (op : α → α → Res α) (p : Panic) : Prop where
  op_eq : ∀ a b, op a b = if checks = true ∧ ¬ In (f (val a) (val b)) then .error (.panic p) else .ok (mk (f (val a) (val b)))
  exact : ∀ z, In z → val (mk z) = z
  wrap : ∀ z y, mk (f (val (mk z)) y) = mk (f z y)
  snoc : ∀ l x, total (l ++ [x]) = f (total l) (val x)

theorem Step.next_ok (h : Step checks total In mk val f op p) (l : List α) (x : α) (h0 : checks = true → In (total l))
    (h1 : checks = true → In (total (l ++ [x]))) : op (mk (total l)) x = .ok (mk (total (l ++ [x]))) := by
  rw [h.op_eq, h.snoc, if_neg, h.wrap]
  rintro ⟨hc, hn⟩
  rw [h.exact _ (h0 hc)] at hn
  rw [h.snoc] at h1
  exact hn (h1 hc)

theorem Step.next_panic (h : Step checks total In mk val f op p) (l : List α) (x : α) (hc : checks = true)
    (h0 : In (total l)) (h1 : ¬ In (total (l ++ [x]))) : op (mk (total l)) x = .error (.panic p) := by
  rw [h.op_eq, if_pos]
  rw [h.exact _ h0, ← h.snoc]
  exact ⟨hc, h1⟩

/-- The fold after the items `l`, from what the accumulator holds after the items `m`. -/
theorem Step.run (h : Step checks total In mk val f op p) {s s' : σ} {l : List α} (hy : Yields next s l s') :
    ∀ (m : List α) (n : Nat), (checks = true → ∀ k, In (total (m ++ l.take k))) →
      fold next op (l.length + n) (mk (total m)) s = fold next op n (mk (total (m ++ l))) s' := by
  induction hy with
  | nil s => intro m n _; simp
  | @cons s s₁ s₂ x l hn t ih =>
    intro m n hin
    have e : (x :: l).length + n = (l.length + n) + 1 := by simp; omega
    have hx := h.next_ok m x (fun hc => by simpa using hin hc 0) (fun hc => by simpa using hin hc 1)
    rw [e, fold, hn]
    dsimp only
    rw [hx]
    dsimp only
    rw [ih (m ++ [x]) n (fun hc k => by simpa using hin hc (k + 1))]
    simp

theorem Step.accumulates (h : Step checks total In mk val f op p) (h0 : In (total [])) :
    Accumulates next checks total In mk (fun n => fold next op n (mk (total []))) where
  result := by
    intro s l s' s'' hy hn hin
    refine ⟨l.length + 1, fun n hn' => ?_⟩
    obtain ⟨m, rfl⟩ : ∃ m, n = l.length + (m + 1) := ⟨n - l.length - 1, by omega⟩
    dsimp only
    rw [h.run hy [] (m + 1) (by simpa using hin), fold, hn]
    simp
  iterPanic := by
    intro s l s' s'' e hy hn hin
    refine ⟨l.length + 1, fun n hn' => ?_⟩
    obtain ⟨m, rfl⟩ : ∃ m, n = l.length + (m + 1) := ⟨n - l.length - 1, by omega⟩
    dsimp only
    rw [h.run hy [] (m + 1) (by simpa using hin), fold, hn]
  overflow := by
    intro s l x s' hy hc hin hout
    obtain ⟨s₁, hy, hn⟩ := hy.snoc_inv
    refine ⟨p, l.length + 1, fun n hn' => ?_⟩
    obtain ⟨m, rfl⟩ : ∃ m, n = l.length + (m + 1) := ⟨n - l.length - 1, by omega⟩
    dsimp only
    rw [h.run hy [] (m + 1) (by simpa using fun _ => hin), fold, hn, List.nil_append]
    dsimp only
    rw [h.next_panic l x hc (by simpa using hin l.length) hout]
  endless := by
    intro s hs hin n
    suffices H : ∀ n l s', Yields next s l s' → (fold next op n (mk (total l)) s').1 = .error .diverge from
      H n [] s (.nil s)
    intro n
    induction n with
    | zero => intro l s' _; rfl
    | succ n ih =>
      intro l s' hy
      obtain ⟨x, s'', hx⟩ := hs l s' hy
      have hy' := hy.snoc hx
      rw [fold, hx]
      dsimp only
      rw [h.next_ok l x (fun hc => hin hc l s' hy) (fun hc => hin hc _ _ hy')]
      exact ih _ _ hy'

end

end Iter
end Ethnum
