import Verif.Proofs.Iter

/-
C61: `sum()` and `product()` over any iterator.
-/

namespace Ethnum
open Iter

/-- C61, `U256`: over every iterator, of values or of references. -/
theorem C61_u256 {σ : Type} (c : Cfg) (next : Next σ U256) :
    Accumulates next c.debugAssertions (fun l => (l.map (U256.toNat c)).sum) (· < 2 ^ 256) (U256.ofNat c) (U256.sumIter c next)
    ∧ Accumulates next c.debugAssertions (fun l => (l.map (U256.toNat c)).sum) (· < 2 ^ 256) (U256.ofNat c)
        (U256.sumRefIter c next)
    ∧ Accumulates next c.debugAssertions (fun l => (l.map (U256.toNat c)).prod) (· < 2 ^ 256) (U256.ofNat c)
        (U256.productIter c next)
    ∧ Accumulates next c.debugAssertions (fun l => (l.map (U256.toNat c)).prod) (· < 2 ^ 256) (U256.ofNat c)
        (U256.productRefIter c next) := by
  have s : Step c.debugAssertions (fun l => (l.map (U256.toNat c)).sum) (· < 2 ^ 256) (U256.ofNat c) (U256.toNat c) (· + ·)
      (U256.add c) .addOverflow :=
    ⟨fun a b => by rw [U256.add_eq]; simp only [not_lt], fun z hz => U256.toNat_ofNat_of_lt c hz,
      fun z y => U256.ofNat_congr c (by rw [U256.toNat_ofNat]; omega), fun l x => by simp⟩
  have m : Step c.debugAssertions (fun l => (l.map (U256.toNat c)).prod) (· < 2 ^ 256) (U256.ofNat c) (U256.toNat c) (· * ·)
      (U256.mul c) .mulOverflow :=
    ⟨fun a b => by rw [U256.mul_eq]; simp only [not_lt], fun z hz => U256.toNat_ofNat_of_lt c hz,
      fun z y => U256.ofNat_congr c (by rw [U256.toNat_ofNat, Nat.mod_mul_mod]), fun l x => by simp⟩
  have s' := s.accumulates (next := next) (by rw [List.map_nil]; decide)
  have m' := m.accumulates (next := next) (by rw [List.map_nil]; decide)
  simp only [List.map_nil, List.sum_nil, List.prod_nil] at s' m'
  rw [← U256.ZERO_eq c] at s'
  rw [← U256.ONE_eq c] at m'
  exact ⟨s', s', m', m'⟩

/-- C61, `I256`. -/
theorem C61_i256 {σ : Type} (c : Cfg) (next : Next σ I256) :
    Accumulates next c.debugAssertions (fun l => (l.map (I256.toInt c)).sum) InI256 (I256.ofInt c) (I256.sumIter c next)
    ∧ Accumulates next c.debugAssertions (fun l => (l.map (I256.toInt c)).sum) InI256 (I256.ofInt c)
        (I256.sumRefIter c next)
    ∧ Accumulates next c.debugAssertions (fun l => (l.map (I256.toInt c)).prod) InI256 (I256.ofInt c)
        (I256.productIter c next)
    ∧ Accumulates next c.debugAssertions (fun l => (l.map (I256.toInt c)).prod) InI256 (I256.ofInt c)
        (I256.productRefIter c next) := by
  have s : Step c.debugAssertions (fun l => (l.map (I256.toInt c)).sum) InI256 (I256.ofInt c) (I256.toInt c) (· + ·)
      (I256.add c) .addOverflow :=
    ⟨fun a b => I256.add_eq c a b, fun z hz => I256.toInt_ofInt_of_in c hz,
      fun z y => I256.ofInt_congr c (by
        have := I256.toInt_ofInt_emod c z
        rw [Int.add_emod, this, ← Int.add_emod]), fun l x => by simp⟩
  have m : Step c.debugAssertions (fun l => (l.map (I256.toInt c)).prod) InI256 (I256.ofInt c) (I256.toInt c) (· * ·)
      (I256.mul c) .mulOverflow :=
    ⟨fun a b => I256.mul_eq c a b, fun z hz => I256.toInt_ofInt_of_in c hz,
      fun z y => I256.ofInt_congr c (by
        have := I256.toInt_ofInt_emod c z
        rw [Int.mul_emod, this, ← Int.mul_emod]), fun l x => by simp⟩
  have s' := s.accumulates (next := next) (by rw [List.map_nil]; decide)
  have m' := m.accumulates (next := next) (by rw [List.map_nil]; decide)
  simp only [List.map_nil, List.sum_nil, List.prod_nil] at s' m'
  rw [← I256.ZERO_eq c] at s'
  rw [← I256.ONE_eq c] at m'
  exact ⟨s', s', m', m'⟩

/-- The powers of two from `2^n` on, without end. -/
def powersFrom (c : Cfg) : Next Nat U256 := fun n => (.ok (some (U256.ofNat c (2 ^ n))), n + 1)
/-- Three, two, one, and a panic in the iterator. -/
def countdown (c : Cfg) : Next Nat I256 := fun n =>
  if n = 0 then (.error (.panic .explicit), 100) else (.ok (some (I256.ofInt c (-n))), n - 1)

/-- An endless product panics at its first overflow, with the iterator just after the item that caused it: `1 · 2 · 4 ⋯`
leaves the range with the item `2^23`. -/
example : U256.productIter dbg (powersFrom dbg) 1000 0 = (.error (.panic .mulOverflow), 24) := by decide +kernel
example : Yields (powersFrom dbg) 0 [U256.ofNat dbg 1, U256.ofNat dbg 2, U256.ofNat dbg 4] 3 :=
  .cons rfl (.cons rfl (.cons rfl (.nil _)))
example : I256.sumRefIter rel (countdown rel) 10 3 = (.error (.panic .explicit), 100)
    ∧ Yields (countdown rel) 3 [I256.ofInt rel (-3), I256.ofInt rel (-2), I256.ofInt rel (-1)] 0 :=
  ⟨by decide +kernel, .cons rfl (.cons rfl (.cons rfl (.nil _)))⟩

/-- Without checks an endless sum has no result. -/
example : RunsForever (U256.sumIter rel (powersFrom rel)) 0 :=
  (C61_u256 rel _).1.endless (fun _ _ _ => ⟨_, _, rfl⟩) (fun h => absurd h (by decide))

/-- C61: over a list, of values or of references, the results are those of C27. -/
theorem C61_list (c : Cfg) (l : List U256) (m : List I256) :
    let ofList {α : Type} : Next (List α) α := fun l => match l with
      | [] => (.ok none, [])
      | x :: l => (.ok (some x), l)
    (∃ s n₀, ∀ n ≥ n₀, U256.sumIter c ofList n l = (U256.sum c l, s) ∧ U256.sumRefIter c ofList n l = (U256.sum c l, s))
    ∧ (∃ s n₀, ∀ n ≥ n₀, U256.productIter c ofList n l = (U256.product c l, s)
        ∧ U256.productRefIter c ofList n l = (U256.product c l, s))
    ∧ (∃ s n₀, ∀ n ≥ n₀, I256.sumIter c ofList n m = (I256.sum c m, s) ∧ I256.sumRefIter c ofList n m = (I256.sum c m, s))
    ∧ (∃ s n₀, ∀ n ≥ n₀, I256.productIter c ofList n m = (I256.product c m, s)
        ∧ I256.productRefIter c ofList n m = (I256.product c m, s)) := by
  intro ofList
  have key : ∀ {α : Type} (op : α → α → Res α) (l : List α) (acc : α),
      ∃ s n₀, ∀ n ≥ n₀, fold ofList op n acc l = (l.foldlM op acc, s) := by
    intro α op l
    induction l with
    | nil => intro acc; exact ⟨[], 1, fun n hn => by obtain ⟨m, rfl⟩ : ∃ m, n = m + 1 := ⟨n - 1, by omega⟩; rfl⟩
    | cons x l ih =>
      intro acc
      rcases hx : op acc x with e | a
      · refine ⟨l, 1, fun n hn => ?_⟩
        obtain ⟨m, rfl⟩ : ∃ m, n = m + 1 := ⟨n - 1, by omega⟩
        rw [fold, List.foldlM_cons, hx]
        dsimp only [ofList]
        rw [hx]; rfl
      · obtain ⟨s, n₀, h⟩ := ih a
        refine ⟨s, n₀ + 1, fun n hn => ?_⟩
        obtain ⟨m, rfl⟩ : ∃ m, n = m + 1 := ⟨n - 1, by omega⟩
        rw [fold, List.foldlM_cons, hx]
        dsimp only [ofList]
        rw [hx]
        exact h m (by omega)
  obtain ⟨s1, n1, h1⟩ := key (U256.add c) l U256.ZERO
  obtain ⟨s2, n2, h2⟩ := key (U256.mul c) l (U256.ONE c)
  obtain ⟨s3, n3, h3⟩ := key (I256.add c) m I256.ZERO
  obtain ⟨s4, n4, h4⟩ := key (I256.mul c) m (I256.ONE c)
  exact ⟨⟨s1, n1, fun n hn => ⟨h1 n hn, h1 n hn⟩⟩, ⟨s2, n2, fun n hn => ⟨h2 n hn, h2 n hn⟩⟩,
    ⟨s3, n3, fun n hn => ⟨h3 n hn, h3 n hn⟩⟩, ⟨s4, n4, fun n hn => ⟨h4 n hn, h4 n hn⟩⟩⟩

end Ethnum
