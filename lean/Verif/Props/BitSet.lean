import Verif.SpecSet
import Verif.SpecWork
import Verif.Props.Repr
import Verif.Props.Bits
import Verif.Props.Operators
import Mathlib.Data.Finset.Card

/-
C77 bit maps: a `U256` as a set of numbers below 256.
-/

namespace Ethnum
open BitSet

/-! ### Lemmas -/

private theorem mem_elems {n i : ℕ} : i ∈ elems n ↔ i < 256 ∧ n.testBit i = true := by
  unfold elems
  rw [Finset.mem_filter, Finset.mem_range, Nat.testBit_eq_decide_div_mod_eq, decide_eq_true_iff]

private theorem elems_inj {m n : ℕ} (hm : m < 2 ^ 256) (hn : n < 2 ^ 256) (h : elems m = elems n) : m = n := by
  apply Nat.eq_of_testBit_eq
  intro i
  by_cases hi : i < 256
  · have := congrArg (i ∈ ·) h
    simp only [mem_elems, hi, true_and, eq_iff_iff] at this
    exact Bool.eq_iff_iff.2 this
  · have e : (2 : ℕ) ^ 256 ≤ 2 ^ i := Nat.pow_le_pow_right (by decide) (by omega)
    rw [Nat.testBit_lt_two_pow (lt_of_lt_of_le hm e), Nat.testBit_lt_two_pow (lt_of_lt_of_le hn e)]

private theorem mask (c : Cfg) {i : U32} (hi : i.toNat < 256) :
    ∃ m, (U256.ONE c).shlBy c (.prim .u32 i) = .ok m ∧ m.toNat c = 2 ^ i.toNat := by
  have hv : (ShiftBy.prim (c := c) .u32 i).value = (i.toNat : ℤ) := rfl
  refine ⟨_, (C12_in_range c (U256.ONE c) (I256.ONE c) (.prim .u32 i) (by rw [hv]; omega) (by rw [hv]; omega)).1, ?_⟩
  rw [hv, U256.toNat_ONE, one_mul, Int.toNat_natCast]
  exact U256.toNat_ofNat_of_lt c (Nat.pow_lt_pow_right (by decide) hi)

private theorem elems_pow {i : ℕ} (hi : i < 256) : elems (2 ^ i) = {i} := by
  ext j
  rw [mem_elems, Finset.mem_singleton, Nat.testBit_two_pow, decide_eq_true_iff]
  omega

private theorem elems_or (m n : ℕ) : elems (m ||| n) = elems m ∪ elems n := by
  ext i; simp only [mem_elems, Finset.mem_union, Nat.testBit_or, Bool.or_eq_true]; tauto
private theorem elems_and (m n : ℕ) : elems (m &&& n) = elems m ∩ elems n := by
  ext i; simp only [mem_elems, Finset.mem_inter, Nat.testBit_and, Bool.and_eq_true]; tauto
private theorem elems_xor (m n : ℕ) : elems (m ^^^ n) = symmDiff (elems m) (elems n) := by
  ext i
  simp only [mem_elems, Finset.mem_symmDiff, Nat.testBit_xor]
  cases m.testBit i <;> cases n.testBit i <;> simp
private theorem elems_not {c : Cfg} (a : U256) : elems (a.not.toNat c) = Finset.range 256 \ elems (a.toNat c) := by
  ext i
  rw [mem_elems, Finset.mem_sdiff, Finset.mem_range, mem_elems]
  constructor
  · rintro ⟨h1, h2⟩
    rw [(C21_testBit c a a i h1).2.2.2] at h2
    exact ⟨h1, fun h => by rw [h.2] at h2; cases h2⟩
  · rintro ⟨h1, h2⟩
    refine ⟨h1, ?_⟩
    rw [(C21_testBit c a a i h1).2.2.2]
    cases h : (a.toNat c).testBit i
    · rfl
    · exact absurd ⟨h1, h⟩ h2
private theorem elems_lt {n i : ℕ} (h : i ∈ elems n) : i < 256 := (mem_elems.1 h).1
private theorem inter_not {c : Cfg} (A : ℕ) (b : U256) : elems A ∩ elems (b.not.toNat c) = elems A \ elems (b.toNat c) := by
  rw [elems_not]; ext i
  simp only [Finset.mem_inter, Finset.mem_sdiff, Finset.mem_range]
  exact ⟨fun h => ⟨h.1, h.2.2⟩, fun h => ⟨h.1, elems_lt h.1, h.2⟩⟩

/-- clearing the lowest digit 1 -/
private theorem clear_lowest {n r : ℕ} (h0 : ∀ j < r, n.testBit j = false) (h1 : n.testBit r = true) (j : ℕ) :
    (n &&& (n - 1)).testBit j = (n.testBit j && decide (j ≠ r)) := by
  have hlow : n % 2 ^ r = 0 := by
    apply Nat.eq_of_testBit_eq
    intro i
    rw [Nat.testBit_mod_two_pow, Nat.zero_testBit]
    by_cases hi : i < r
    · rw [h0 i hi, Bool.and_false]
    · rw [decide_eq_false hi, Bool.false_and]
  have hodd : n / 2 ^ r % 2 = 1 := by
    rw [Nat.testBit_eq_decide_div_mod_eq] at h1; exact of_decide_eq_true h1
  have e : n = 2 ^ (r + 1) * (n / 2 ^ r / 2) + 2 ^ r := by
    have a1 := Nat.div_add_mod n (2 ^ r)
    have a2 := Nat.div_add_mod (n / 2 ^ r) 2
    rw [hlow, hodd] at *
    calc n = 2 ^ r * (n / 2 ^ r) := by omega
      _ = 2 ^ r * (2 * (n / 2 ^ r / 2) + 1) := by rw [a2]
      _ = _ := by rw [pow_succ]; ring
  generalize n / 2 ^ r / 2 = m at e
  have hp : 0 < 2 ^ r := Nat.pos_of_ne_zero (by positivity)
  have hlt : 2 ^ r < 2 ^ (r + 1) := Nat.pow_lt_pow_right (by decide) (by omega)
  have e' : n - 1 = 2 ^ (r + 1) * m + (2 ^ r - 1) := by omega
  rw [Nat.testBit_and, e', e, Nat.testBit_two_pow_mul_add _ hlt, Nat.testBit_two_pow_mul_add _ (by omega)]
  by_cases hj : j < r + 1
  · rw [if_pos hj, if_pos hj, Nat.testBit_two_pow, Nat.testBit_two_pow_sub_one]
    by_cases h : r = j
    · subst h; simp
    · simp [h]
  · rw [if_neg hj, if_neg hj, Bool.and_self, decide_eq_true (by omega), Bool.and_true]

private theorem filter_lowest (p : ℕ → Bool) (N r : ℕ) (hr : r < N) (h0 : ∀ j < r, p j = false) (h1 : p r = true) :
    (List.range N).filter p = r :: (List.range N).filter (fun j => p j && decide (j ≠ r)) := by
  obtain ⟨k, rfl⟩ : ∃ k, N = r + (k + 1) := ⟨N - r - 1, by omega⟩
  rw [List.range_add, List.filter_append, List.filter_append]
  have e1 : (List.range r).filter p = [] := by
    rw [List.filter_eq_nil_iff]; intro j hj; rw [h0 j (List.mem_range.1 hj)]; decide
  have e2 : (List.range r).filter (fun j => p j && decide (j ≠ r)) = [] := by
    rw [List.filter_eq_nil_iff]; intro j hj; rw [h0 j (List.mem_range.1 hj), Bool.false_and]; decide
  rw [e1, e2, List.nil_append, List.nil_append, List.range_succ_eq_map, List.map_cons, List.filter_cons_of_pos (by simpa using h1),
    List.filter_cons_of_neg (by simp)]
  congr 1
  apply List.filter_congr
  intro x hx
  simp only [List.map_map, List.mem_map, Function.comp] at hx
  obtain ⟨y, -, rfl⟩ := hx
  simp

private theorem card_elems (n : ℕ) : (elems n).card = ((List.range 256).filter fun i => n.testBit i).length := by
  have : elems n = ((List.range 256).filter fun i => n.testBit i).toFinset := by
    ext i; rw [mem_elems, List.mem_toFinset, List.mem_filter, List.mem_range]
  rw [this, List.toFinset_card_of_nodup (List.nodup_range.filter _)]

/-! ### The property -/

/-- C77 (one to one): different bit maps are different sets, and every set of numbers below 256 is the set of a bit map. -/
theorem C77_bijection (c : Cfg) :
    (∀ a b : U256, elems (a.toNat c) = elems (b.toNat c) → a = b)
    ∧ ∀ A : Finset ℕ, A ⊆ Finset.range 256 → ∃ a : U256, elems (a.toNat c) = A := by
  refine ⟨fun a b h => ?_, fun A hA => ?_⟩
  · have := elems_inj (a.toNat_lt c) (b.toNat_lt c) h
    rw [← U256.ofNat_toNat c a, this, U256.ofNat_toNat]
  · suffices ∃ n, n < 2 ^ 256 ∧ elems n = A by
      obtain ⟨n, hn, h⟩ := this
      exact ⟨U256.ofNat c n, by rw [U256.toNat_ofNat_of_lt c hn, h]⟩
    induction A using Finset.induction_on with
    | empty => exact ⟨0, by decide, by ext i; rw [mem_elems]; simp⟩
    | insert i A _ ih =>
      obtain ⟨n, hn, h⟩ := ih (fun x hx => hA (Finset.mem_insert_of_mem hx))
      have hi := Finset.mem_range.1 (hA (Finset.mem_insert_self i A))
      refine ⟨n ||| 2 ^ i, Nat.or_lt_two_pow hn (Nat.pow_lt_pow_right (by decide) hi), ?_⟩
      rw [elems_or, elems_pow hi, h, Finset.union_comm, ← Finset.insert_eq]

example : elems ((U256.ofNat dbg (2 ^ 200 + 5)).toNat dbg) = {0, 2, 200} := by decide +kernel

/-- C77 (operators): `|`, `&`, `^` and `!` are union, intersection, symmetric difference and complement; `a & !b` is the
difference; the comparisons `==`, `a & b == a` and `a & b == 0` decide equality, inclusion and disjointness. -/
theorem C77_operators (c : Cfg) (a b : U256) :
    elems ((a.bitor b).toNat c) = elems (a.toNat c) ∪ elems (b.toNat c)
    ∧ elems ((a.bitand b).toNat c) = elems (a.toNat c) ∩ elems (b.toNat c)
    ∧ elems ((a.bitxor b).toNat c) = symmDiff (elems (a.toNat c)) (elems (b.toNat c))
    ∧ elems (a.not.toNat c) = Finset.range 256 \ elems (a.toNat c)
    ∧ elems ((a.bitand b.not).toNat c) = elems (a.toNat c) \ elems (b.toNat c)
    ∧ (a.eq c b = true ↔ elems (a.toNat c) = elems (b.toNat c))
    ∧ (BitSet.subset c a b = true ↔ elems (a.toNat c) ⊆ elems (b.toNat c))
    ∧ (BitSet.disjoint c a b = true ↔ Disjoint (elems (a.toNat c)) (elems (b.toNat c))) := by
  have hand : elems ((a.bitand b).toNat c) = elems (a.toNat c) ∩ elems (b.toNat c) := by rw [U256.toNat_bitand, elems_and]
  have heq : ∀ x y : U256, x.eq c y = true ↔ elems (x.toNat c) = elems (y.toNat c) := fun x y => by
    rw [U256.eq_eq, decide_eq_true_iff]
    exact ⟨fun h => by rw [h], elems_inj (x.toNat_lt c) (y.toNat_lt c)⟩
  refine ⟨by rw [U256.toNat_bitor, elems_or], hand, by rw [U256.toNat_bitxor, elems_xor], elems_not a,
    by rw [U256.toNat_bitand, elems_and, inter_not], heq a b, ?_, ?_⟩
  · unfold BitSet.subset
    rw [heq, hand, Finset.inter_eq_left]
  · unfold BitSet.disjoint
    rw [U256.eq_prim_eq, decide_eq_true_iff, Finset.disjoint_iff_inter_eq_empty, ← hand]
    constructor
    · intro h
      rw [h]; ext i; rw [mem_elems]; simp
    · intro h
      have h0 : elems 0 = ∅ := by ext i; rw [mem_elems]; simp
      exact elems_inj ((a.bitand b).toNat_lt c) (by decide) (by rw [h]; exact h0.symm)

example : BitSet.subset dbg (U256.ofNat dbg 5) (U256.ofNat dbg (2 ^ 200 + 7)) = true
    ∧ BitSet.subset dbg (U256.ofNat dbg (2 ^ 200 + 7)) (U256.ofNat dbg 5) = false
    ∧ BitSet.disjoint rel (U256.ofNat rel (2 ^ 128)) (U256.ofNat rel 1) = true := by decide +kernel

/-- C77 (one number): for every number below 256, in every build, inserting, removing and toggling it do so, and `(s >> i) & 1 == 1`
tells whether it is there; none of them panics. -/
theorem C77_single (c : Cfg) (s : U256) (i : U32) (hi : i.toNat < 256) :
    (∃ t, BitSet.insert c s i = .ok t ∧ elems (t.toNat c) = elems (s.toNat c) ∪ {i.toNat})
    ∧ (∃ t, BitSet.remove c s i = .ok t ∧ elems (t.toNat c) = elems (s.toNat c) \ {i.toNat})
    ∧ (∃ t, BitSet.toggle c s i = .ok t ∧ elems (t.toNat c) = symmDiff (elems (s.toNat c)) {i.toNat})
    ∧ BitSet.contains c s i = .ok (decide (i.toNat ∈ elems (s.toNat c))) := by
  obtain ⟨m, em, hm⟩ := mask c hi
  refine ⟨⟨s.bitor m, ?_, ?_⟩, ⟨s.bitand m.not, ?_, ?_⟩, ⟨s.bitxor m, ?_, ?_⟩, ?_⟩
  · unfold BitSet.insert; rw [em]; rfl
  · rw [U256.toNat_bitor, elems_or, hm, elems_pow hi]
  · unfold BitSet.remove; rw [em]; rfl
  · rw [U256.toNat_bitand, elems_and, inter_not, hm, elems_pow hi]
  · unfold BitSet.toggle; rw [em]; rfl
  · rw [U256.toNat_bitxor, elems_xor, hm, elems_pow hi]
  · have hv : (ShiftBy.prim (c := c) .u32 i).value = (i.toNat : ℤ) := rfl
    have hs := (C12_in_range c s (I256.ONE c) (.prim .u32 i) (by rw [hv]; omega) (by rw [hv]; omega)).2.1
    rw [hv, Int.toNat_natCast] at hs
    unfold BitSet.contains
    rw [hs]
    simp only [bind, Except.bind, pure, Except.pure]
    refine congrArg _ ?_
    rw [(C25_prim c (fun _ => U256.bitand) (fun _ _ _ => s) _ (I256.ONE c) 1).1, U256.eq_prim_eq, U256.toNat_bitand,
      U256.toNat_ofNat_of_lt c (show (1 : U128).toNat < 2 ^ 256 by decide),
      U256.toNat_ofNat_of_lt c (lt_of_le_of_lt (Nat.div_le_self _ _) (s.toNat_lt c)),
      show (1 : U128).toNat = 1 from rfl, Nat.and_one_is_mod]
    refine decide_eq_decide.2 ?_
    rw [mem_elems, Nat.testBit_eq_decide_div_mod_eq, decide_eq_true_iff]
    exact ⟨fun h => ⟨hi, h⟩, fun h => h.2⟩

example : BitSet.insert dbg (U256.ofNat dbg 5) 200 = .ok (U256.ofNat dbg (2 ^ 200 + 5))
    ∧ BitSet.remove rel (U256.ofNat rel 5) 2 = .ok (U256.ofNat rel 1) ∧ BitSet.toggle dbg (U256.ofNat dbg 5) 255 = .ok (U256.ofNat dbg (2 ^ 255 + 5))
    ∧ BitSet.contains dbg (U256.ofNat dbg 5) 2 = .ok true ∧ BitSet.contains rel (U256.ofNat rel 5) 255 = .ok false := by decide +kernel

/-- C77 (histories): after every history of insertions, removals, unions and so on, from every set, in every build, the bit map is
that of the set with the same history. -/
theorem C77_histories (c : Cfg) (s : U256) (h : List Cmd) (hok : ∀ x ∈ h, x.Ok) :
    ∃ t, BitSet.run c s h = .ok t ∧ elems (t.toNat c) = h.foldl (Cmd.meaning c) (elems (s.toNat c)) := by
  induction h generalizing s with
  | nil => exact ⟨s, rfl, rfl⟩
  | cons x h ih =>
    obtain ⟨t, et, ht⟩ : ∃ t, x.step c s = .ok t ∧ elems (t.toNat c) = x.meaning c (elems (s.toNat c)) := by
      have hx := hok x (by simp)
      cases x with
      | insert i => exact (C77_single c s i hx).1
      | remove i => exact (C77_single c s i hx).2.1
      | toggle i => exact (C77_single c s i hx).2.2.1
      | union b => exact ⟨_, rfl, (C77_operators c s b).1⟩
      | inter b => exact ⟨_, rfl, (C77_operators c s b).2.1⟩
      | minus b => exact ⟨_, rfl, (C77_operators c s b).2.2.2.2.1⟩
      | complement => exact ⟨_, rfl, (C77_operators c s s).2.2.2.1⟩
    obtain ⟨u, eu, hu⟩ := ih t (fun y hy => hok y (List.mem_cons_of_mem x hy))
    refine ⟨u, ?_, by rw [hu, ht]; rfl⟩
    unfold BitSet.run at *
    rw [List.foldlM_cons, et]
    exact eu

example : BitSet.run dbg U256.ZERO [.insert 3, .insert 200, .complement, .toggle 3, .minus (U256.ofNat dbg (2 ^ 128 - 16)), .inter (U256.ofNat dbg (2 ^ 130 - 1))]
    = .ok (U256.ofNat dbg (2 ^ 130 - 2 ^ 128 + 15)) := by decide +kernel

/-- C77 (size and ends): `count_ones` is the number of elements; of a set that is not empty `trailing_zeros` is the least element and
`255 - leading_zeros` the greatest. -/
theorem C77_size (c : Cfg) (s : U256) :
    (∃ r, s.count_ones c = .ok r ∧ r.toNat = (elems (s.toNat c)).card)
    ∧ (s.toNat c ≠ 0 → (∃ r, s.trailing_zeros c = .ok r ∧ r.toNat ∈ elems (s.toNat c) ∧ ∀ i ∈ elems (s.toNat c), r.toNat ≤ i)
      ∧ (∃ r, s.leading_zeros c = .ok r ∧ 255 - r.toNat ∈ elems (s.toNat c) ∧ ∀ i ∈ elems (s.toNat c), i ≤ 255 - r.toNat)) := by
  constructor
  · have hle : bitCount true (s.toNat c) ≤ 256 := by
      have := List.countP_le_length (p := fun i => (s.toNat c).testBit i == true) (l := List.range 256)
      rwa [List.length_range] at this
    refine ⟨_, (C14_count c s (I256.ONE c)).1, ?_⟩
    rw [card_elems, ← List.countP_eq_length_filter]
    have e : bitCount true (s.toNat c) = List.countP (fun i => (s.toNat c).testBit i) (List.range 256) := by
      unfold bitCount; congr 1; funext i; simp
    rw [← e, show u32 (bitCount true (s.toNat c)) = BitVec.ofNat 32 (bitCount true (s.toNat c)) from rfl, BitVec.toNat_ofNat]
    omega
  · intro h0
    have hne : ∃ i, i < 256 ∧ (s.toNat c).testBit i = true := by
      by_contra hcon
      push Not at hcon
      apply h0
      refine elems_inj (s.toNat_lt c) (by decide) ?_
      ext i; rw [mem_elems, mem_elems, Nat.zero_testBit]
      exact ⟨fun h => absurd h.2 (hcon i h.1), fun h => by cases h.2⟩
    obtain ⟨i0, hi0, hb0⟩ := hne
    obtain ⟨⟨r, er, hr1, hr2, hr3⟩, ⟨q, eq, hq1, hq2, hq3⟩, -⟩ := C14_u256_runs c s
    constructor
    · have hq : q.toNat < 256 := by
        by_contra hcon
        have := hq2 i0 (by omega)
        rw [hb0] at this; cases this
      refine ⟨q, eq, mem_elems.2 ⟨hq, hq3 hq⟩, fun i hi => ?_⟩
      by_contra hcon
      have := hq2 i (by omega)
      rw [(mem_elems.1 hi).2] at this; cases this
    · have hr : r.toNat < 256 := by
        by_contra hcon
        have := hr2 (255 - i0) (by omega)
        rw [show 255 - (255 - i0) = i0 by omega, hb0] at this; cases this
      refine ⟨r, er, mem_elems.2 ⟨by omega, hr3 hr⟩, fun i hi => ?_⟩
      have hi' := elems_lt hi
      by_contra hcon
      have := hr2 (255 - i) (by omega)
      rw [show 255 - (255 - i) = i by omega, (mem_elems.1 hi).2] at this; cases this

example : (U256.ofNat dbg (2 ^ 200 + 20)).count_ones dbg = .ok 3 ∧ (U256.ofNat dbg (2 ^ 200 + 20)).trailing_zeros dbg = .ok 2
    ∧ (U256.ofNat dbg (2 ^ 200 + 20)).leading_zeros dbg = .ok 55 := by decide +kernel

/-- C77 (walking): the loop `while s != 0 { out.push(s.trailing_zeros()); s &= s - 1; }` visits the elements in increasing order, each
once, and evaluates its condition exactly once more than there are elements; it never panics, in any build. -/
theorem C77_walk (c : Cfg) (s : U256) (k : ℕ) :
    (∀ r, walk c k s = .ok r → r.map BitVec.toNat = (List.range 256).filter (· ∈ elems (s.toNat c)))
    ∧ ((elems (s.toNat c)).card < k → ∃ r, walk c k s = .ok r)
    ∧ (k ≤ (elems (s.toNat c)).card → walk c k s = .error .diverge) := by
  have hfil : ∀ n : ℕ, (List.range 256).filter (fun i => decide (i ∈ elems n)) = (List.range 256).filter fun i => n.testBit i := fun n => by
    apply List.filter_congr
    intro i hi
    rw [Bool.eq_iff_iff, decide_eq_true_iff, mem_elems]
    exact ⟨fun h => h.2, fun h => ⟨List.mem_range.1 hi, h⟩⟩
  rw [hfil, card_elems]
  induction k generalizing s with
  | zero => exact ⟨fun r h => (by cases h), fun h => by omega, fun _ => rfl⟩
  | succ k ih =>
    by_cases h0 : s.toNat c = 0
    · have e : walk c (k + 1) s = .ok [] := by unfold walk; rw [U256.eq_prim_eq, h0, if_pos (by decide)]
      have en : (List.range 256).filter (fun i => (s.toNat c).testBit i) = [] := by
        rw [h0, List.filter_eq_nil_iff]; intro i _; simp
      rw [en, e]
      refine ⟨fun r h => ?_, fun _ => ⟨_, rfl⟩, fun h => ?_⟩
      · cases h; rfl
      · simp at h
    · obtain ⟨r, er, hr, hmin⟩ := ((C77_size c s).2 h0).1
      have hr' := mem_elems.1 hr
      have hz : ∀ j < r.toNat, (s.toNat c).testBit j = false := fun j hj => by
        cases h : (s.toNat c).testBit j
        · rfl
        · have := hmin j (mem_elems.2 ⟨by omega, h⟩); omega
      obtain ⟨d, ed, hd⟩ : ∃ d, U256.withPrim c U256.sub s 1 = .ok d ∧ d.toNat c = s.toNat c - 1 := by
        have hone : (U256.ofNat c (1 : U128).toNat).toNat c = 1 := U256.toNat_ofNat_of_lt c (by decide)
        rw [(C25_prim c U256.sub (fun _ _ _ => .ok s) s (I256.ONE c) 1).1]
        refine ⟨_, by rw [(C25_u256 c _ _).2.1, if_neg (by omega)], ?_⟩
        have := U256.toNat_ofInt c ((s.toNat c : ℤ) - 1)
        have := s.toNat_lt c
        rw [hone]; push_cast
        omega
      have hs' : (s.bitand_assign d).toNat c = s.toNat c &&& (s.toNat c - 1) := by
        rw [(C21_u256_bitwise c s d).2.2.2.2.1, U256.toNat_bitand, hd]
      have hw : walk c (k + 1) s = (do return r :: (← walk c k (s.bitand_assign d))) := by
        conv_lhs => unfold walk
        rw [U256.eq_prim_eq, if_neg (by simpa using h0), er]
        simp only [bind, Except.bind, ed]
      have hcl : (List.range 256).filter (fun i => ((s.bitand_assign d).toNat c).testBit i)
          = (List.range 256).filter (fun i => (s.toNat c).testBit i && decide (i ≠ r.toNat)) := by
        apply List.filter_congr
        intro i _
        rw [hs', clear_lowest hz hr'.2]
      have hcons := filter_lowest (fun i => (s.toNat c).testBit i) 256 r.toNat hr'.1 hz hr'.2
      obtain ⟨i1, i2, i3⟩ := ih (s.bitand_assign d)
      rw [hcl] at i1 i2 i3
      rw [hcons, hw, List.length_cons]
      refine ⟨fun l hl => ?_, fun hk => ?_, fun hk => ?_⟩
      · cases hwk : walk c k (s.bitand_assign d) with
        | error e => rw [hwk] at hl; cases hl
        | ok l' =>
          rw [hwk] at hl
          cases hl
          rw [List.map_cons, i1 l' hwk]
      · obtain ⟨l', hl'⟩ := i2 (by omega)
        exact ⟨r :: l', by rw [hl']; rfl⟩
      · rw [i3 (by omega)]; rfl

example : walk dbg 4 (U256.ofNat dbg (2 ^ 200 + 20)) = .ok [2, 4, 200] ∧ walk dbg 3 (U256.ofNat dbg (2 ^ 200 + 20)) = .error .diverge
    ∧ (walk rel 257 U256.MAX).isOk = true ∧ walk rel 1 U256.ZERO = .ok [] := by decide +kernel

end Ethnum
