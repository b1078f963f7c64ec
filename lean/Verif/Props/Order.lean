import Verif.Model.Ord
import Verif.Props.Repr
import Mathlib.Data.List.Sort
import Mathlib.Data.Int.Order.Basic

/-
C58: what is built on the ordering: `max`, `min`, `clamp`, sorted sequences, and the default value.
-/

namespace Ethnum

/-- `max` and `min` are those of the numbers. -/
theorem C58_max_min (c : Cfg) (a b : U256) (x y : I256) :
    (a.max c b).toNat c = max (a.toNat c) (b.toNat c) ∧ (a.min c b).toNat c = min (a.toNat c) (b.toNat c)
    ∧ (x.max c y).toInt c = max (x.toInt c) (y.toInt c) ∧ (x.min c y).toInt c = min (x.toInt c) (y.toInt c) := by
  simp only [U256.max, U256.min, I256.max, I256.min, ordMax, ordMin, (C20_u256_cmp c b a).2.2.2.2.1,
    (C20_i256_cmp c y x).2.2.2.2.1, decide_eq_true_eq]
  refine ⟨?_, ?_, ?_, ?_⟩ <;> split <;> omega

example : (U256.ofNat dbg (2 ^ 200)).max dbg (U256.ofNat dbg 5) = U256.ofNat dbg (2 ^ 200)
    ∧ (I256.ofInt rel (-3)).min rel (I256.ofInt rel 2) = I256.ofInt rel (-3) := by decide

/-- `clamp` is `max lo (min x hi)`, and panics exactly when the bounds are the wrong way round. -/
theorem C58_clamp (c : Cfg) (a lo hi : U256) (x l h : I256) :
    (lo.toNat c ≤ hi.toNat c →
      ∃ r, a.clamp c lo hi = .ok r ∧ r.toNat c = max (lo.toNat c) (min (a.toNat c) (hi.toNat c)))
    ∧ (hi.toNat c < lo.toNat c → Panics (a.clamp c lo hi))
    ∧ (l.toInt c ≤ h.toInt c →
      ∃ r, x.clamp c l h = .ok r ∧ r.toInt c = max (l.toInt c) (min (x.toInt c) (h.toInt c)))
    ∧ (h.toInt c < l.toInt c → Panics (x.clamp c l h)) := by
  simp only [U256.clamp, I256.clamp, ordClamp, (C20_u256_cmp c lo hi).2.2.2.2.2.1, (C20_u256_cmp c a lo).2.2.2.2.1,
    (C20_u256_cmp c a hi).2.2.2.2.2.2.1, (C20_i256_cmp c l h).2.2.2.2.2.1, (C20_i256_cmp c x l).2.2.2.2.1,
    (C20_i256_cmp c x h).2.2.2.2.2.2.1, decide_eq_true_eq, Bool.not_eq_true', decide_eq_false_iff_not]
  refine ⟨fun hl => ?_, fun hl => ?_, fun hl => ?_, fun hl => ?_⟩
  · rw [if_neg (by omega)]
    split
    · exact ⟨_, rfl, by omega⟩
    · split
      · exact ⟨_, rfl, by omega⟩
      · exact ⟨_, rfl, by omega⟩
  · rw [if_pos (by omega)]
    exact ⟨_, rfl⟩
  · rw [if_neg (by omega)]
    split
    · exact ⟨_, rfl, by omega⟩
    · split
      · exact ⟨_, rfl, by omega⟩
      · exact ⟨_, rfl, by omega⟩
  · rw [if_pos (by omega)]
    exact ⟨_, rfl⟩

example : (U256.ofNat rel 7).clamp rel (U256.ofNat rel 10) U256.MAX = .ok (U256.ofNat rel 10)
    ∧ (I256.ofInt dbg (-7)).clamp dbg (I256.MIN dbg) (I256.ofInt dbg (-9)) = .ok (I256.ofInt dbg (-9))
    ∧ (I256.ofInt dbg 1).clamp dbg (I256.ofInt dbg 1) (I256.ofInt dbg 0) = throwPanic .explicit := by decide

/-- A sequence of any length that has been put in order with `cmp` is the sequence of the numbers in ascending order:
whatever algorithm sorted it, there is only one result. -/
theorem C58_sorted (c : Cfg) (l l' : List U256) (m m' : List I256) :
    (l'.Perm l → l'.Pairwise (fun a b => a.cmp c b ≠ .gt) →
      l'.map (U256.toNat c) = (l.map (U256.toNat c)).insertionSort (· ≤ ·))
    ∧ (m'.Perm m → m'.Pairwise (fun a b => a.cmp c b ≠ .gt) →
      m'.map (I256.toInt c) = (m.map (I256.toInt c)).insertionSort (· ≤ ·)) := by
  refine ⟨fun hp hs => ?_, fun hp hs => ?_⟩
  · refine List.Perm.eq_of_pairwise' ?_ (List.pairwise_insertionSort _ _)
      ((hp.map _).trans (List.perm_insertionSort _ _).symm)
    rw [List.pairwise_map]
    refine hs.imp fun {a b} h => ?_
    rw [(C20_u256_cmp c a b).1] at h
    exact not_lt.1 fun hh => h (Nat.compare_eq_gt.2 hh)
  · refine List.Perm.eq_of_pairwise' ?_ (List.pairwise_insertionSort _ _)
      ((hp.map _).trans (List.perm_insertionSort _ _).symm)
    rw [List.pairwise_map]
    refine hs.imp fun {a b} h => ?_
    rw [(C20_i256_cmp c a b).1] at h
    exact not_lt.1 fun hh => h (Int.compare_eq_gt.2 hh)

example : [I256.MIN dbg, I256.MINUS_ONE dbg, I256.ONE dbg].Perm [I256.ONE dbg, I256.MIN dbg, I256.MINUS_ONE dbg]
    ∧ [I256.MIN dbg, I256.MINUS_ONE dbg, I256.ONE dbg].Pairwise (fun a b => a.cmp dbg b ≠ .gt) := by decide

/-- The default value is zero. -/
theorem C58_default (c : Cfg) : U256.default.toNat c = 0 ∧ I256.default.toInt c = 0 :=
  ⟨U256.toNat_ZERO c, I256.toInt_ZERO c⟩

end Ethnum
