import Verif.Proofs.Ops
import Verif.Proofs.ShiftBy
import Verif.Model.IntApi
import Verif.Props.Repr
import Verif.Props.IArith
import Verif.Props.UArith
import Mathlib.Algebra.BigOperators.Group.List.Basic
import Mathlib.Tactic.Ring
import Mathlib.Data.Int.ModEq

/-
C12 shift operators, C25 arithmetic operators, C26 assigning operators, C27 sum and product,
C42 debug/release agreement, C45 ring laws.
-/

namespace Ethnum

/-! ### C12 -/

/-- C12, amounts 0..=255 of any type: `<<` is multiplication by `2^b` modulo `2^256`, `>>` is floor
division by `2^b`; every build, no panic. -/
theorem C12_in_range (c : Cfg) (a : U256) (s : I256) (b : ShiftBy c) (h0 : 0 ≤ b.value) (h1 : b.value < 256) :
    a.shlBy c b = .ok (U256.ofNat c (a.toNat c * 2 ^ b.value.toNat))
    ∧ a.shrBy c b = .ok (U256.ofNat c (a.toNat c / 2 ^ b.value.toNat))
    ∧ s.shlBy c b = .ok (I256.ofInt c (s.toInt c * 2 ^ b.value.toNat))
    ∧ s.shrBy c b = .ok (I256.ofInt c (s.toInt c / 2 ^ b.value.toNat)) := by
  have e := b.amount_small h0 h1
  have e' : b.value.toNat = b.amount.toNat := by omega
  have hl : b.amount.toNat < 256 := by omega
  unfold U256.shlBy U256.shrBy I256.shlBy I256.shrBy
  rw [U256.shl_eq c a b.amount hl, U256.shr_eq c a b.amount hl, I256.shl_eq c s b.amount hl, I256.shr_eq c s b.amount hl, e']
  exact ⟨rfl, rfl, rfl, rfl⟩

example : (ShiftBy.prim (c := dbg) .i8 3).value = 3
    ∧ (I256.MINUS_ONE dbg).shlBy dbg (.prim .i8 3) = .ok (I256.ofInt dbg (-8))
    ∧ (I256.ofInt rel (-9)).shrBy rel (.i256 (I256.ofInt rel 2)) = .ok (I256.ofInt rel (-3)) := by decide

/-- C12, other amounts in debug builds: a panic. -/
theorem C12_debug (c : Cfg) (hc : c.debugAssertions = true) (a : U256) (s : I256) (b : ShiftBy c)
    (h : ¬ (0 ≤ b.value ∧ b.value < 256)) :
    Panics (a.shlBy c b) ∧ Panics (a.shrBy c b) ∧ Panics (s.shlBy c b) ∧ Panics (s.shrBy c b) := by
  have e := b.amount_debug hc
  have hl : 256 ≤ b.amount.toNat := by split at e <;> omega
  unfold U256.shlBy U256.shrBy I256.shlBy I256.shrBy
  rw [U256.shl_debug c hc a hl, U256.shr_debug c hc a hl, I256.shl_debug c hc s hl, I256.shr_debug c hc s hl]
  exact ⟨⟨_, rfl⟩, ⟨_, rfl⟩, ⟨_, rfl⟩, ⟨_, rfl⟩⟩

example : ¬ (0 ≤ (ShiftBy.prim (c := dbg) .i8 (-1)).value ∧ (ShiftBy.prim (c := dbg) .i8 (-1)).value < 256) := by decide

/-- C12, what release builds do for every amount. -/
theorem C12_release (c : Cfg) (hc : c.debugAssertions = false) (a : U256) (s : I256) (b : ShiftBy c) :
    a.shlBy c b = .ok (U256.ofNat c (a.toNat c * 2 ^ releaseShift c b.value))
    ∧ a.shrBy c b = .ok (U256.ofNat c (a.toNat c / 2 ^ releaseShift c b.value))
    ∧ s.shlBy c b = .ok (I256.ofInt c (s.toInt c * 2 ^ releaseShift c b.value))
    ∧ s.shrBy c b = .ok (I256.ofInt c (s.toInt c / 2 ^ releaseShift c b.value)) := by
  have e := b.amount_release hc
  unfold U256.shlBy U256.shrBy I256.shlBy I256.shrBy releaseShift
  by_cases h : b.value % 2 ^ 32 < 256
  · rw [if_pos (.inr h)]
    have e' : (b.value % 256).toNat = b.amount.toNat := by omega
    have hl : b.amount.toNat < 256 := by omega
    rw [U256.shl_eq c a b.amount hl, U256.shr_eq c a b.amount hl, I256.shl_eq c s b.amount hl, I256.shr_eq c s b.amount hl, e']
    exact ⟨rfl, rfl, rfl, rfl⟩
  · have hl : 128 ≤ b.amount.toNat := by omega
    have e' : Intr.bigShift c b.amount
        = if c.llvm ∨ b.value % 2 ^ 32 < 256 then (b.value % 256).toNat else 128 + (b.value % 128).toNat := by
      unfold Intr.bigShift
      cases c.llvm
      · rw [if_neg (by simp), if_neg (by simp; exact Int.not_lt.1 h)]; omega
      · rw [if_pos rfl, if_pos (.inl rfl)]; omega
    rw [U256.shl_release c hc a hl, U256.shr_release c hc a hl, I256.shl_release c hc s hl,
      I256.shr_release c hc s hl, e']
    exact ⟨rfl, rfl, rfl, rfl⟩

example : rel.debugAssertions = false ∧ releaseShift rel 300 = 172 ∧ releaseShift rel 255 = 255
    ∧ releaseShift rll 300 = 44 ∧ (U256.ofNat rll 5).shlBy rll (.prim .u32 300) = .ok (U256.ofNat rll (5 * 2 ^ 44))
    ∧ (U256.ofNat rel 5).shlBy rel (.prim .u32 300) = .ok (U256.ofNat rel (5 * 2 ^ 172)) := by decide +kernel

/-- C12 in release builds, the part that holds: the shift is by the amount modulo 256 with the LLVM back-end, and with
the native one when the amount modulo `2^32` is below 256 or the amount modulo 256 is at least 128. Missing: the other
amounts with the native back-end, for which `C12_release_wrong` shows the claim is false of the code. -/
theorem C12_release_partial (c : Cfg) (hc : c.debugAssertions = false) (a : U256) (s : I256) (b : ShiftBy c)
    (h : c.llvm = true ∨ b.value % 2 ^ 32 < 256 ∨ 128 ≤ b.value % 256) :
    a.shlBy c b = .ok (U256.ofNat c (a.toNat c * 2 ^ (b.value % 256).toNat))
    ∧ a.shrBy c b = .ok (U256.ofNat c (a.toNat c / 2 ^ (b.value % 256).toNat))
    ∧ s.shlBy c b = .ok (I256.ofInt c (s.toInt c * 2 ^ (b.value % 256).toNat))
    ∧ s.shrBy c b = .ok (I256.ofInt c (s.toInt c / 2 ^ (b.value % 256).toNat)) := by
  have e : releaseShift c b.value = (b.value % 256).toNat := by
    unfold releaseShift; split
    · rfl
    · rename_i h'; rw [not_or] at h'; have := h.resolve_left h'.1; omega
  rw [← e]
  exact C12_release c hc a s b

example : (ShiftBy.prim (c := rel) .u16 (-1)).value % 256 = 255
    ∧ (U256.ONE rel).shlBy rel (.prim .u16 (-1)) = .ok (U256.ofNat rel (2 ^ 255))
    ∧ rll.llvm = true ∧ (U256.ONE rll).shlBy rll (.prim .u16 257) = .ok (U256.ofNat rll 2) := by decide +kernel

/-- C12 is false in release builds: for every amount `b` outside the cases of `C12_release_partial` the value
one is shifted by 128 bits too many; for instance `1 << 256` is `2^128` and not one, as it would be if amounts
were taken modulo 256. -/
theorem C12_release_wrong (c : Cfg) (hc : c.debugAssertions = false) (b : ShiftBy c)
    (h : ¬ (c.llvm = true ∨ b.value % 2 ^ 32 < 256 ∨ 128 ≤ b.value % 256)) :
    (U256.ONE c).shlBy c b = .ok (U256.ofNat c (2 ^ ((b.value % 256).toNat + 128)))
    ∧ (U256.ONE c).shlBy c b ≠ .ok (U256.ofNat c (2 ^ (b.value % 256).toNat)) := by
  have e : releaseShift c b.value = (b.value % 256).toNat + 128 := by
    rw [not_or] at h
    unfold releaseShift; rw [if_neg (by rw [not_or]; exact ⟨h.1, by omega⟩)]; omega
  have := (C12_release c hc (U256.ONE c) I256.ZERO b).1
  rw [e, U256.toNat_ONE, Nat.one_mul] at this
  refine ⟨this, ?_⟩
  rw [this]
  intro hh
  have hlt : (b.value % 256).toNat < 128 := by omega
  have := U256.ofNat_inj_of_lt c (Nat.pow_lt_pow_right (by omega) (by omega)) (Nat.pow_lt_pow_right (by omega) (by omega))
    (Except.ok.inj hh)
  rw [Nat.pow_right_inj (by omega)] at this
  omega

example : rel.llvm = false ∧ (ShiftBy.prim (c := rel) .i32 256).value = 256
    ∧ (U256.ONE rel).shlBy rel (.prim .i32 256) = .ok (U256.ofNat rel (2 ^ 128)) := by decide

/-! ### C25 -/

/-- C25 for `U256`. -/
theorem C25_u256 (c : Cfg) (a b : U256) :
    a.add c b = (if c.debugAssertions = true ∧ 2 ^ 256 ≤ a.toNat c + b.toNat c then .error (.panic .addOverflow)
      else .ok (U256.ofNat c (a.toNat c + b.toNat c)))
    ∧ a.sub c b = (if c.debugAssertions = true ∧ a.toNat c < b.toNat c then .error (.panic .subOverflow)
      else .ok (U256.ofInt c ((a.toNat c : Int) - b.toNat c)))
    ∧ a.mul c b = (if c.debugAssertions = true ∧ 2 ^ 256 ≤ a.toNat c * b.toNat c then .error (.panic .mulOverflow)
      else .ok (U256.ofNat c (a.toNat c * b.toNat c))) :=
  ⟨U256.add_eq c a b, U256.sub_eq c a b, U256.mul_eq c a b⟩

example : U256.MAX.add dbg (U256.ONE dbg) = .error (.panic .addOverflow)
    ∧ U256.MAX.add rel (U256.ONE rel) = .ok U256.ZERO
    ∧ (U256.ofNat dbg (2 ^ 200)).mul dbg (U256.ofNat dbg (2 ^ 55)) = .ok (U256.ofNat dbg (2 ^ 255)) := by decide +kernel

/-- C25 for `I256`. -/
theorem C25_i256 (c : Cfg) (a b : I256) :
    a.add c b = (if c.debugAssertions = true ∧ ¬ InI256 (a.toInt c + b.toInt c) then .error (.panic .addOverflow)
      else .ok (I256.ofInt c (a.toInt c + b.toInt c)))
    ∧ a.sub c b = (if c.debugAssertions = true ∧ ¬ InI256 (a.toInt c - b.toInt c) then .error (.panic .subOverflow)
      else .ok (I256.ofInt c (a.toInt c - b.toInt c)))
    ∧ a.mul c b = (if c.debugAssertions = true ∧ ¬ InI256 (a.toInt c * b.toInt c) then .error (.panic .mulOverflow)
      else .ok (I256.ofInt c (a.toInt c * b.toInt c)))
    ∧ a.neg c = (if c.debugAssertions = true ∧ ¬ InI256 (-a.toInt c) then .error (.panic .negOverflow)
      else .ok (I256.ofInt c (-a.toInt c))) := by
  refine ⟨I256.add_eq c a b, I256.sub_eq c a b, I256.mul_eq c a b, ?_⟩
  rw [I256.neg_eq]
  simp only [InI256_neg_iff (I256.toInt_in c a), not_not]

example : (I256.MIN dbg).neg dbg = .error (.panic .negOverflow) ∧ (I256.MIN rel).neg rel = .ok (I256.MIN rel)
    ∧ (I256.MIN dbg).mul dbg (I256.MINUS_ONE dbg) = .error (.panic .mulOverflow)
    ∧ (I256.MIN dbg).sub dbg (I256.ONE dbg) = .error (.panic .subOverflow) := by decide +kernel

/-- C25: a `u128` / `i128` operand on either side acts as the `U256` / `I256` of the same value, for every
operator. -/
theorem C25_prim (c : Cfg) {α : Type} (fu : Cfg → U256 → U256 → α) (fi : Cfg → I256 → I256 → α)
    (a : U256) (s : I256) (p : U128) :
    U256.withPrim c fu a p = fu c a (U256.ofNat c p.toNat)
    ∧ U256.primWith c fu p a = fu c (U256.ofNat c p.toNat) a
    ∧ I256.withPrim c fi s p = fi c s (I256.ofInt c p.toInt)
    ∧ I256.primWith c fi p s = fi c (I256.ofInt c p.toInt) s := by
  have e1 : U256.new c p = U256.ofNat c p.toNat := U256.eq_ofNat c (by
    rw [U256.toNat_new]; have := p.isLt; omega)
  have e2 : I256.new c p = I256.ofInt c p.toInt := by
    rw [← I256.toInt_new c p, I256.ofInt_toInt]
  unfold U256.withPrim U256.primWith I256.withPrim I256.primWith
  rw [e1, e2]
  exact ⟨rfl, rfl, rfl, rfl⟩

example : I256.primWith dbg I256.sub (-3) (I256.ofInt dbg 4) = .ok (I256.ofInt dbg (-7)) := by decide

/-! ### C26 -/

/-- Two calls have the same effect: the same value is returned, or both panic (the message may differ). -/
def SameEffect {α : Type} (r s : Res α) : Prop := (∀ x, r = .ok x ↔ s = .ok x) ∧ (Panics r ↔ Panics s)

theorem SameEffect.rfl {α : Type} (r : Res α) : SameEffect r r := ⟨fun _ => Iff.rfl, Iff.rfl⟩
theorem SameEffect.panics {α : Type} {p q : Panic} : SameEffect (α := α) (.error (.panic p)) (.error (.panic q)) :=
  ⟨fun _ => by simp, ⟨fun _ => ⟨_, Eq.refl _⟩, fun _ => ⟨_, Eq.refl _⟩⟩⟩

/-- C26 for `U256`. -/
theorem C26_u256 (c : Cfg) (a b : U256) (n : ShiftBy c) :
    a.add_assign c b = a.add c b ∧ a.sub_assign c b = a.sub c b ∧ a.mul_assign c b = a.mul c b
    ∧ a.div_assign c b = a.div c b ∧ SameEffect (a.rem_assign c b) (a.rem c b)
    ∧ a.shlAssignBy c n = a.shlBy c n ∧ a.shrAssignBy c n = a.shrBy c n
    ∧ a.bitand_assign b = a.bitand b ∧ a.bitor_assign b = a.bitor b ∧ a.bitxor_assign b = a.bitxor b := by
  refine ⟨U256.add_assign_eq c a b, U256.sub_assign_eq c a b, U256.mul_assign_eq c a b,
    (U256.div_assign_eq c a b).trans (U256.div_eq c a b).symm, ?_, U256.shl_assign_eq c a _,
    U256.shr_assign_eq c a _, rfl, rfl, rfl⟩
  rw [U256.rem_assign_eq, U256.rem_eq]
  by_cases h : b.toNat c = 0
  · rw [if_pos h, if_pos h]; split <;> exact SameEffect.panics
  · rw [if_neg h, if_neg h]; exact SameEffect.rfl _

example : (U256.ofNat rel 1000).rem_assign rel (U256.ofNat rel 7) = .ok (U256.ofNat rel 6) := by decide +kernel

/-- C26 for `I256`. -/
theorem C26_i256 (c : Cfg) (a b : I256) (n : ShiftBy c) :
    a.add_assign c b = a.add c b ∧ a.sub_assign c b = a.sub c b ∧ a.mul_assign c b = a.mul c b
    ∧ a.div_assign c b = a.div c b ∧ SameEffect (a.rem_assign c b) (a.rem c b)
    ∧ a.shlAssignBy c n = a.shlBy c n ∧ a.shrAssignBy c n = a.shrBy c n
    ∧ a.bitand_assign b = a.bitand b ∧ a.bitor_assign b = a.bitor b ∧ a.bitxor_assign b = a.bitxor b := by
  refine ⟨I256.add_assign_eq c a b, I256.sub_assign_eq c a b, I256.mul_assign_eq c a b,
    (I256.div_assign_eq c a b).trans (I256.div_eq c a b).symm, ?_, I256.shl_assign_eq c a _,
    I256.shr_assign_eq c a _, rfl, rfl, rfl⟩
  rw [I256.rem_assign_eq, I256.rem_eq]
  by_cases h : b.toInt c = 0
  · rw [if_pos h, if_pos h]; split <;> exact SameEffect.panics
  · rw [if_neg h, if_neg h]; exact SameEffect.rfl _

example : (I256.ofInt rel (-1000)).rem_assign rel (I256.ofInt rel 7) = .ok (I256.ofInt rel (-6)) := by decide +kernel

/-! ### C27 -/

/-- A left fold of a checked operation: it fails exactly when checks are on and some prefix is out of range. -/
theorem foldlM_checked {α β : Type} (d : Bool) (op : α → α → Res α) (f : β → β → β) (val : α → β) (mk : β → α)
    (In : β → Prop) [DecidablePred In] (p : Panic)
    (hop : ∀ a b, op a b = if d = true ∧ ¬ In (f (val a) (val b)) then .error (.panic p) else .ok (mk (f (val a) (val b))))
    (hin : ∀ z, In z → val (mk z) = z) (hmk : ∀ z y, mk (f (val (mk z)) y) = mk (f z y)) (l : List α) :
    ∀ z, (d = true → In z) →
      (d = true ∧ (∃ k, ¬ In ((l.take k).foldl (fun s x => f s (val x)) z)) → l.foldlM op (mk z) = .error (.panic p))
      ∧ (¬ (d = true ∧ ∃ k, ¬ In ((l.take k).foldl (fun s x => f s (val x)) z)) →
        l.foldlM op (mk z) = .ok (mk (l.foldl (fun s x => f s (val x)) z))) := by
  induction l with
  | nil =>
    intro z hz
    constructor
    · rintro ⟨hd, k, hk⟩
      rw [List.take_nil] at hk
      exact absurd (hz hd) hk
    · intro _; rfl
  | cons x l ih =>
    intro z hz
    have hstep : (x :: l).foldlM op (mk z) = op (mk z) x >>= fun s => l.foldlM op s := by
      rw [List.foldlM_cons]
    rw [hstep, hop]
    by_cases hd : d = true
    · rw [hin z (hz hd)]
      by_cases hx : In (f z (val x))
      · rw [if_neg (by simp [hx])]
        show (_ → l.foldlM op (mk (f z (val x))) = _) ∧ (_ → l.foldlM op (mk (f z (val x))) = _)
        have := ih (f z (val x)) (fun _ => hx)
        have hex : (∃ k, ¬ In (((x :: l).take k).foldl (fun s x => f s (val x)) z))
            ↔ ∃ k, ¬ In ((l.take k).foldl (fun s x => f s (val x)) (f z (val x))) := by
          constructor
          · rintro ⟨k, hk⟩
            cases k with
            | zero => exact absurd (hz hd) hk
            | succ k => exact ⟨k, hk⟩
          · rintro ⟨k, hk⟩; exact ⟨k + 1, hk⟩
        rw [hex]
        exact this
      · rw [if_pos ⟨hd, hx⟩]
        refine ⟨fun _ => rfl, fun h => absurd ⟨hd, 1, ?_⟩ h⟩
        simpa using hx
    · rw [if_neg (fun h => hd h.1), hmk]
      refine ⟨fun h => absurd h.1 hd, fun _ => ?_⟩
      show l.foldlM op (mk (f z (val x))) = _
      exact (ih (f z (val x)) (fun h => absurd h hd)).2 (fun h => hd h.1)

theorem foldl_add_val {α β : Type} [AddMonoid β] (val : α → β) (l : List α) (z : β) :
    l.foldl (fun s x => s + val x) z = z + (l.map val).sum := by
  induction l generalizing z with
  | nil => simp
  | cons x l ih => rw [List.foldl_cons, ih, List.map_cons, List.sum_cons, add_assoc]

theorem foldl_mul_val {α β : Type} [Monoid β] (val : α → β) (l : List α) (z : β) :
    l.foldl (fun s x => s * val x) z = z * (l.map val).prod := by
  induction l generalizing z with
  | nil => simp
  | cons x l ih => rw [List.foldl_cons, ih, List.map_cons, List.prod_cons, mul_assoc]

/-- C27, `U256` sums: in a debug build the call panics exactly when some prefix sum is out of range;
otherwise it returns the sum modulo `2^256`. -/
theorem C27_u256_sum (c : Cfg) (l : List U256) :
    (c.debugAssertions = true ∧ (∃ k, 2 ^ 256 ≤ ((l.take k).map (U256.toNat c)).sum) → Panics (U256.sum c l))
    ∧ (¬ (c.debugAssertions = true ∧ ∃ k, 2 ^ 256 ≤ ((l.take k).map (U256.toNat c)).sum) →
        U256.sum c l = .ok (U256.ofNat c (l.map (U256.toNat c)).sum)) := by
  have h := foldlM_checked c.debugAssertions (U256.add c) (· + ·) (U256.toNat c) (U256.ofNat c) (· < 2 ^ 256)
    .addOverflow (fun a b => by rw [U256.add_eq]; simp only [not_lt]) (fun z hz => U256.toNat_ofNat_of_lt c hz)
    (fun z y => U256.ofNat_congr c (by rw [U256.toNat_ofNat]; omega)) l 0 (fun _ => by decide)
  simp only [foldl_add_val, not_lt, zero_add] at h
  rw [← U256.ZERO_eq c] at h
  exact ⟨fun hh => ⟨_, h.1 hh⟩, h.2⟩

example : U256.sum dbg [U256.MAX, U256.ONE dbg] = .error (.panic .addOverflow)
    ∧ U256.sum rel [U256.MAX, U256.ONE rel, U256.ONE rel] = .ok (U256.ONE rel) := by decide

/-- C27, `U256` products. -/
theorem C27_u256_product (c : Cfg) (l : List U256) :
    (c.debugAssertions = true ∧ (∃ k, 2 ^ 256 ≤ ((l.take k).map (U256.toNat c)).prod) → Panics (U256.product c l))
    ∧ (¬ (c.debugAssertions = true ∧ ∃ k, 2 ^ 256 ≤ ((l.take k).map (U256.toNat c)).prod) →
        U256.product c l = .ok (U256.ofNat c (l.map (U256.toNat c)).prod)) := by
  have h := foldlM_checked c.debugAssertions (U256.mul c) (· * ·) (U256.toNat c) (U256.ofNat c) (· < 2 ^ 256)
    .mulOverflow (fun a b => by rw [U256.mul_eq]; simp only [not_lt]) (fun z hz => U256.toNat_ofNat_of_lt c hz)
    (fun z y => U256.ofNat_congr c (by rw [U256.toNat_ofNat, Nat.mod_mul_mod])) l 1 (fun _ => by decide)
  simp only [foldl_mul_val, not_lt, one_mul] at h
  rw [← U256.ONE_eq c] at h
  exact ⟨fun hh => ⟨_, h.1 hh⟩, h.2⟩

example : U256.product dbg [U256.MAX, U256.MAX, U256.ZERO] = .error (.panic .mulOverflow)
    ∧ U256.product dbg [U256.ofNat dbg 6, U256.ofNat dbg 7] = .ok (U256.ofNat dbg 42) := by decide +kernel

theorem emod_mul_congr (a b n : Int) : a % n * b % n = a * b % n := by
  rw [Int.mul_emod, Int.emod_emod_of_dvd _ (Int.dvd_refl n), ← Int.mul_emod]

theorem I256.toInt_ofInt_emod (c : Cfg) (z : Int) : (I256.ofInt c z).toInt c % 2 ^ 256 = z % 2 ^ 256 := by
  rw [← I256.toNat_toInt, I256.toNat_ofInt]

/-- C27, `I256` sums. -/
theorem C27_i256_sum (c : Cfg) (l : List I256) :
    (c.debugAssertions = true ∧ (∃ k, ¬ InI256 ((l.take k).map (I256.toInt c)).sum) → Panics (I256.sum c l))
    ∧ (¬ (c.debugAssertions = true ∧ ∃ k, ¬ InI256 ((l.take k).map (I256.toInt c)).sum) →
        I256.sum c l = .ok (I256.ofInt c (l.map (I256.toInt c)).sum)) := by
  have h := foldlM_checked c.debugAssertions (I256.add c) (· + ·) (I256.toInt c) (I256.ofInt c) InI256
    .addOverflow (fun a b => I256.add_eq c a b) (fun z hz => I256.toInt_ofInt_of_in c hz)
    (fun z y => I256.ofInt_congr c (by
      have := I256.toInt_ofInt_emod c z
      rw [Int.add_emod, this, ← Int.add_emod])) l 0 (fun _ => by decide)
  simp only [foldl_add_val, zero_add] at h
  rw [← I256.ZERO_eq c] at h
  exact ⟨fun hh => ⟨_, h.1 hh⟩, h.2⟩

example : I256.sum dbg [I256.MAX dbg, I256.ONE dbg, I256.MINUS_ONE dbg] = .error (.panic .addOverflow)
    ∧ I256.sum dbg [I256.MAX dbg, I256.MINUS_ONE dbg, I256.ONE dbg] = .ok (I256.MAX dbg) := by decide

/-- C27, `I256` products. -/
theorem C27_i256_product (c : Cfg) (l : List I256) :
    (c.debugAssertions = true ∧ (∃ k, ¬ InI256 ((l.take k).map (I256.toInt c)).prod) → Panics (I256.product c l))
    ∧ (¬ (c.debugAssertions = true ∧ ∃ k, ¬ InI256 ((l.take k).map (I256.toInt c)).prod) →
        I256.product c l = .ok (I256.ofInt c (l.map (I256.toInt c)).prod)) := by
  have h := foldlM_checked c.debugAssertions (I256.mul c) (· * ·) (I256.toInt c) (I256.ofInt c) InI256
    .mulOverflow (fun a b => I256.mul_eq c a b) (fun z hz => I256.toInt_ofInt_of_in c hz)
    (fun z y => I256.ofInt_congr c (by
      have := I256.toInt_ofInt_emod c z
      rw [Int.mul_emod, this, ← Int.mul_emod])) l 1 (fun _ => by decide)
  simp only [foldl_mul_val, one_mul] at h
  rw [← I256.ONE_eq c] at h
  exact ⟨fun hh => ⟨_, h.1 hh⟩, h.2⟩

example : I256.product dbg [I256.ofInt dbg (-6), I256.ofInt dbg 7] = .ok (I256.ofInt dbg (-42)) := by decide +kernel

/-! ### C42 -/

/-- The binary arithmetic operators. -/
inductive BinOp where
  | add | sub | mul | div | rem

/-- The operator on `U256`. -/
def BinOp.u256 : BinOp → Cfg → U256 → U256 → Res U256
  | add => U256.add | sub => U256.sub | mul => U256.mul | div => U256.div | rem => U256.rem
/-- The assigning operator on `U256`. -/
def BinOp.u256Assign : BinOp → Cfg → U256 → U256 → Res U256
  | add => U256.add_assign | sub => U256.sub_assign | mul => U256.mul_assign | div => U256.div_assign
  | rem => U256.rem_assign
/-- The operator on `I256`. -/
def BinOp.i256 : BinOp → Cfg → I256 → I256 → Res I256
  | add => I256.add | sub => I256.sub | mul => I256.mul | div => I256.div | rem => I256.rem
/-- The assigning operator on `I256`. -/
def BinOp.i256Assign : BinOp → Cfg → I256 → I256 → Res I256
  | add => I256.add_assign | sub => I256.sub_assign | mul => I256.mul_assign | div => I256.div_assign
  | rem => I256.rem_assign

theorem BinOp.u256_of_ok (op : BinOp) {c c' : Cfg} (hd : c.debugAssertions = true) {a b r a' b' : U256}
    (ha : a.toNat c = a'.toNat c') (hb : b.toNat c = b'.toNat c') (h : op.u256 c a b = .ok r) :
    op.u256 c' a' b' = .ok (U256.ofNat c' (r.toNat c)) := by
  have hofInt : ∀ z, U256.ofInt c' z = U256.ofNat c' ((U256.ofInt c z).toNat c) := fun z => by
    rw [← U256.ofInt_natCast, U256.toNat_ofInt]
    exact U256.eq_ofInt c' (by rw [U256.toNat_ofInt, Int.emod_emod_of_dvd _ (Int.dvd_refl _)])
  have hofNat : ∀ n, U256.ofNat c' n = U256.ofNat c' ((U256.ofNat c n).toNat c) := fun n =>
    U256.ofNat_congr c' (by rw [U256.toNat_ofNat, Nat.mod_mod])
  cases op <;> simp only [BinOp.u256] at *
  · rw [U256.add_eq] at *
    rw [← ha, ← hb]
    split at h
    · exact absurd h (by simp)
    · rename_i hh; rw [if_neg (fun x => hh ⟨hd, x.2⟩), ← Except.ok.inj h, ← hofNat]
  · rw [U256.sub_eq] at *
    rw [← ha, ← hb]
    split at h
    · exact absurd h (by simp)
    · rename_i hh; rw [if_neg (fun x => hh ⟨hd, x.2⟩), ← Except.ok.inj h, ← hofInt]
  · rw [U256.mul_eq] at *
    rw [← ha, ← hb]
    split at h
    · exact absurd h (by simp)
    · rename_i hh; rw [if_neg (fun x => hh ⟨hd, x.2⟩), ← Except.ok.inj h, ← hofNat]
  · rw [U256.div_eq] at *
    rw [← ha, ← hb]
    split at h
    · exact absurd h (by simp)
    · rename_i hh; rw [if_neg hh, ← Except.ok.inj h, ← hofNat]
  · rw [U256.rem_eq] at *
    rw [← ha, ← hb]
    split at h
    · exact absurd h (by simp)
    · rename_i hh; rw [if_neg hh, ← Except.ok.inj h, ← hofNat]

theorem BinOp.i256_of_ok (op : BinOp) {c c' : Cfg} (hd : c.debugAssertions = true) {a b r a' b' : I256}
    (ha : a.toInt c = a'.toInt c') (hb : b.toInt c = b'.toInt c') (h : op.i256 c a b = .ok r) :
    op.i256 c' a' b' = .ok (I256.ofInt c' (r.toInt c)) := by
  have hofInt : ∀ z, I256.ofInt c' z = I256.ofInt c' ((I256.ofInt c z).toInt c) := fun z =>
    I256.ofInt_congr c' (I256.toInt_ofInt_emod c z).symm
  cases op <;> simp only [BinOp.i256] at *
  · rw [I256.add_eq] at *
    rw [← ha, ← hb]
    split at h
    · exact absurd h (by simp)
    · rename_i hh; rw [if_neg (fun x => hh ⟨hd, x.2⟩), ← Except.ok.inj h, ← hofInt]
  · rw [I256.sub_eq] at *
    rw [← ha, ← hb]
    split at h
    · exact absurd h (by simp)
    · rename_i hh; rw [if_neg (fun x => hh ⟨hd, x.2⟩), ← Except.ok.inj h, ← hofInt]
  · rw [I256.mul_eq] at *
    rw [← ha, ← hb]
    split at h
    · exact absurd h (by simp)
    · rename_i hh; rw [if_neg (fun x => hh ⟨hd, x.2⟩), ← Except.ok.inj h, ← hofInt]
  · rw [I256.div_eq] at *
    rw [← ha, ← hb]
    split at h
    · exact absurd h (by simp)
    · rename_i hh; rw [if_neg hh, ← Except.ok.inj h, ← hofInt]
  · rw [I256.rem_eq] at *
    rw [← ha, ← hb]
    split at h
    · exact absurd h (by simp)
    · rename_i hh; rw [if_neg hh, ← Except.ok.inj h, ← hofInt]

theorem BinOp.u256Assign_ok (op : BinOp) (c : Cfg) (a b r : U256) :
    op.u256Assign c a b = .ok r ↔ op.u256 c a b = .ok r := by
  have h := C26_u256 c a b (.u256 b)
  cases op <;> simp only [BinOp.u256, BinOp.u256Assign]
  · rw [h.1]
  · rw [h.2.1]
  · rw [h.2.2.1]
  · rw [h.2.2.2.1]
  · exact h.2.2.2.2.1.1 r

theorem BinOp.i256Assign_ok (op : BinOp) (c : Cfg) (a b r : I256) :
    op.i256Assign c a b = .ok r ↔ op.i256 c a b = .ok r := by
  have h := C26_i256 c a b (.i256 b)
  cases op <;> simp only [BinOp.i256, BinOp.i256Assign]
  · rw [h.1]
  · rw [h.2.1]
  · rw [h.2.2.1]
  · rw [h.2.2.2.1]
  · exact h.2.2.2.2.1.1 r

/-- C42 for `U256`: when `a op b` returns in a debug build `c`, then in every build `c'` both `a op b` and
`a op= b` return the same number. -/
theorem C42_u256 (op : BinOp) (c c' : Cfg) (hd : c.debugAssertions = true) (a b r a' b' : U256)
    (ha : a.toNat c = a'.toNat c') (hb : b.toNat c = b'.toNat c') (h : op.u256 c a b = .ok r) :
    ∃ r', op.u256 c' a' b' = .ok r' ∧ op.u256Assign c' a' b' = .ok r' ∧ r'.toNat c' = r.toNat c :=
  ⟨_, op.u256_of_ok hd ha hb h, (op.u256Assign_ok c' a' b' _).2 (op.u256_of_ok hd ha hb h),
    U256.toNat_ofNat_of_lt c' (U256.toNat_lt c r)⟩

example : dbg.debugAssertions = true ∧ BinOp.add.u256 dbg (U256.ofNat dbg 9) (U256.ofNat dbg 4) = .ok (U256.ofNat dbg 13)
    ∧ (U256.ofNat dbg 9).toNat dbg = (U256.ofNat rel 9).toNat rel
    ∧ BinOp.add.u256 rel (U256.ofNat rel 9) (U256.ofNat rel 4) = .ok (U256.ofNat rel 13) := by decide +kernel

/-- C42 for `I256`. -/
theorem C42_i256 (op : BinOp) (c c' : Cfg) (hd : c.debugAssertions = true) (a b r a' b' : I256)
    (ha : a.toInt c = a'.toInt c') (hb : b.toInt c = b'.toInt c') (h : op.i256 c a b = .ok r) :
    ∃ r', op.i256 c' a' b' = .ok r' ∧ op.i256Assign c' a' b' = .ok r' ∧ r'.toInt c' = r.toInt c :=
  ⟨_, op.i256_of_ok hd ha hb h, (op.i256Assign_ok c' a' b' _).2 (op.i256_of_ok hd ha hb h),
    I256.toInt_ofInt_of_in c' (I256.toInt_in c r)⟩

example : dbg.debugAssertions = true ∧ (U256.ofNat dbg 77).toNat dbg = (U256.ofNat rel 77).toNat rel
    ∧ BinOp.sub.u256 dbg (U256.ofNat dbg 77) (U256.ofNat dbg 7) = .ok (U256.ofNat dbg 70)
    ∧ BinOp.sub.u256 rel (U256.ofNat rel 77) (U256.ofNat rel 7) = .ok (U256.ofNat rel 70) := by decide

/-- C42 for negation. -/
theorem C42_neg (c c' : Cfg) (hd : c.debugAssertions = true) (a r a' : I256)
    (ha : a.toInt c = a'.toInt c') (h : a.neg c = .ok r) :
    ∃ r', a'.neg c' = .ok r' ∧ r'.toInt c' = r.toInt c := by
  rw [(C25_i256 c a a).2.2.2] at h
  rw [(C25_i256 c' a' a').2.2.2, ← ha]
  split at h
  · exact absurd h (by simp)
  · rename_i hh
    have hin : InI256 (-a.toInt c) := by
      by_contra hn; exact hh ⟨hd, hn⟩
    rw [if_neg (fun x => x.2 hin)]
    refine ⟨_, rfl, ?_⟩
    rw [← Except.ok.inj h, I256.toInt_ofInt_of_in c hin, I256.toInt_ofInt_of_in c' hin]

example : dbg.debugAssertions = true ∧ (I256.ofInt dbg 9).neg dbg = .ok (I256.ofInt dbg (-9))
    ∧ (I256.ofInt dbg 9).toInt dbg = (I256.ofInt rel 9).toInt rel := by decide +kernel

/-- C42 for shifts: a shift that returns in a debug build returns the same number in every build. `b` and
`b'` are the same amount in the two builds. -/
theorem C42_shift (c c' : Cfg) (hd : c.debugAssertions = true) (a r a' : U256) (s t s' : I256)
    (b : ShiftBy c) (b' : ShiftBy c') (hb : b.value = b'.value)
    (ha : a.toNat c = a'.toNat c') (hs : s.toInt c = s'.toInt c') :
    (a.shlBy c b = .ok r → ∃ r', a'.shlBy c' b' = .ok r' ∧ a'.shlAssignBy c' b' = .ok r' ∧ r'.toNat c' = r.toNat c)
    ∧ (a.shrBy c b = .ok r → ∃ r', a'.shrBy c' b' = .ok r' ∧ a'.shrAssignBy c' b' = .ok r' ∧ r'.toNat c' = r.toNat c)
    ∧ (s.shlBy c b = .ok t → ∃ r', s'.shlBy c' b' = .ok r' ∧ s'.shlAssignBy c' b' = .ok r' ∧ r'.toInt c' = t.toInt c)
    ∧ (s.shrBy c b = .ok t → ∃ r', s'.shrBy c' b' = .ok r' ∧ s'.shrAssignBy c' b' = .ok r' ∧ r'.toInt c' = t.toInt c) := by
  have hu := C26_u256 c' a' a' b'
  have hi := C26_i256 c' s' s' b'
  rw [hu.2.2.2.2.2.1, hu.2.2.2.2.2.2.1, hi.2.2.2.2.2.1, hi.2.2.2.2.2.2.1]
  by_cases h : 0 ≤ b.value ∧ b.value < 256
  · obtain ⟨h1, h2, h3, h4⟩ := C12_in_range c a s b h.1 h.2
    obtain ⟨h1', h2', h3', h4'⟩ := C12_in_range c' a' s' b' (hb ▸ h.1) (hb ▸ h.2)
    rw [h1, h2, h3, h4, h1', h2', h3', h4', ← hb, ← ha, ← hs]
    refine ⟨fun e => ⟨_, rfl, rfl, ?_⟩, fun e => ⟨_, rfl, rfl, ?_⟩, fun e => ⟨_, rfl, rfl, ?_⟩,
      fun e => ⟨_, rfl, rfl, ?_⟩⟩ <;> rw [← Except.ok.inj e]
    · rw [U256.toNat_ofNat, U256.toNat_ofNat]
    · rw [U256.toNat_ofNat, U256.toNat_ofNat]
    · rw [I256.toInt_ofInt, I256.toInt_ofInt]
    · rw [I256.toInt_ofInt, I256.toInt_ofInt]
  · obtain ⟨⟨_, h1⟩, ⟨_, h2⟩, ⟨_, h3⟩, ⟨_, h4⟩⟩ := C12_debug c hd a s b h
    rw [h1, h2, h3, h4]
    exact ⟨fun e => by simp at e, fun e => by simp at e, fun e => by simp at e, fun e => by simp at e⟩

example : (ShiftBy.prim (c := dbg) .u8 200).value = (ShiftBy.prim (c := rel) .u8 200).value
    ∧ (U256.ONE dbg).shlBy dbg (.prim .u8 200) = .ok (U256.ofNat dbg (2 ^ 200)) := by decide

/-! ### C45 -/

theorem modEq_of_eq {n a b : Int} (h : a = b) : a ≡ b [ZMOD n] := h ▸ rfl

/-- C45 for `U256`: wrapping addition and multiplication form a commutative ring with zero `ZERO`, one `ONE`,
negation `wrapping_neg`, and subtraction is addition of the negation. -/
theorem C45_u256_ring (c : Cfg) (x y z : U256) :
    x.wrapping_add c y = y.wrapping_add c x
    ∧ (x.wrapping_add c y).wrapping_add c z = x.wrapping_add c (y.wrapping_add c z)
    ∧ x.wrapping_add c U256.ZERO = x
    ∧ x.wrapping_add c (x.wrapping_neg c) = U256.ZERO
    ∧ x.wrapping_sub c y = x.wrapping_add c (y.wrapping_neg c)
    ∧ x.wrapping_mul c y = y.wrapping_mul c x
    ∧ (x.wrapping_mul c y >>= fun p => p.wrapping_mul c z) = (y.wrapping_mul c z >>= fun p => x.wrapping_mul c p)
    ∧ x.wrapping_mul c (U256.ONE c) = .ok x
    ∧ x.wrapping_mul c (y.wrapping_add c z)
      = (do return (← x.wrapping_mul c y).wrapping_add c (← x.wrapping_mul c z)) := by
  have hadd : ∀ x y : U256, x.wrapping_add c y = U256.ofNat c (x.toNat c + y.toNat c) := fun x y =>
    (C02_wrapping c x y).1
  have hneg : ∀ x : U256, x.wrapping_neg c = U256.ofInt c (-(x.toNat c : Int)) := fun x => (C02_neg c x).1
  have hmul : ∀ x y : U256, x.wrapping_mul c y = .ok (U256.ofNat c (x.toNat c * y.toNat c)) := fun x y =>
    (C03_mul c x y).1
  have hx := U256.toNat_lt c x
  refine ⟨?_, ?_, ?_, ?_, ?_, ?_, ?_, ?_, ?_⟩
  · rw [hadd, hadd, Nat.add_comm]
  · simp only [hadd, U256.toNat_ofNat]; exact U256.ofNat_congr c (by omega)
  · rw [hadd, U256.toNat_ZERO]; exact U256.ofNat_toNat c x
  · rw [hadd, hneg, U256.ZERO_eq c]
    exact U256.ofNat_congr c (by have := U256.toNat_ofInt c (-(x.toNat c : Int)); omega)
  · rw [hadd, hneg, (C02_wrapping c x y).2.1, ← U256.ofInt_natCast]
    have hh := U256.toNat_ofInt c (-(y.toNat c : Int))
    apply U256.eq_ofInt
    rw [U256.toNat_ofInt]
    rw [Int.natCast_add, hh, Int.add_emod (x.toNat c : Int) (_ % _), Int.emod_emod_of_dvd _ (Int.dvd_refl _), ← Int.add_emod]; rfl
  · rw [hmul, hmul, Nat.mul_comm]
  · simp only [hmul, ok_bind, U256.toNat_ofNat]
    refine congrArg _ (U256.ofNat_congr c ?_)
    rw [Nat.mod_mul_mod, Nat.mul_mod_mod, Nat.mul_assoc]
  · rw [hmul, U256.toNat_ONE, Nat.mul_one, U256.ofNat_toNat]
  · simp only [hmul, hadd, ok_bind, U256.toNat_ofNat]
    refine congrArg _ (U256.ofNat_congr c ?_)
    rw [Nat.mul_mod_mod, ← Nat.add_mod, Nat.mul_add]

example : (U256.MAX).wrapping_mul dbg (U256.MAX.wrapping_add dbg (U256.ofNat dbg 3)) = .ok (U256.ofNat dbg (2 ^ 256 - 2)) := by
  decide +kernel

/-- C45 for `I256`. -/
theorem C45_i256_ring (c : Cfg) (x y z : I256) :
    x.wrapping_add c y = y.wrapping_add c x
    ∧ (x.wrapping_add c y).wrapping_add c z = x.wrapping_add c (y.wrapping_add c z)
    ∧ x.wrapping_add c I256.ZERO = x
    ∧ x.wrapping_add c (x.wrapping_neg c) = I256.ZERO
    ∧ x.wrapping_sub c y = x.wrapping_add c (y.wrapping_neg c)
    ∧ x.wrapping_mul c y = y.wrapping_mul c x
    ∧ (x.wrapping_mul c y >>= fun p => p.wrapping_mul c z) = (y.wrapping_mul c z >>= fun p => x.wrapping_mul c p)
    ∧ x.wrapping_mul c (I256.ONE c) = .ok x
    ∧ x.wrapping_mul c (y.wrapping_add c z)
      = (do return (← x.wrapping_mul c y).wrapping_add c (← x.wrapping_mul c z)) := by
  have hadd : ∀ x y : I256, x.wrapping_add c y = I256.ofInt c (x.toInt c + y.toInt c) := fun x y =>
    (C06_add c x y).1
  have hneg : ∀ x : I256, x.wrapping_neg c = I256.ofInt c (-x.toInt c) := fun x => (C06_neg c x).1
  have hmul : ∀ x y : I256, x.wrapping_mul c y = .ok (I256.ofInt c (x.toInt c * y.toInt c)) := fun x y =>
    (C07_mul c x y).1
  have hm : ∀ z, ((I256.ofInt c z).toInt c) ≡ z [ZMOD 2 ^ 256] := fun z => I256.toInt_ofInt_emod c z
  refine ⟨?_, ?_, ?_, ?_, ?_, ?_, ?_, ?_, ?_⟩
  · rw [hadd, hadd, Int.add_comm]
  · simp only [hadd]
    exact I256.ofInt_congr c (((hm _).add_right _).trans ((modEq_of_eq (by ring)).trans ((hm _).symm.add_left _)))
  · rw [hadd, I256.toInt_ZERO, Int.add_zero, I256.ofInt_toInt]
  · rw [hadd, hneg, I256.ZERO_eq c]
    exact I256.ofInt_congr c (((hm _).add_left _).trans (modEq_of_eq (by ring)))
  · rw [hadd, hneg, (C06_sub c x y).1]
    exact I256.ofInt_congr c ((modEq_of_eq (by ring)).trans ((hm _).symm.add_left _))
  · rw [hmul, hmul, Int.mul_comm]
  · simp only [hmul, ok_bind]
    exact congrArg _ (I256.ofInt_congr c (((hm _).mul_right _).trans ((modEq_of_eq (by ring)).trans ((hm _).symm.mul_left _))))
  · rw [hmul, I256.toInt_ONE, Int.mul_one, I256.ofInt_toInt]
  · simp only [hmul, hadd, ok_bind]
    refine congrArg _ (I256.ofInt_congr c (((hm _).mul_left _).trans ?_))
    exact (modEq_of_eq (by ring)).trans ((hm _).symm.add (hm _).symm)

example : (I256.MIN rel).wrapping_mul rel ((I256.MAX rel).wrapping_add rel (I256.ofInt rel 4)) = .ok (I256.MIN rel) := by
  decide +kernel

/-- C45: `as_i256` is a bijection with inverse `as_u256` that keeps the bits and commutes with the wrapping
operations. -/
theorem C45_casts (c : Cfg) (x y : U256) (s : I256) :
    x.as_i256.as_u256 = x ∧ s.as_u256.as_i256 = s
    ∧ x.as_i256.toNat c = x.toNat c
    ∧ (x.wrapping_add c y).as_i256 = x.as_i256.wrapping_add c y.as_i256
    ∧ (x.wrapping_sub c y).as_i256 = x.as_i256.wrapping_sub c y.as_i256
    ∧ (x.wrapping_neg c).as_i256 = x.as_i256.wrapping_neg c
    ∧ (do return (← x.wrapping_mul c y).as_i256) = x.as_i256.wrapping_mul c y.as_i256
    ∧ (U256.ONE c).as_i256 = I256.ONE c ∧ U256.ZERO.as_i256 = I256.ZERO := by
  have hv : ∀ x : U256, x.as_i256.toInt c ≡ x.toNat c [ZMOD 2 ^ 256] := fun x => by
    have h1 := I256.toNat_toInt c x.as_i256
    rw [I256.toNat_as_i256] at h1
    unfold Int.ModEq
    rw [← h1]; have := U256.toNat_lt c x; omega
  have key : ∀ (u : U256) (z : Int), (u.toNat c : Int) ≡ z [ZMOD 2 ^ 256] → u.as_i256 = I256.ofInt c z := fun u z h => by
    apply I256.eq_ofInt
    rw [I256.toNat_as_i256, ← h]; have := U256.toNat_lt c u; omega
  have hofNat : ∀ n, ((U256.ofNat c n).toNat c : Int) ≡ n [ZMOD 2 ^ 256] := fun n => by
    rw [U256.toNat_ofNat]; unfold Int.ModEq; omega
  have hofInt : ∀ n, ((U256.ofInt c n).toNat c : Int) ≡ n [ZMOD 2 ^ 256] := fun n => by
    rw [U256.toNat_ofInt]; exact Int.mod_modEq _ _
  refine ⟨rfl, rfl, I256.toNat_as_i256 c x, ?_, ?_, ?_, ?_, ?_, rfl⟩
  · rw [(C02_wrapping c x y).1, (C06_add c _ _).1]
    apply key
    refine (hofNat _).trans ?_
    push_cast
    exact ((hv x).add (hv y)).symm
  · rw [(C02_wrapping c x y).2.1, (C06_sub c _ _).1]
    exact key _ _ ((hofInt _).trans ((hv x).sub (hv y)).symm)
  · rw [(C02_neg c x).1, (C06_neg c _).1]
    exact key _ _ ((hofInt _).trans (hv x).neg.symm)
  · rw [(C03_mul c x y).1, (C07_mul c _ _).1, ok_bind]
    refine congrArg _ (key _ _ ((hofNat _).trans ?_))
    push_cast
    exact ((hv x).mul (hv y)).symm
  · rw [I256.ONE_eq]; exact key _ _ (by rw [U256.toNat_ONE]; rfl)

example : (U256.MAX.wrapping_mul dbg U256.MAX) = .ok (U256.ONE dbg)
    ∧ ((I256.MINUS_ONE dbg).wrapping_mul dbg (I256.MINUS_ONE dbg)) = .ok (I256.ONE dbg) := by decide +kernel

end Ethnum
