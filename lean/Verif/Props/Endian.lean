import Verif.Proofs.Endian.Serde
import Verif.Props.Repr

/-
C43: byte order is unobservable.

Two runs are compared, one on the target of `c` and one on the target of `c.other`, which differs from it in the
byte order only. `Same c x y` says that an observer cannot tell `x`, held by the first run, from `y`, held by the
second: integers of 256 bits must denote the same number, everything else must be equal. For functions it is the
usual logical relation: indistinguishable arguments give indistinguishable results, including panics.
-/

namespace Ethnum

/-! ### Specification -/

/-- Indistinguishable values of two targets that differ in the byte order. -/
class Obs (α : Type) where
  Same : Cfg → α → α → Prop
export Obs (Same)

/-- Two `U256` are the same if they denote the same number, each on its target. -/
instance : Obs U256 := ⟨fun c x y => x.toNat c = y.toNat c.other⟩
/-- Two `I256` are the same if they denote the same number, each on its target. -/
instance : Obs I256 := ⟨fun c x y => x.toInt c = y.toInt c.other⟩
instance {w : Nat} : Obs (BitVec w) := ⟨fun _ x y => x = y⟩
instance : Obs Bool := ⟨fun _ x y => x = y⟩
instance : Obs Nat := ⟨fun _ x y => x = y⟩
instance : Obs Ordering := ⟨fun _ x y => x = y⟩
instance : Obs Char := ⟨fun _ x y => x = y⟩
instance : Obs Formatter := ⟨fun _ x y => x = y⟩
instance : Obs Radix := ⟨fun _ x y => x = y⟩
instance : Obs Serde.Datum := ⟨fun _ x y => x = y⟩
instance : Obs Serde.Chunking := ⟨fun _ x y => x = y⟩
instance : Obs Serde.Order := ⟨fun _ x y => x = y⟩
instance : Obs Serde.Input := ⟨fun _ x y => x = y⟩
/-- Lists of the same length with the same elements. -/
instance {α : Type} [Obs α] : Obs (List α) := ⟨fun c x y => List.Forall₂ (Same c) x y⟩
instance {α β : Type} [Obs α] [Obs β] : Obs (α × β) := ⟨fun c x y => Same c x.1 y.1 ∧ Same c x.2 y.2⟩
instance {α : Type} [Obs α] : Obs (Option α) :=
  ⟨fun c x y => match x, y with
    | none, none => True
    | some x, some y => Same c x y
    | _, _ => False⟩
/-- Both return, and the results are the same, or both fail in the same way. -/
instance {α ε : Type} [Obs α] : Obs (Except ε α) :=
  ⟨fun c x y => match x, y with
    | .error e, .error f => e = f
    | .ok x, .ok y => Same c x y
    | _, _ => False⟩
/-- Functions that take the same arguments to the same results. -/
instance {α β : Type} [Obs α] [Obs β] : Obs (α → β) := ⟨fun c f g => ∀ a b, Same c a b → Same c (f a) (g b)⟩

/-- A function of the library, which may depend on the target, does not reveal the byte order. -/
def Unobservable {α : Type} [Obs α] (f : Cfg → α) : Prop := ∀ c, Same c (f c) (f c.other)

/-! ### From the equations of Verif/Proofs/Endian to the specification -/

/-- The relation is the graph of `mv`. -/
class ObsMv (α : Type) extends Obs α, Mv α where
  same_iff : ∀ c (x y : α), Same c x y ↔ y = mv x

instance : ObsMv U256 := ⟨fun c x y => by
  show x.toNat c = y.toNat c.other ↔ _
  rw [← U256.toNat_mv c x]
  exact ⟨fun h => (U256.toNat_inj c.other h).symm, fun h => by rw [h]⟩⟩
instance : ObsMv I256 := ⟨fun c x y => by
  show x.toInt c = y.toInt c.other ↔ _
  rw [← I256.toInt_mv c x]
  exact ⟨fun h => (I256.toInt_inj c.other h).symm, fun h => by rw [h]⟩⟩
instance {w : Nat} : ObsMv (BitVec w) := ⟨fun _ _ _ => eq_comm⟩
instance : ObsMv Bool := ⟨fun _ _ _ => eq_comm⟩
instance : ObsMv Nat := ⟨fun _ _ _ => eq_comm⟩
instance : ObsMv Ordering := ⟨fun _ _ _ => eq_comm⟩
instance : ObsMv Char := ⟨fun _ _ _ => eq_comm⟩
instance : MvId Formatter := { mv := fun x => x, inv := fun _ => rfl, id := fun _ => rfl }
instance : MvId Radix := { mv := fun x => x, inv := fun _ => rfl, id := fun _ => rfl }
instance : MvId Serde.Chunking := { mv := fun x => x, inv := fun _ => rfl, id := fun _ => rfl }
instance : MvId Serde.Order := { mv := fun x => x, inv := fun _ => rfl, id := fun _ => rfl }
instance : MvId Serde.Input := { mv := fun x => x, inv := fun _ => rfl, id := fun _ => rfl }
instance : ObsMv Formatter := ⟨fun _ _ _ => eq_comm⟩
instance : ObsMv Radix := ⟨fun _ _ _ => eq_comm⟩
instance : ObsMv Serde.Datum := ⟨fun _ _ _ => eq_comm⟩
instance : ObsMv Serde.Chunking := ⟨fun _ _ _ => eq_comm⟩
instance : ObsMv Serde.Order := ⟨fun _ _ _ => eq_comm⟩
instance : ObsMv Serde.Input := ⟨fun _ _ _ => eq_comm⟩
instance {α : Type} [ObsMv α] : ObsMv (List α) := ⟨fun c x y => by
  show List.Forall₂ (Same c) x y ↔ y = x.map mv
  induction x generalizing y with
  | nil => simp
  | cons a x ih =>
    cases y with
    | nil => simp
    | cons b y => simp [ih, ObsMv.same_iff]⟩
instance {α β : Type} [ObsMv α] [ObsMv β] : ObsMv (α × β) := ⟨fun c x y => by
  show Same c x.1 y.1 ∧ Same c x.2 y.2 ↔ y = (mv x.1, mv x.2)
  rw [ObsMv.same_iff, ObsMv.same_iff, Prod.ext_iff]⟩
instance {α : Type} [ObsMv α] : ObsMv (Option α) := ⟨fun c x y => by
  cases x <;> cases y <;> simp [Same, mv_push, ← ObsMv.same_iff c]⟩
instance {α ε : Type} [ObsMv α] : ObsMv (Except ε α) := ⟨fun c x y => by
  cases x <;> cases y <;> simp [Same, mv_push, ← ObsMv.same_iff c, eq_comm]⟩

theorem un0 {α : Type} [ObsMv α] {f : Cfg → α} (h : ∀ c, f c.other = mv (f c)) : Unobservable f :=
  fun c => (ObsMv.same_iff c _ _).2 (h c)
theorem un1 {α β : Type} [ObsMv α] [ObsMv β] {f : Cfg → α → β} (h : ∀ c a, f c.other (mv a) = mv (f c a)) :
    Unobservable f := fun c a a' ha => by
  rw [ObsMv.same_iff] at ha; subst ha
  exact (ObsMv.same_iff c _ _).2 (h c a)
theorem un2 {α β γ : Type} [ObsMv α] [ObsMv β] [ObsMv γ] {f : Cfg → α → β → γ}
    (h : ∀ c a b, f c.other (mv a) (mv b) = mv (f c a b)) : Unobservable f := fun c a a' ha b b' hb => by
  rw [ObsMv.same_iff] at ha hb; subst ha hb
  exact (ObsMv.same_iff c _ _).2 (h c a b)
theorem un3 {α β γ δ : Type} [ObsMv α] [ObsMv β] [ObsMv γ] [ObsMv δ] {f : Cfg → α → β → γ → δ}
    (h : ∀ c a b d, f c.other (mv a) (mv b) (mv d) = mv (f c a b d)) : Unobservable f :=
  fun c a a' ha b b' hb d d' hd => by
  rw [ObsMv.same_iff] at ha hb hd; subst ha hb hd
  exact (ObsMv.same_iff c _ _).2 (h c a b d)

/-- Apply the equation of one function. -/
macro "obs " h:ident : tactic => `(tactic| (intros; simp only [$h:ident, mv_base, Mv.inv]))

/-- A little-endian and a big-endian target for the concrete instances. -/
def le : Cfg := ⟨false, true, true, .w64, false⟩
def be : Cfg := ⟨true, true, true, .w64, false⟩

/-- The relation does tell values apart: the same two words in memory are another number on the other target. -/
example : ¬ Same le (⟨1, 2⟩ : U256) ⟨1, 2⟩ ∧ Same le (⟨1, 2⟩ : U256) ⟨2, 1⟩ := by
  constructor
  · show ¬ (_ = _); decide
  · show _ = _; decide

/-! ### C43 -/

/-- C43: words and constants. -/
theorem C43_words :
    Unobservable U256.from_words
    ∧ Unobservable U256.into_words
    ∧ Unobservable U256.low
    ∧ Unobservable U256.high
    ∧ Unobservable U256.set_low
    ∧ Unobservable U256.set_high
    ∧ Unobservable U256.new
    ∧ Unobservable (fun _ => U256.ZERO)
    ∧ Unobservable U256.ONE
    ∧ Unobservable (fun _ => U256.MIN)
    ∧ Unobservable (fun _ => U256.MAX)
    ∧ Unobservable I256.from_words
    ∧ Unobservable I256.into_words
    ∧ Unobservable I256.low
    ∧ Unobservable I256.high
    ∧ Unobservable I256.set_low
    ∧ Unobservable I256.set_high
    ∧ Unobservable I256.new
    ∧ Unobservable (fun _ => I256.ZERO)
    ∧ Unobservable I256.ONE
    ∧ Unobservable I256.MINUS_ONE
    ∧ Unobservable I256.MIN
    ∧ Unobservable I256.MAX
    ∧ Unobservable (fun _ => I256.as_u256)
    ∧ Unobservable (fun _ => U256.as_i256) :=
  ⟨un2 (by obs U256.from_words_mv),
   un1 (by obs U256.into_words_mv),
   un1 (by obs U256.low_mv),
   un1 (by obs U256.high_mv),
   un2 (by obs U256.set_low_mv),
   un2 (by obs U256.set_high_mv),
   un1 (by obs U256.new_mv),
   un0 (by obs U256.ZERO_mv),
   un0 (by obs U256.ONE_mv),
   un0 (by obs U256.MIN_mv),
   un0 (by obs U256.MAX_mv),
   un2 (by obs I256.from_words_mv),
   un1 (by obs I256.into_words_mv),
   un1 (by obs I256.low_mv),
   un1 (by obs I256.high_mv),
   un2 (by obs I256.set_low_mv),
   un2 (by obs I256.set_high_mv),
   un1 (by obs I256.new_mv),
   un0 (by obs I256.ZERO_mv),
   un0 (by obs I256.ONE_mv),
   un0 (by obs I256.MINUS_ONE_mv),
   un0 (by obs I256.MIN_mv),
   un0 (by obs I256.MAX_mv),
   un1 (by obs I256.as_u256_mv),
   un1 (by obs U256.as_i256_mv)⟩

example : U256.from_words le 3 7 ≠ U256.from_words be 3 7
    ∧ (U256.from_words le 3 7).toNat le = (U256.from_words be 3 7).toNat be := by decide

/-- C43: comparison, between two values and with a primitive. -/
theorem C43_comparison :
    Unobservable U256.cmp
    ∧ Unobservable U256.eq
    ∧ Unobservable U256.ne
    ∧ Unobservable U256.partial_cmp
    ∧ Unobservable U256.lt
    ∧ Unobservable U256.le
    ∧ Unobservable U256.gt
    ∧ Unobservable U256.ge
    ∧ Unobservable U256.eq_prim
    ∧ Unobservable U256.prim_eq
    ∧ Unobservable U256.partial_cmp_prim
    ∧ Unobservable U256.prim_partial_cmp
    ∧ Unobservable U256.lt_prim
    ∧ Unobservable U256.le_prim
    ∧ Unobservable U256.gt_prim
    ∧ Unobservable U256.ge_prim
    ∧ Unobservable I256.cmp
    ∧ Unobservable I256.eq
    ∧ Unobservable I256.ne
    ∧ Unobservable I256.partial_cmp
    ∧ Unobservable I256.lt
    ∧ Unobservable I256.le
    ∧ Unobservable I256.gt
    ∧ Unobservable I256.ge
    ∧ Unobservable I256.eq_prim
    ∧ Unobservable I256.prim_eq
    ∧ Unobservable I256.partial_cmp_prim
    ∧ Unobservable I256.prim_partial_cmp
    ∧ Unobservable I256.lt_prim
    ∧ Unobservable I256.le_prim
    ∧ Unobservable I256.gt_prim
    ∧ Unobservable I256.ge_prim :=
  ⟨un2 (by obs U256.cmp_mv),
   un2 (by obs U256.eq_mv),
   un2 (by obs U256.ne_mv),
   un2 (by obs U256.partial_cmp_mv),
   un2 (by obs U256.lt_mv),
   un2 (by obs U256.le_mv),
   un2 (by obs U256.gt_mv),
   un2 (by obs U256.ge_mv),
   un2 (by obs U256.eq_prim_mv),
   un2 (by obs U256.prim_eq_mv),
   un2 (by obs U256.partial_cmp_prim_mv),
   un2 (by obs U256.prim_partial_cmp_mv),
   un2 (by obs U256.lt_prim_mv),
   un2 (by obs U256.le_prim_mv),
   un2 (by obs U256.gt_prim_mv),
   un2 (by obs U256.ge_prim_mv),
   un2 (by obs I256.cmp_mv),
   un2 (by obs I256.eq_mv),
   un2 (by obs I256.ne_mv),
   un2 (by obs I256.partial_cmp_mv),
   un2 (by obs I256.lt_mv),
   un2 (by obs I256.le_mv),
   un2 (by obs I256.gt_mv),
   un2 (by obs I256.ge_mv),
   un2 (by obs I256.eq_prim_mv),
   un2 (by obs I256.prim_eq_mv),
   un2 (by obs I256.partial_cmp_prim_mv),
   un2 (by obs I256.prim_partial_cmp_mv),
   un2 (by obs I256.lt_prim_mv),
   un2 (by obs I256.le_prim_mv),
   un2 (by obs I256.gt_prim_mv),
   un2 (by obs I256.ge_prim_mv)⟩

example : U256.lt le (U256.from_words le 1 9) (U256.from_words le 2 3) = true
    ∧ U256.lt be (U256.from_words be 1 9) (U256.from_words be 2 3) = true
    ∧ U256.lt be (U256.from_words le 1 9) (U256.from_words le 2 3) = false := by decide

/-- C43: bitwise operators and functions on bits. -/
theorem C43_bitwise :
    Unobservable (fun _ => U256.not)
    ∧ Unobservable (fun _ => U256.bitand)
    ∧ Unobservable (fun _ => U256.bitor)
    ∧ Unobservable (fun _ => U256.bitxor)
    ∧ Unobservable (fun _ => U256.bitand_assign)
    ∧ Unobservable (fun _ => U256.bitor_assign)
    ∧ Unobservable (fun _ => U256.bitxor_assign)
    ∧ Unobservable U256.count_ones
    ∧ Unobservable U256.count_zeros
    ∧ Unobservable U256.leading_zeros
    ∧ Unobservable U256.trailing_zeros
    ∧ Unobservable U256.leading_ones
    ∧ Unobservable U256.trailing_ones
    ∧ Unobservable U256.rotate_left
    ∧ Unobservable U256.rotate_right
    ∧ Unobservable (fun _ => U256.swap_bytes)
    ∧ Unobservable (fun _ => U256.reverse_bits)
    ∧ Unobservable (fun _ => I256.not)
    ∧ Unobservable (fun _ => I256.bitand)
    ∧ Unobservable (fun _ => I256.bitor)
    ∧ Unobservable (fun _ => I256.bitxor)
    ∧ Unobservable (fun _ => I256.bitand_assign)
    ∧ Unobservable (fun _ => I256.bitor_assign)
    ∧ Unobservable (fun _ => I256.bitxor_assign)
    ∧ Unobservable I256.count_ones
    ∧ Unobservable I256.count_zeros
    ∧ Unobservable I256.leading_zeros
    ∧ Unobservable I256.trailing_zeros
    ∧ Unobservable I256.leading_ones
    ∧ Unobservable I256.trailing_ones
    ∧ Unobservable I256.rotate_left
    ∧ Unobservable I256.rotate_right
    ∧ Unobservable (fun _ => I256.swap_bytes)
    ∧ Unobservable (fun _ => I256.reverse_bits) :=
  ⟨un1 (by obs U256.not_mv),
   un2 (by obs U256.bitand_mv),
   un2 (by obs U256.bitor_mv),
   un2 (by obs U256.bitxor_mv),
   un2 (by obs U256.bitand_assign_mv),
   un2 (by obs U256.bitor_assign_mv),
   un2 (by obs U256.bitxor_assign_mv),
   un1 (by obs U256.count_ones_mv),
   un1 (by obs U256.count_zeros_mv),
   un1 (by obs U256.leading_zeros_mv),
   un1 (by obs U256.trailing_zeros_mv),
   un1 (by obs U256.leading_ones_mv),
   un1 (by obs U256.trailing_ones_mv),
   un2 (by obs U256.rotate_left_mv),
   un2 (by obs U256.rotate_right_mv),
   un1 (by obs U256.swap_bytes_mv),
   un1 (by obs U256.reverse_bits_mv),
   un1 (by obs I256.not_mv),
   un2 (by obs I256.bitand_mv),
   un2 (by obs I256.bitor_mv),
   un2 (by obs I256.bitxor_mv),
   un2 (by obs I256.bitand_assign_mv),
   un2 (by obs I256.bitor_assign_mv),
   un2 (by obs I256.bitxor_assign_mv),
   un1 (by obs I256.count_ones_mv),
   un1 (by obs I256.count_zeros_mv),
   un1 (by obs I256.leading_zeros_mv),
   un1 (by obs I256.trailing_zeros_mv),
   un1 (by obs I256.leading_ones_mv),
   un1 (by obs I256.trailing_ones_mv),
   un2 (by obs I256.rotate_left_mv),
   un2 (by obs I256.rotate_right_mv),
   un1 (by obs I256.swap_bytes_mv),
   un1 (by obs I256.reverse_bits_mv)⟩

example : U256.leading_zeros le (U256.from_words le 1 0) = .ok 127
    ∧ U256.leading_zeros be (U256.from_words be 1 0) = .ok 127 := by decide +kernel

/-- C43: shifts by a `u32`. -/
theorem C43_shift :
    Unobservable U256.shl
    ∧ Unobservable U256.shr
    ∧ Unobservable U256.shl_assign
    ∧ Unobservable U256.shr_assign
    ∧ Unobservable U256.wrapping_shl
    ∧ Unobservable U256.wrapping_shr
    ∧ Unobservable U256.overflowing_shl
    ∧ Unobservable U256.overflowing_shr
    ∧ Unobservable U256.checked_shl
    ∧ Unobservable U256.checked_shr
    ∧ Unobservable I256.shl
    ∧ Unobservable I256.shr
    ∧ Unobservable I256.shl_assign
    ∧ Unobservable I256.shr_assign
    ∧ Unobservable I256.wrapping_shl
    ∧ Unobservable I256.wrapping_shr
    ∧ Unobservable I256.overflowing_shl
    ∧ Unobservable I256.overflowing_shr
    ∧ Unobservable I256.checked_shl
    ∧ Unobservable I256.checked_shr :=
  ⟨un2 (by obs U256.shl_mv),
   un2 (by obs U256.shr_mv),
   un2 (by obs U256.shl_assign_mv),
   un2 (by obs U256.shr_assign_mv),
   un2 (by obs U256.wrapping_shl_mv),
   un2 (by obs U256.wrapping_shr_mv),
   un2 (by obs U256.overflowing_shl_mv),
   un2 (by obs U256.overflowing_shr_mv),
   un2 (by obs U256.checked_shl_mv),
   un2 (by obs U256.checked_shr_mv),
   un2 (by obs I256.shl_mv),
   un2 (by obs I256.shr_mv),
   un2 (by obs I256.shl_assign_mv),
   un2 (by obs I256.shr_assign_mv),
   un2 (by obs I256.wrapping_shl_mv),
   un2 (by obs I256.wrapping_shr_mv),
   un2 (by obs I256.overflowing_shl_mv),
   un2 (by obs I256.overflowing_shr_mv),
   un2 (by obs I256.checked_shl_mv),
   un2 (by obs I256.checked_shr_mv)⟩

example : U256.shl le (U256.ONE le) 130 = .ok (U256.from_words le 4 0)
    ∧ U256.shl be (U256.ONE be) 130 = .ok (U256.from_words be 4 0) := by decide +kernel

/-- C43: addition, subtraction, multiplication and negation on `U256`. -/
theorem C43_u256_arithmetic :
    Unobservable U256.add
    ∧ Unobservable U256.sub
    ∧ Unobservable U256.mul
    ∧ Unobservable U256.add_assign
    ∧ Unobservable U256.sub_assign
    ∧ Unobservable U256.mul_assign
    ∧ Unobservable U256.overflowing_add
    ∧ Unobservable U256.wrapping_add
    ∧ Unobservable U256.checked_add
    ∧ Unobservable U256.saturating_add
    ∧ Unobservable U256.overflowing_add_signed
    ∧ Unobservable U256.checked_add_signed
    ∧ Unobservable U256.saturating_add_signed
    ∧ Unobservable U256.wrapping_add_signed
    ∧ Unobservable U256.overflowing_sub
    ∧ Unobservable U256.wrapping_sub
    ∧ Unobservable U256.checked_sub
    ∧ Unobservable U256.saturating_sub
    ∧ Unobservable U256.abs_diff
    ∧ Unobservable U256.overflowing_neg
    ∧ Unobservable U256.wrapping_neg
    ∧ Unobservable U256.checked_neg
    ∧ Unobservable U256.overflowing_mul
    ∧ Unobservable U256.wrapping_mul
    ∧ Unobservable U256.checked_mul
    ∧ Unobservable U256.saturating_mul :=
  ⟨un2 (by obs U256.add_mv),
   un2 (by obs U256.sub_mv),
   un2 (by obs U256.mul_mv),
   un2 (by obs U256.add_assign_mv),
   un2 (by obs U256.sub_assign_mv),
   un2 (by obs U256.mul_assign_mv),
   un2 (by obs U256.overflowing_add_mv),
   un2 (by obs U256.wrapping_add_mv),
   un2 (by obs U256.checked_add_mv),
   un2 (by obs U256.saturating_add_mv),
   un2 (by obs U256.overflowing_add_signed_mv),
   un2 (by obs U256.checked_add_signed_mv),
   un2 (by obs U256.saturating_add_signed_mv),
   un2 (by obs U256.wrapping_add_signed_mv),
   un2 (by obs U256.overflowing_sub_mv),
   un2 (by obs U256.wrapping_sub_mv),
   un2 (by obs U256.checked_sub_mv),
   un2 (by obs U256.saturating_sub_mv),
   un2 (by obs U256.abs_diff_mv),
   un1 (by obs U256.overflowing_neg_mv),
   un1 (by obs U256.wrapping_neg_mv),
   un1 (by obs U256.checked_neg_mv),
   un2 (by obs U256.overflowing_mul_mv),
   un2 (by obs U256.wrapping_mul_mv),
   un2 (by obs U256.checked_mul_mv),
   un2 (by obs U256.saturating_mul_mv)⟩

example : U256.mul le (U256.from_words le 1 1) (U256.from_words le 0 5) = .ok (U256.from_words le 5 5)
    ∧ U256.mul be (U256.from_words be 1 1) (U256.from_words be 0 5) = .ok (U256.from_words be 5 5) := by decide +kernel

/-- C43: addition, subtraction, multiplication, negation, sign and absolute value on `I256`. -/
theorem C43_i256_arithmetic :
    Unobservable I256.add
    ∧ Unobservable I256.sub
    ∧ Unobservable I256.mul
    ∧ Unobservable I256.add_assign
    ∧ Unobservable I256.sub_assign
    ∧ Unobservable I256.mul_assign
    ∧ Unobservable I256.neg
    ∧ Unobservable I256.overflowing_add
    ∧ Unobservable I256.wrapping_add
    ∧ Unobservable I256.checked_add
    ∧ Unobservable I256.saturating_add
    ∧ Unobservable I256.overflowing_sub
    ∧ Unobservable I256.wrapping_sub
    ∧ Unobservable I256.checked_sub
    ∧ Unobservable I256.saturating_sub
    ∧ Unobservable I256.overflowing_add_unsigned
    ∧ Unobservable I256.checked_add_unsigned
    ∧ Unobservable I256.saturating_add_unsigned
    ∧ Unobservable I256.wrapping_add_unsigned
    ∧ Unobservable I256.overflowing_sub_unsigned
    ∧ Unobservable I256.checked_sub_unsigned
    ∧ Unobservable I256.saturating_sub_unsigned
    ∧ Unobservable I256.wrapping_sub_unsigned
    ∧ Unobservable I256.overflowing_neg
    ∧ Unobservable I256.checked_neg
    ∧ Unobservable I256.saturating_neg
    ∧ Unobservable I256.wrapping_neg
    ∧ Unobservable I256.checked_abs
    ∧ Unobservable I256.saturating_abs
    ∧ Unobservable I256.wrapping_abs
    ∧ Unobservable I256.unsigned_abs
    ∧ Unobservable I256.overflowing_abs
    ∧ Unobservable I256.abs
    ∧ Unobservable I256.abs_diff
    ∧ Unobservable I256.overflowing_mul
    ∧ Unobservable I256.wrapping_mul
    ∧ Unobservable I256.checked_mul
    ∧ Unobservable I256.saturating_mul
    ∧ Unobservable I256.signum128
    ∧ Unobservable I256.signum
    ∧ Unobservable I256.is_positive
    ∧ Unobservable I256.is_negative :=
  ⟨un2 (by obs I256.add_mv),
   un2 (by obs I256.sub_mv),
   un2 (by obs I256.mul_mv),
   un2 (by obs I256.add_assign_mv),
   un2 (by obs I256.sub_assign_mv),
   un2 (by obs I256.mul_assign_mv),
   un1 (by obs I256.neg_mv),
   un2 (by obs I256.overflowing_add_mv),
   un2 (by obs I256.wrapping_add_mv),
   un2 (by obs I256.checked_add_mv),
   un2 (by obs I256.saturating_add_mv),
   un2 (by obs I256.overflowing_sub_mv),
   un2 (by obs I256.wrapping_sub_mv),
   un2 (by obs I256.checked_sub_mv),
   un2 (by obs I256.saturating_sub_mv),
   un2 (by obs I256.overflowing_add_unsigned_mv),
   un2 (by obs I256.checked_add_unsigned_mv),
   un2 (by obs I256.saturating_add_unsigned_mv),
   un2 (by obs I256.wrapping_add_unsigned_mv),
   un2 (by obs I256.overflowing_sub_unsigned_mv),
   un2 (by obs I256.checked_sub_unsigned_mv),
   un2 (by obs I256.saturating_sub_unsigned_mv),
   un2 (by obs I256.wrapping_sub_unsigned_mv),
   un1 (by obs I256.overflowing_neg_mv),
   un1 (by obs I256.checked_neg_mv),
   un1 (by obs I256.saturating_neg_mv),
   un1 (by obs I256.wrapping_neg_mv),
   un1 (by obs I256.checked_abs_mv),
   un1 (by obs I256.saturating_abs_mv),
   un1 (by obs I256.wrapping_abs_mv),
   un1 (by obs I256.unsigned_abs_mv),
   un1 (by obs I256.overflowing_abs_mv),
   un1 (by obs I256.abs_mv),
   un2 (by obs I256.abs_diff_mv),
   un2 (by obs I256.overflowing_mul_mv),
   un2 (by obs I256.wrapping_mul_mv),
   un2 (by obs I256.checked_mul_mv),
   un2 (by obs I256.saturating_mul_mv),
   un1 (by obs I256.signum128_mv),
   un1 (by obs I256.signum_mv),
   un1 (by obs I256.is_positive_mv),
   un1 (by obs I256.is_negative_mv)⟩

example : I256.mul le (I256.MINUS_ONE le) (I256.from_words le 5 7) = .ok (I256.ofInt le (-(5 * 2 ^ 128 + 7)))
    ∧ I256.mul be (I256.MINUS_ONE be) (I256.from_words be 5 7) = .ok (I256.ofInt be (-(5 * 2 ^ 128 + 7))) := by decide +kernel

/-- C43: division on `U256`. -/
theorem C43_u256_division :
    Unobservable U256.div
    ∧ Unobservable U256.rem
    ∧ Unobservable U256.div_assign
    ∧ Unobservable U256.rem_assign
    ∧ Unobservable U256.div_euclid
    ∧ Unobservable U256.rem_euclid
    ∧ Unobservable U256.checked_div
    ∧ Unobservable U256.checked_div_euclid
    ∧ Unobservable U256.checked_rem
    ∧ Unobservable U256.checked_rem_euclid
    ∧ Unobservable U256.wrapping_div
    ∧ Unobservable U256.wrapping_div_euclid
    ∧ Unobservable U256.wrapping_rem
    ∧ Unobservable U256.wrapping_rem_euclid
    ∧ Unobservable U256.saturating_div
    ∧ Unobservable U256.overflowing_div
    ∧ Unobservable U256.overflowing_div_euclid
    ∧ Unobservable U256.overflowing_rem
    ∧ Unobservable U256.overflowing_rem_euclid
    ∧ Unobservable U256.div_rem
    ∧ Unobservable U256.div_rem_euclid
    ∧ Unobservable U256.checked_div_rem
    ∧ Unobservable U256.checked_div_rem_euclid
    ∧ Unobservable U256.saturating_div_rem
    ∧ Unobservable U256.saturating_div_rem_euclid
    ∧ Unobservable U256.wrapping_div_rem
    ∧ Unobservable U256.wrapping_div_rem_euclid
    ∧ Unobservable U256.overflowing_div_rem
    ∧ Unobservable U256.overflowing_div_rem_euclid :=
  ⟨un2 (by obs U256.div_mv),
   un2 (by obs U256.rem_mv),
   un2 (by obs U256.div_assign_mv),
   un2 (by obs U256.rem_assign_mv),
   un2 (by obs U256.div_euclid_mv),
   un2 (by obs U256.rem_euclid_mv),
   un2 (by obs U256.checked_div_mv),
   un2 (by obs U256.checked_div_euclid_mv),
   un2 (by obs U256.checked_rem_mv),
   un2 (by obs U256.checked_rem_euclid_mv),
   un2 (by obs U256.wrapping_div_mv),
   un2 (by obs U256.wrapping_div_euclid_mv),
   un2 (by obs U256.wrapping_rem_mv),
   un2 (by obs U256.wrapping_rem_euclid_mv),
   un2 (by obs U256.saturating_div_mv),
   un2 (by obs U256.overflowing_div_mv),
   un2 (by obs U256.overflowing_div_euclid_mv),
   un2 (by obs U256.overflowing_rem_mv),
   un2 (by obs U256.overflowing_rem_euclid_mv),
   un2 (by obs U256.div_rem_mv),
   un2 (by obs U256.div_rem_euclid_mv),
   un2 (by obs U256.checked_div_rem_mv),
   un2 (by obs U256.checked_div_rem_euclid_mv),
   un2 (by obs U256.saturating_div_rem_mv),
   un2 (by obs U256.saturating_div_rem_euclid_mv),
   un2 (by obs U256.wrapping_div_rem_mv),
   un2 (by obs U256.wrapping_div_rem_euclid_mv),
   un2 (by obs U256.overflowing_div_rem_mv),
   un2 (by obs U256.overflowing_div_rem_euclid_mv)⟩

example : U256.div le U256.MAX (U256.from_words le 3 0) = .ok (U256.ofNat le ((2 ^ 256 - 1) / (3 * 2 ^ 128)))
    ∧ U256.div be U256.MAX (U256.from_words be 3 0) = .ok (U256.ofNat be ((2 ^ 256 - 1) / (3 * 2 ^ 128))) := by decide +kernel

/-- C43: division on `I256`. -/
theorem C43_i256_division :
    Unobservable I256.div
    ∧ Unobservable I256.rem
    ∧ Unobservable I256.div_assign
    ∧ Unobservable I256.rem_assign
    ∧ Unobservable I256.div_euclid
    ∧ Unobservable I256.rem_euclid
    ∧ Unobservable I256.checked_div
    ∧ Unobservable I256.checked_div_euclid
    ∧ Unobservable I256.checked_rem
    ∧ Unobservable I256.checked_rem_euclid
    ∧ Unobservable I256.overflowing_div
    ∧ Unobservable I256.overflowing_div_euclid
    ∧ Unobservable I256.overflowing_rem
    ∧ Unobservable I256.overflowing_rem_euclid
    ∧ Unobservable I256.wrapping_div
    ∧ Unobservable I256.wrapping_div_euclid
    ∧ Unobservable I256.wrapping_rem
    ∧ Unobservable I256.wrapping_rem_euclid
    ∧ Unobservable I256.saturating_div
    ∧ Unobservable I256.wrapping_div_rem
    ∧ Unobservable I256.div_rem
    ∧ Unobservable I256.checked_div_rem
    ∧ Unobservable I256.overflowing_div_rem
    ∧ Unobservable I256.saturating_div_rem
    ∧ Unobservable I256.wrapping_div_rem_euclid
    ∧ Unobservable I256.div_rem_euclid
    ∧ Unobservable I256.checked_div_rem_euclid
    ∧ Unobservable I256.overflowing_div_rem_euclid
    ∧ Unobservable I256.saturating_div_rem_euclid :=
  ⟨un2 (by obs I256.div_mv),
   un2 (by obs I256.rem_mv),
   un2 (by obs I256.div_assign_mv),
   un2 (by obs I256.rem_assign_mv),
   un2 (by obs I256.div_euclid_mv),
   un2 (by obs I256.rem_euclid_mv),
   un2 (by obs I256.checked_div_mv),
   un2 (by obs I256.checked_div_euclid_mv),
   un2 (by obs I256.checked_rem_mv),
   un2 (by obs I256.checked_rem_euclid_mv),
   un2 (by obs I256.overflowing_div_mv),
   un2 (by obs I256.overflowing_div_euclid_mv),
   un2 (by obs I256.overflowing_rem_mv),
   un2 (by obs I256.overflowing_rem_euclid_mv),
   un2 (by obs I256.wrapping_div_mv),
   un2 (by obs I256.wrapping_div_euclid_mv),
   un2 (by obs I256.wrapping_rem_mv),
   un2 (by obs I256.wrapping_rem_euclid_mv),
   un2 (by obs I256.saturating_div_mv),
   un2 (by obs I256.wrapping_div_rem_mv),
   un2 (by obs I256.div_rem_mv),
   un2 (by obs I256.checked_div_rem_mv),
   un2 (by obs I256.overflowing_div_rem_mv),
   un2 (by obs I256.saturating_div_rem_mv),
   un2 (by obs I256.wrapping_div_rem_euclid_mv),
   un2 (by obs I256.div_rem_euclid_mv),
   un2 (by obs I256.checked_div_rem_euclid_mv),
   un2 (by obs I256.overflowing_div_rem_euclid_mv),
   un2 (by obs I256.saturating_div_rem_euclid_mv)⟩

example : I256.div le (I256.MIN le) (I256.from_words le 3 0) = .ok (I256.ofInt le (-(2 ^ 255 / (3 * 2 ^ 128))))
    ∧ I256.div be (I256.MIN be) (I256.from_words be 3 0) = .ok (I256.ofInt be (-(2 ^ 255 / (3 * 2 ^ 128)))) := by decide +kernel

/-- C43: powers, sums and products. -/
theorem C43_pow :
    Unobservable U256.checked_pow
    ∧ Unobservable U256.saturating_pow
    ∧ Unobservable U256.wrapping_pow
    ∧ Unobservable U256.overflowing_pow
    ∧ Unobservable U256.pow
    ∧ Unobservable U256.is_power_of_two
    ∧ Unobservable U256.next_power_of_two
    ∧ Unobservable U256.checked_next_power_of_two
    ∧ Unobservable U256.sum
    ∧ Unobservable U256.product
    ∧ Unobservable I256.checked_pow
    ∧ Unobservable I256.saturating_pow
    ∧ Unobservable I256.wrapping_pow
    ∧ Unobservable I256.overflowing_pow
    ∧ Unobservable I256.pow
    ∧ Unobservable I256.sum
    ∧ Unobservable I256.product :=
  ⟨un2 (by obs U256.checked_pow_mv),
   un2 (by obs U256.saturating_pow_mv),
   un2 (by obs U256.wrapping_pow_mv),
   un2 (by obs U256.overflowing_pow_mv),
   un2 (by obs U256.pow_mv),
   un1 (by obs U256.is_power_of_two_mv),
   un1 (by obs U256.next_power_of_two_mv),
   un1 (by obs U256.checked_next_power_of_two_mv),
   un1 (by obs U256.sum_mv),
   un1 (by obs U256.product_mv),
   un2 (by obs I256.checked_pow_mv),
   un2 (by obs I256.saturating_pow_mv),
   un2 (by obs I256.wrapping_pow_mv),
   un2 (by obs I256.overflowing_pow_mv),
   un2 (by obs I256.pow_mv),
   un1 (by obs I256.sum_mv),
   un1 (by obs I256.product_mv)⟩

example : U256.pow le (U256.ofNat le 10) 50 = .ok (U256.ofNat le (10 ^ 50))
    ∧ U256.pow be (U256.ofNat be 10) 50 = .ok (U256.ofNat be (10 ^ 50)) := by decide +kernel

/-- C43: conversion between the two types and from `bool`. -/
theorem C43_try_between :
    Unobservable U256.of_bool
    ∧ Unobservable U256.try_from_i256
    ∧ Unobservable I256.of_bool
    ∧ Unobservable I256.try_from_u256 :=
  ⟨un1 (by obs U256.of_bool_mv),
   un1 (by obs U256.try_from_i256_mv),
   un1 (by obs I256.of_bool_mv),
   un1 (by obs I256.try_from_u256_mv)⟩

example : I256.try_from_u256 le (U256.from_words le 5 6) = some (I256.from_words le 5 6)
    ∧ I256.try_from_u256 be (U256.from_words be 5 6) = some (I256.from_words be 5 6) := by decide +kernel

/-- C43: bytes in a stated order. -/
theorem C43_to_bytes :
    Unobservable U256.to_be_bytes
    ∧ Unobservable U256.to_le_bytes
    ∧ Unobservable I256.to_be_bytes
    ∧ Unobservable I256.to_le_bytes :=
  ⟨un1 (by obs U256.to_be_bytes_mv),
   un1 (by obs U256.to_le_bytes_mv),
   un1 (by obs I256.to_be_bytes_mv),
   un1 (by obs I256.to_le_bytes_mv)⟩

example : (U256.from_words le 1 2).to_be_bytes le = (U256.from_words be 1 2).to_be_bytes be := by decide +kernel

/-- C43: conversion to floating point. -/
theorem C43_to_float :
    Unobservable U256.as_f32
    ∧ Unobservable U256.as_f64
    ∧ Unobservable I256.as_f64
    ∧ Unobservable I256.as_f32 :=
  ⟨un1 (by obs U256.as_f32_mv),
   un1 (by obs U256.as_f64_mv),
   un1 (by obs I256.as_f64_mv),
   un1 (by obs I256.as_f32_mv)⟩

example : U256.as_f64 le (U256.from_words le 1 0) = FloatTy.f64.ofInt (2 ^ 128)
    ∧ U256.as_f64 be (U256.from_words be 1 0) = FloatTy.f64.ofInt (2 ^ 128) := by decide +kernel

/-- C43: formatting, under every formatter option. -/
theorem C43_format :
    Unobservable U256.display
    ∧ Unobservable U256.debug
    ∧ Unobservable U256.fmtRadix
    ∧ Unobservable I256.display
    ∧ Unobservable I256.debug
    ∧ Unobservable I256.fmtRadix :=
  ⟨un2 (by obs U256.display_mv),
   un2 (by obs U256.debug_mv),
   un3 (by obs U256.fmtRadix_mv),
   un2 (by obs I256.display_mv),
   un2 (by obs I256.debug_mv),
   un3 (by obs I256.fmtRadix_mv)⟩

example : U256.display le (U256.from_words le 1 0) .default = .ok "340282366920938463463374607431768211456".toList
    ∧ U256.display be (U256.from_words be 1 0) .default = .ok "340282366920938463463374607431768211456".toList := by decide +kernel

/-- C43: parsing, at run time and in constants: the same value or the same error. -/
theorem C43_parse :
    Unobservable U256.from_str_radix
    ∧ Unobservable U256.from_str
    ∧ Unobservable U256.from_str_hex
    ∧ Unobservable U256.from_str_prefixed
    ∧ Unobservable U256.const_from_str_prefixed
    ∧ Unobservable I256.from_str_radix
    ∧ Unobservable I256.from_str
    ∧ Unobservable I256.from_str_hex
    ∧ Unobservable I256.from_str_prefixed
    ∧ Unobservable I256.const_from_str_prefixed :=
  ⟨un2 (by obs U256.from_str_radix_mv),
   un1 (by obs U256.from_str_mv),
   un1 (by obs U256.from_str_hex_mv),
   un1 (by obs U256.from_str_prefixed_mv),
   un1 (by obs U256.const_from_str_prefixed_mv),
   un2 (by obs I256.from_str_radix_mv),
   un1 (by obs I256.from_str_mv),
   un1 (by obs I256.from_str_hex_mv),
   un1 (by obs I256.from_str_prefixed_mv),
   un1 (by obs I256.const_from_str_prefixed_mv)⟩

example : U256.from_str_hex le (str "0x100000000000000000000000000000002") = .ok (.ok (U256.from_words le 1 2))
    ∧ U256.from_str_hex be (str "0x100000000000000000000000000000002") = .ok (.ok (U256.from_words be 1 2)) := by decide +kernel

/-- C43: serialization in every format with a stated byte order. -/
theorem C43_serialize :
    Unobservable U256.serialize
    ∧ Unobservable U256.serialize_decimal
    ∧ Unobservable U256.serialize_bytes
    ∧ Unobservable U256.serialize_compressed
    ∧ Unobservable I256.serialize
    ∧ Unobservable I256.serialize_decimal
    ∧ Unobservable I256.serialize_bytes
    ∧ Unobservable I256.serialize_compressed :=
  ⟨un2 (by obs U256.serialize_mv),
   un2 (by obs U256.serialize_decimal_mv),
   un2 (by obs U256.serialize_bytes_mv),
   un2 (by obs U256.serialize_compressed_mv),
   un2 (by obs I256.serialize_mv),
   un2 (by obs I256.serialize_decimal_mv),
   un2 (by obs I256.serialize_bytes_mv),
   un2 (by obs I256.serialize_compressed_mv)⟩

example : U256.serialize_compressed le .be (U256.from_words le 1 2) = U256.serialize_compressed be .be (U256.from_words be 1 2) := by
  decide +kernel

/-- C43: deserialization in every format with a stated byte order. -/
theorem C43_deserialize :
    Unobservable U256.deserialize
    ∧ Unobservable U256.deserialize_decimal
    ∧ Unobservable U256.deserialize_prefixed
    ∧ Unobservable U256.deserialize_permissive
    ∧ Unobservable U256.deserialize_bytes
    ∧ Unobservable U256.deserialize_compressed
    ∧ Unobservable I256.deserialize
    ∧ Unobservable I256.deserialize_decimal
    ∧ Unobservable I256.deserialize_prefixed
    ∧ Unobservable I256.deserialize_permissive
    ∧ Unobservable I256.deserialize_bytes
    ∧ Unobservable I256.deserialize_compressed :=
  ⟨un1 (by obs U256.deserialize_mv),
   un1 (by obs U256.deserialize_decimal_mv),
   un1 (by obs U256.deserialize_prefixed_mv),
   un1 (by obs U256.deserialize_permissive_mv),
   un2 (by obs U256.deserialize_bytes_mv),
   un2 (by obs U256.deserialize_compressed_mv),
   un1 (by obs I256.deserialize_mv),
   un1 (by obs I256.deserialize_decimal_mv),
   un1 (by obs I256.deserialize_prefixed_mv),
   un1 (by obs I256.deserialize_permissive_mv),
   un2 (by obs I256.deserialize_bytes_mv),
   un2 (by obs I256.deserialize_compressed_mv)⟩

example : U256.deserialize_compressed le .be (.bytes [1, 2]) = .ok (.ok (U256.from_words le 0 258))
    ∧ U256.deserialize_compressed be .be (.bytes [1, 2]) = .ok (.ok (U256.from_words be 0 258)) := by decide +kernel

/-- C43: shifts by an amount of any integer type: the amounts are equal, or are 256-bit integers that are the same. -/
theorem C43_shift_by (c : Cfg) (a a' : U256) (x x' : I256) (s : ShiftBy c) (s' : ShiftBy c.other)
    (ha : Same c a a') (hx : Same c x x')
    (hs : match s, s' with
      | .prim t b, .prim t' b' => ∃ h : t = t', (h ▸ b : t'.Val c) = b'
      | .u256 b, .u256 b' => Same c b b'
      | .i256 b, .i256 b' => Same c b b'
      | _, _ => False) :
    Same c (a.shlBy c s) (a'.shlBy c.other s') ∧ Same c (a.shrBy c s) (a'.shrBy c.other s')
    ∧ Same c (x.shlBy c s) (x'.shlBy c.other s') ∧ Same c (x.shrBy c s) (x'.shrBy c.other s')
    ∧ Same c (a.shlAssignBy c s) (a'.shlAssignBy c.other s') ∧ Same c (a.shrAssignBy c s) (a'.shrAssignBy c.other s')
    ∧ Same c (x.shlAssignBy c s) (x'.shlAssignBy c.other s') ∧ Same c (x.shrAssignBy c s) (x'.shrAssignBy c.other s') := by
  have e : s' = s.mv := by
    cases s <;> cases s' <;> simp only at hs
    · obtain ⟨h, hb⟩ := hs; subst h; subst hb; rfl
    · rw [ObsMv.same_iff] at hs; subst hs; rfl
    · rw [ObsMv.same_iff] at hs; subst hs; rfl
  rw [ObsMv.same_iff] at ha hx
  subst e ha hx
  simp only [ObsMv.same_iff, U256.shlBy_mv, U256.shrBy_mv, I256.shlBy_mv, I256.shrBy_mv, U256.shlAssignBy_mv,
    U256.shrAssignBy_mv, I256.shlAssignBy_mv, I256.shrAssignBy_mv, and_self]

example : U256.shlBy le (U256.ONE le) (.u256 (U256.ofNat le 200)) = .ok (U256.ofNat le (2 ^ 200))
    ∧ U256.shlBy be (U256.ONE be) (.u256 (U256.ofNat be 200)) = .ok (U256.ofNat be (2 ^ 200)) := by decide +kernel

/-- C43: conversions to and from every primitive integer type. -/
theorem C43_prim (c : Cfg) (t : PrimTy) (v : t.Val c) (a a' : U256) (x x' : I256) (ha : Same c a a') (hx : Same c x x') :
    (a.as_prim c t : t.Val c) = a'.as_prim c.other t ∧ (x.as_prim c t : t.Val c) = x'.as_prim c.other t
    ∧ (a.prim_try_from c t : Option (t.Val c)) = a'.prim_try_from c.other t
    ∧ (x.prim_try_from c t : Option (t.Val c)) = x'.prim_try_from c.other t
    ∧ Same c (U256.of_prim_as c t v) (U256.of_prim_as c.other t v)
    ∧ Same c (I256.of_prim_as c t v) (I256.of_prim_as c.other t v)
    ∧ Same c (U256.from_prim c t v) (U256.from_prim c.other t v)
    ∧ Same c (I256.from_prim c t v) (I256.from_prim c.other t v)
    ∧ Same c (U256.try_from_prim c t v) (U256.try_from_prim c.other t v) := by
  rw [ObsMv.same_iff] at ha hx
  subst ha hx
  refine ⟨?_, ?_, ?_, ?_, ?_, ?_, ?_, ?_, ?_⟩
  · exact ((U256.as_prim_mv c t (mv a)).trans (by rw [Mv.inv])).symm
  · exact ((I256.as_prim_mv c t (mv x)).trans (by rw [Mv.inv])).symm
  · exact ((U256.prim_try_from_mv c t (mv a)).trans (by rw [Mv.inv])).symm
  · exact ((I256.prim_try_from_mv c t (mv x)).trans (by rw [Mv.inv])).symm
  · exact (ObsMv.same_iff c _ _).2 (U256.of_prim_as_mv c t v).symm
  · exact (ObsMv.same_iff c _ _).2 (I256.of_prim_as_mv c t v).symm
  · exact (ObsMv.same_iff c _ _).2 (U256.from_prim_mv c t v).symm
  · exact (ObsMv.same_iff c _ _).2 (I256.from_prim_mv c t v).symm
  · exact (ObsMv.same_iff c _ _).2 (U256.try_from_prim_mv c t v).symm

example : I256.from_prim le .i8 (-5#8) ≠ I256.from_prim be .i8 (-6#8)
    ∧ Same le (I256.from_prim le .i8 (-5#8)) (I256.from_prim be .i8 (-5#8)) :=
  ⟨by decide +kernel, (C43_prim le .i8 (-5#8) U256.ZERO U256.ZERO I256.ZERO I256.ZERO rfl rfl).2.2.2.2.2.2.2.1⟩

/-- C43: binary operators with a primitive operand, for every operator that does not reveal the byte order. -/
theorem C43_mixed_operands {α β : Type} [Obs α] [Obs β] (op : Cfg → U256 → U256 → α) (iop : Cfg → I256 → I256 → β)
    (h : Unobservable op) (hi : Unobservable iop) :
    Unobservable (fun c => U256.withPrim c op) ∧ Unobservable (fun c => U256.primWith c op)
    ∧ Unobservable (fun c => I256.withPrim c iop) ∧ Unobservable (fun c => I256.primWith c iop) := by
  refine ⟨fun c a a' ha b b' hb => h c a a' ha _ _ ?_, fun c a a' ha b b' hb => h c _ _ ?_ b b' hb,
    fun c a a' ha b b' hb => hi c a a' ha _ _ ?_, fun c a a' ha b b' hb => hi c _ _ ?_ b b' hb⟩
  · exact C43_words.2.2.2.2.2.2.1 c b b' hb
  · exact C43_words.2.2.2.2.2.2.1 c a a' ha
  · exact C43_words.2.2.2.2.2.2.2.2.2.2.2.2.2.2.2.2.2.1 c b b' hb
  · exact C43_words.2.2.2.2.2.2.2.2.2.2.2.2.2.2.2.2.2.1 c a a' ha

example : Unobservable (fun c => U256.withPrim c U256.mul) :=
  (C43_mixed_operands U256.mul I256.mul C43_u256_arithmetic.2.2.1 C43_i256_arithmetic.2.2.1).1

/-- C43: 32 bytes in a stated order are read as the same number. -/
theorem C43_from_bytes (c : Cfg) (l : List U8) (hl : l.length = 32) :
    Same c (U256.from_be_bytes c l) (U256.from_be_bytes c.other l)
    ∧ Same c (U256.from_le_bytes c l) (U256.from_le_bytes c.other l)
    ∧ Same c (I256.from_be_bytes c l) (I256.from_be_bytes c.other l)
    ∧ Same c (I256.from_le_bytes c l) (I256.from_le_bytes c.other l) :=
  ⟨(ObsMv.same_iff c _ _).2 (U256.from_be_bytes_mv c l hl).symm, (ObsMv.same_iff c _ _).2 (U256.from_le_bytes_mv c l hl).symm,
   (ObsMv.same_iff c _ _).2 (I256.from_be_bytes_mv c l hl).symm, (ObsMv.same_iff c _ _).2 (I256.from_le_bytes_mv c l hl).symm⟩

example : (U256.from_be_bytes le (List.replicate 30 0 ++ [1, 2])).toNat le = 258
    ∧ (U256.from_be_bytes be (List.replicate 30 0 ++ [1, 2])).toNat be = 258 := by decide +kernel

/-- C43: conversion from floating point. -/
theorem C43_from_float (t : FloatTy) :
    (∀ c v, Same c (U256.of_float c t v) (U256.of_float c.other t v))
    ∧ (∀ c v, Same c (I256.of_float c t v) (I256.of_float c.other t v)) :=
  ⟨fun c v => (ObsMv.same_iff c _ _).2 (U256.of_float_mv c t v).symm,
   fun c v => (ObsMv.same_iff c _ _).2 (I256.of_float_mv c t v).symm⟩

example : U256.of_float le .f64 (0x47f0000000000000#64 : BitVec 64) = .ok (U256.from_words le 1 0)
    ∧ U256.of_float be .f64 (0x47f0000000000000#64 : BitVec 64) = .ok (U256.from_words be 1 0) := by decide +kernel

/-- What reveals the byte order, as it must: the bytes in memory, and the words fed to a hasher. -/
theorem C43_ne_bytes_observable : ¬ Unobservable U256.to_ne_bytes ∧ ¬ Unobservable I256.to_ne_bytes := by
  have hu : (U256.ONE le).to_ne_bytes le ≠ (U256.ONE be).to_ne_bytes be := by decide +kernel
  have hi : (I256.ONE le).to_ne_bytes le ≠ (I256.ONE be).to_ne_bytes be := by decide +kernel
  constructor
  · intro h
    have := (ObsMv.same_iff le _ _).1 (h le (U256.ONE le) (U256.ONE be) (by show _ = _; decide))
    rw [mv_base] at this
    exact hu this.symm
  · intro h
    have := (ObsMv.same_iff le _ _).1 (h le (I256.ONE le) (I256.ONE be) (by show _ = _; decide))
    rw [mv_base] at this
    exact hi this.symm

end Ethnum
