import Verif.Model.Forms
import Verif.Props.Operators
import Verif.Props.Repr

/-!
# C50: every form of an operator means the same

Operands by value, by reference and of the primitive type, on either side.
-/

namespace Ethnum

open Forms

namespace Forms

/-- The number an operand of a `U256` operator stands for. -/
def Operand.nat (c : Cfg) : Operand U256 U128 → ℕ
  | .val x | .ref x => x.toNat c
  | .prim p | .primRef p => p.toNat

/-- The number an operand of an `I256` operator stands for. -/
def Operand.int (c : Cfg) : Operand I256 U128 → ℤ
  | .val x | .ref x => x.toInt c
  | .prim p | .primRef p => p.toInt

/-- At least one operand is of the 256-bit type (otherwise the operator is not this crate's). -/
def Ours {T P : Type} : Operand T P → Operand T P → Prop
  | .prim _, .prim _ | .prim _, .primRef _ | .primRef _, .prim _ | .primRef _, .primRef _ => False
  | _, _ => True

end Forms

theorem U256.new_ofNat (c : Cfg) (p : U128) : U256.new c p = U256.ofNat c p.toNat := U256.eq_ofNat c (by
  rw [U256.toNat_new]; have := p.isLt; omega)
theorem I256.new_ofInt (c : Cfg) (p : U128) : I256.new c p = I256.ofInt c p.toInt := by
  rw [← I256.toInt_new c p, I256.ofInt_toInt]
theorem U256.ofNat_toNat' (c : Cfg) (x : U256) : U256.ofNat c (x.toNat c) = x :=
  (U256.eq_ofNat c (Nat.mod_eq_of_lt (U256.toNat_lt c x)).symm).symm

/-- C50: whatever the form of the operands, a binary operator of `U256` is the operator on the 256-bit values of the
numbers they stand for, in their order; likewise the assigning operators. -/
theorem C50_u256_forms (c : Cfg) {α : Type} (op : U256 → U256 → α) (a b : Operand U256 U128) (x : U256) :
    (Ours a b → binop (U256.new c) op a b = some (op (U256.ofNat c (a.nat c)) (U256.ofNat c (b.nat c))))
    ∧ assign (U256.new c) op x b = op x (U256.ofNat c (b.nat c)) := by
  constructor
  · intro h
    cases a <;> cases b <;> first | exact h.elim | skip
    all_goals simp only [binop, rv, vr, vv, rp, rq, vq, vp, pr, qr, qv, pv, Operand.nat, U256.ofNat_toNat', U256.new_ofNat]
  · cases b <;> simp only [assign, av, ap, aq, Operand.nat, U256.ofNat_toNat', U256.new_ofNat]

example : Ours (.primRef 3 : Operand U256 U128) (.val (U256.ofNat dbg 2))
    ∧ binop (U256.new dbg) (U256.sub dbg) (.primRef 3) (.val (U256.ofNat dbg 2)) = some (.ok (U256.ONE dbg)) :=
  ⟨trivial, by decide +kernel⟩

/-- C50: the same for `I256`, whose primitive is `i128`. -/
theorem C50_i256_forms (c : Cfg) {α : Type} (op : I256 → I256 → α) (a b : Operand I256 U128) (x : I256) :
    (Ours a b → binop (I256.new c) op a b = some (op (I256.ofInt c (a.int c)) (I256.ofInt c (b.int c))))
    ∧ assign (I256.new c) op x b = op x (I256.ofInt c (b.int c)) := by
  constructor
  · intro h
    cases a <;> cases b <;> first | exact h.elim | skip
    all_goals simp only [binop, rv, vr, vv, rp, rq, vq, vp, pr, qr, qv, pv, Operand.int, I256.ofInt_toInt, I256.new_ofInt]
  · cases b <;> simp only [assign, av, ap, aq, Operand.int, I256.ofInt_toInt, I256.new_ofInt]

example : binop (I256.new rel) (I256.div rel) (.prim (-7)) (.ref (I256.ofInt rel 2)) = some (.ok (I256.ofInt rel (-3))) := by
  decide +kernel

theorem Operand.nat_lt (c : Cfg) (a : Operand U256 U128) : a.nat c < 2 ^ 256 := by
  cases a with
  | val x => exact U256.toNat_lt c x
  | ref x => exact U256.toNat_lt c x
  | prim p => exact Nat.lt_of_lt_of_le p.isLt (by decide)
  | primRef p => exact Nat.lt_of_lt_of_le p.isLt (by decide)

theorem Operand.int_in (c : Cfg) (a : Operand I256 U128) : InI256 (a.int c) := by
  have hp : ∀ p : U128, InI256 p.toInt := fun p => by
    have h1 := BitVec.le_toInt p
    have h2 := BitVec.toInt_lt (x := p)
    unfold InI256; constructor <;> omega
  cases a with
  | val x => exact I256.toInt_in c x
  | ref x => exact I256.toInt_in c x
  | prim p => exact hp p
  | primRef p => exact hp p

/-- C50: the binary operators of `U256` on operands of any form, in terms of the numbers they stand for. -/
theorem C50_u256 (c : Cfg) (a b : Operand U256 U128) (h : Ours a b) :
    binop (U256.new c) (U256.add c) a b = some (if c.debugAssertions = true ∧ 2 ^ 256 ≤ a.nat c + b.nat c
      then .error (.panic .addOverflow) else .ok (U256.ofNat c (a.nat c + b.nat c)))
    ∧ binop (U256.new c) (U256.sub c) a b = some (if c.debugAssertions = true ∧ a.nat c < b.nat c
      then .error (.panic .subOverflow) else .ok (U256.ofInt c ((a.nat c : ℤ) - b.nat c)))
    ∧ binop (U256.new c) (U256.mul c) a b = some (if c.debugAssertions = true ∧ 2 ^ 256 ≤ a.nat c * b.nat c
      then .error (.panic .mulOverflow) else .ok (U256.ofNat c (a.nat c * b.nat c)))
    ∧ binop (U256.new c) (U256.div c) a b = some (if b.nat c = 0
      then .error (.panic .divByZero) else .ok (U256.ofNat c (a.nat c / b.nat c)))
    ∧ binop (U256.new c) (U256.rem c) a b = some (if b.nat c = 0
      then .error (.panic .remByZero) else .ok (U256.ofNat c (a.nat c % b.nat c)))
    ∧ (∃ r, binop (U256.new c) U256.bitand a b = some r ∧ r.toNat c = a.nat c &&& b.nat c)
    ∧ (∃ r, binop (U256.new c) U256.bitor a b = some r ∧ r.toNat c = a.nat c ||| b.nat c)
    ∧ (∃ r, binop (U256.new c) U256.bitxor a b = some r ∧ r.toNat c = a.nat c ^^^ b.nat c) := by
  have e : ∀ {α : Type} (op : U256 → U256 → α), binop (U256.new c) op a b
      = some (op (U256.ofNat c (a.nat c)) (U256.ofNat c (b.nat c))) := fun op => (C50_u256_forms c op a b U256.ZERO).1 h
  have ha : (U256.ofNat c (a.nat c)).toNat c = a.nat c := U256.toNat_ofNat_of_lt c (Operand.nat_lt c a)
  have hb : (U256.ofNat c (b.nat c)).toNat c = b.nat c := U256.toNat_ofNat_of_lt c (Operand.nat_lt c b)
  simp only [e, U256.add_eq, U256.sub_eq, U256.mul_eq, U256.div_eq, U256.rem_eq, ha, hb, true_and]
  refine ⟨⟨_, rfl, ?_⟩, ⟨_, rfl, ?_⟩, ⟨_, rfl, ?_⟩⟩
  · rw [U256.toNat_bitand, ha, hb]
  · rw [U256.toNat_bitor, ha, hb]
  · rw [U256.toNat_bitxor, ha, hb]

example : Ours (.prim 5 : Operand U256 U128) (.ref (U256.ofNat dbg 7))
    ∧ binop (U256.new dbg) (U256.sub dbg) (.prim 5) (.ref (U256.ofNat dbg 7)) = some (.error (.panic .subOverflow))
    ∧ binop (U256.new dbg) (U256.rem dbg) (.prim 50) (.val (U256.ofNat dbg 7)) = some (.ok (U256.ONE dbg)) :=
  ⟨trivial, by decide +kernel, by decide +kernel⟩

/-- C50: the binary operators of `I256` on operands of any form. -/
theorem C50_i256 (c : Cfg) (a b : Operand I256 U128) (h : Ours a b) :
    binop (I256.new c) (I256.add c) a b = some (if c.debugAssertions = true ∧ ¬ InI256 (a.int c + b.int c)
      then .error (.panic .addOverflow) else .ok (I256.ofInt c (a.int c + b.int c)))
    ∧ binop (I256.new c) (I256.sub c) a b = some (if c.debugAssertions = true ∧ ¬ InI256 (a.int c - b.int c)
      then .error (.panic .subOverflow) else .ok (I256.ofInt c (a.int c - b.int c)))
    ∧ binop (I256.new c) (I256.mul c) a b = some (if c.debugAssertions = true ∧ ¬ InI256 (a.int c * b.int c)
      then .error (.panic .mulOverflow) else .ok (I256.ofInt c (a.int c * b.int c)))
    ∧ binop (I256.new c) (I256.div c) a b = some (if b.int c = 0
      then .error (.panic .divByZero) else .ok (I256.ofInt c ((a.int c).tdiv (b.int c))))
    ∧ binop (I256.new c) (I256.rem c) a b = some (if b.int c = 0
      then .error (.panic .remByZero) else .ok (I256.ofInt c ((a.int c).tmod (b.int c)))) := by
  have e : ∀ {α : Type} (op : I256 → I256 → α), binop (I256.new c) op a b
      = some (op (I256.ofInt c (a.int c)) (I256.ofInt c (b.int c))) := fun op => (C50_i256_forms c op a b I256.ZERO).1 h
  have ha : (I256.ofInt c (a.int c)).toInt c = a.int c := I256.toInt_ofInt_of_in c (Operand.int_in c a)
  have hb : (I256.ofInt c (b.int c)).toInt c = b.int c := I256.toInt_ofInt_of_in c (Operand.int_in c b)
  simp only [e, I256.add_eq, I256.sub_eq, I256.mul_eq, I256.div_eq, I256.rem_eq, ha, hb, true_and]

example : binop (I256.new dbg) (I256.add dbg) (.val (I256.MIN dbg)) (.primRef (-1)) = some (.error (.panic .addOverflow))
    ∧ binop (I256.new dbg) (I256.rem dbg) (.primRef (-7)) (.val (I256.ofInt dbg 4)) = some (.ok (I256.ofInt dbg (-3))) := by
  decide +kernel

/-- C50: shifts do not depend on whether the operands are given by value or by reference. -/
theorem C50_shift (c : Cfg) (l r : Bool) (a : U256) (s : I256) (n : ShiftBy c) :
    shift (U256.shl c) l r a n = a.shlBy c n ∧ shift (U256.shr c) l r a n = a.shrBy c n
    ∧ shift (I256.shl c) l r s n = s.shlBy c n ∧ shift (I256.shr c) l r s n = s.shrBy c n := by
  cases l <;> cases r <;> exact ⟨rfl, rfl, rfl, rfl⟩

example : shift (U256.shl dbg) false true (U256.ONE dbg) (.u256 (U256.ofNat dbg 200) : ShiftBy dbg) = .ok (U256.ofNat dbg (2 ^ 200)) := by
  decide +kernel

end Ethnum
