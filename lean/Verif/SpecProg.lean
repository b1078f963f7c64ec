import Verif.Spec
import Verif.Model.UintApi
import Verif.Model.IntApi
import Verif.Model.Ops

/-
Specification: computations of any size. `Exp` is an arithmetic expression; `Exp.exact` and `Exp.value` say what it
denotes over the integers, without the model. The other functions are client code: the expression computed with the
operators, the `checked_*` methods and the `wrapping_*` methods.
-/

namespace Ethnum

/-- An arithmetic expression over variables. -/
inductive Exp where
  | var (i : Nat)
  | add (a b : Exp) | sub (a b : Exp) | mul (a b : Exp) | div (a b : Exp) | rem (a b : Exp)
  | pow (a : Exp) (k : BitVec 32)

namespace Exp

/-- The value over the integers, whatever the sizes. Division truncates. -/
def value (ρ : Nat → Int) : Exp → Int
  | var i => ρ i
  | add a b => a.value ρ + b.value ρ
  | sub a b => a.value ρ - b.value ρ
  | mul a b => a.value ρ * b.value ρ
  | div a b => (a.value ρ).tdiv (b.value ρ)
  | rem a b => (a.value ρ).tmod (b.value ρ)
  | pow a k => a.value ρ ^ k.toNat

/-- No operation of the expression leaves the range `P`, and no divisor is zero. The remainder of a division whose
quotient leaves the range counts as leaving it, as for Rust's primitive integers. -/
def Fits (P : Int → Prop) (ρ : Nat → Int) : Exp → Prop
  | var _ => True
  | add a b => a.Fits P ρ ∧ b.Fits P ρ ∧ P (a.value ρ + b.value ρ)
  | sub a b => a.Fits P ρ ∧ b.Fits P ρ ∧ P (a.value ρ - b.value ρ)
  | mul a b => a.Fits P ρ ∧ b.Fits P ρ ∧ P (a.value ρ * b.value ρ)
  | div a b => a.Fits P ρ ∧ b.Fits P ρ ∧ b.value ρ ≠ 0 ∧ P ((a.value ρ).tdiv (b.value ρ))
  | rem a b => a.Fits P ρ ∧ b.Fits P ρ ∧ b.value ρ ≠ 0 ∧ P ((a.value ρ).tdiv (b.value ρ))
  | pow a k => a.Fits P ρ ∧ P (a.value ρ ^ k.toNat)

/-- The expression does not divide. -/
def NoDiv : Exp → Prop
  | var _ => True
  | add a b | sub a b | mul a b => a.NoDiv ∧ b.NoDiv
  | div _ _ | rem _ _ => False
  | pow a _ => a.NoDiv

/-- The expression never divides `-2^255` by `-1`. -/
def NoMinByMinusOne (ρ : Nat → Int) : Exp → Prop
  | var _ => True
  | add a b | sub a b | mul a b => a.NoMinByMinusOne ρ ∧ b.NoMinByMinusOne ρ
  | div a b | rem a b =>
    a.NoMinByMinusOne ρ ∧ b.NoMinByMinusOne ρ ∧ ¬ (a.value ρ = -2 ^ 255 ∧ b.value ρ = -1)
  | pow a _ => a.NoMinByMinusOne ρ

end Exp

namespace U256

/-- The expression with `+ - * / %` and `pow`. -/
def evalOps (c : Cfg) (ρ : Nat → U256) : Exp → Res U256
  | .var i => .ok (ρ i)
  | .add a b => do let x ← evalOps c ρ a; let y ← evalOps c ρ b; x.add c y
  | .sub a b => do let x ← evalOps c ρ a; let y ← evalOps c ρ b; x.sub c y
  | .mul a b => do let x ← evalOps c ρ a; let y ← evalOps c ρ b; x.mul c y
  | .div a b => do let x ← evalOps c ρ a; let y ← evalOps c ρ b; x.div c y
  | .rem a b => do let x ← evalOps c ρ a; let y ← evalOps c ρ b; x.rem c y
  | .pow a k => do let x ← evalOps c ρ a; x.pow c k

/-- The expression with the `checked_*` methods and `?`. -/
def evalChecked (c : Cfg) (ρ : Nat → U256) : Exp → Res (Option U256)
  | .var i => .ok (some (ρ i))
  | .add a b => do
    let some x ← evalChecked c ρ a | return none
    let some y ← evalChecked c ρ b | return none
    return x.checked_add c y
  | .sub a b => do
    let some x ← evalChecked c ρ a | return none
    let some y ← evalChecked c ρ b | return none
    return x.checked_sub c y
  | .mul a b => do
    let some x ← evalChecked c ρ a | return none
    let some y ← evalChecked c ρ b | return none
    x.checked_mul c y
  | .div a b => do
    let some x ← evalChecked c ρ a | return none
    let some y ← evalChecked c ρ b | return none
    x.checked_div c y
  | .rem a b => do
    let some x ← evalChecked c ρ a | return none
    let some y ← evalChecked c ρ b | return none
    x.checked_rem c y
  | .pow a k => do
    let some x ← evalChecked c ρ a | return none
    x.checked_pow c k

/-- The expression with the `wrapping_*` methods. -/
def evalWrapping (c : Cfg) (ρ : Nat → U256) : Exp → Res U256
  | .var i => .ok (ρ i)
  | .add a b => do let x ← evalWrapping c ρ a; let y ← evalWrapping c ρ b; return x.wrapping_add c y
  | .sub a b => do let x ← evalWrapping c ρ a; let y ← evalWrapping c ρ b; return x.wrapping_sub c y
  | .mul a b => do let x ← evalWrapping c ρ a; let y ← evalWrapping c ρ b; x.wrapping_mul c y
  | .div a b => do let x ← evalWrapping c ρ a; let y ← evalWrapping c ρ b; x.wrapping_div c y
  | .rem a b => do let x ← evalWrapping c ρ a; let y ← evalWrapping c ρ b; x.wrapping_rem c y
  | .pow a k => do let x ← evalWrapping c ρ a; x.wrapping_pow c k

end U256

namespace I256

/-- The expression with `+ - * / %` and `pow`. -/
def evalOps (c : Cfg) (ρ : Nat → I256) : Exp → Res I256
  | .var i => .ok (ρ i)
  | .add a b => do let x ← evalOps c ρ a; let y ← evalOps c ρ b; x.add c y
  | .sub a b => do let x ← evalOps c ρ a; let y ← evalOps c ρ b; x.sub c y
  | .mul a b => do let x ← evalOps c ρ a; let y ← evalOps c ρ b; x.mul c y
  | .div a b => do let x ← evalOps c ρ a; let y ← evalOps c ρ b; x.div c y
  | .rem a b => do let x ← evalOps c ρ a; let y ← evalOps c ρ b; x.rem c y
  | .pow a k => do let x ← evalOps c ρ a; x.pow c k

/-- The expression with the `checked_*` methods and `?`. -/
def evalChecked (c : Cfg) (ρ : Nat → I256) : Exp → Res (Option I256)
  | .var i => .ok (some (ρ i))
  | .add a b => do
    let some x ← evalChecked c ρ a | return none
    let some y ← evalChecked c ρ b | return none
    return x.checked_add c y
  | .sub a b => do
    let some x ← evalChecked c ρ a | return none
    let some y ← evalChecked c ρ b | return none
    return x.checked_sub c y
  | .mul a b => do
    let some x ← evalChecked c ρ a | return none
    let some y ← evalChecked c ρ b | return none
    x.checked_mul c y
  | .div a b => do
    let some x ← evalChecked c ρ a | return none
    let some y ← evalChecked c ρ b | return none
    x.checked_div c y
  | .rem a b => do
    let some x ← evalChecked c ρ a | return none
    let some y ← evalChecked c ρ b | return none
    x.checked_rem c y
  | .pow a k => do
    let some x ← evalChecked c ρ a | return none
    x.checked_pow c k

/-- The expression with the `wrapping_*` methods. -/
def evalWrapping (c : Cfg) (ρ : Nat → I256) : Exp → Res I256
  | .var i => .ok (ρ i)
  | .add a b => do let x ← evalWrapping c ρ a; let y ← evalWrapping c ρ b; return x.wrapping_add c y
  | .sub a b => do let x ← evalWrapping c ρ a; let y ← evalWrapping c ρ b; return x.wrapping_sub c y
  | .mul a b => do let x ← evalWrapping c ρ a; let y ← evalWrapping c ρ b; x.wrapping_mul c y
  | .div a b => do let x ← evalWrapping c ρ a; let y ← evalWrapping c ρ b; x.wrapping_div c y
  | .rem a b => do let x ← evalWrapping c ρ a; let y ← evalWrapping c ρ b; x.wrapping_rem c y
  | .pow a k => do let x ← evalWrapping c ρ a; x.wrapping_pow c k

end I256
end Ethnum
