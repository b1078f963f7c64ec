import Verif.SpecText
import Verif.SpecFmt
import Verif.Model.Parse
import Verif.Model.Fmt
import Mathlib.Data.Rat.Init
import Mathlib.Algebra.Field.Rat

/-
Specification and client: amounts with decimals, as programs show them ("1.500000000000000000 ether" for 15 * 10^17 wei). The
specification is what a decimal with a point denotes; the client programs are written with the API. They are not in /repo.
-/

namespace Ethnum.Amount

/-- The text is a decimal with a point and exactly `d` places after it, and denotes `q`. -/
def Decimal (d : Nat) (t : List (BitVec 8)) (q : ℚ) : Prop :=
  ∃ i f m n, t = i ++ 46 :: f ∧ Numeral 10 i m ∧ Numeral 10 f n ∧ f.length = d ∧ q = m + n / 10 ^ d

/-! ### What the client does -/

/-- `U256::new(10).pow(d)` -/
def unit (c : Cfg) (d : U32) : Res U256 := (U256.new c 10).pow c d

/-- `format!("{}.{:0w$}", x / unit, x % unit, w = d as usize)` -/
def format (c : Cfg) (x : U256) (d : U32) : Res (List Char) := do
  let unit ← unit c d
  return (← (← x.div c unit).display c .default) ++ '.' :: (← (← x.rem c unit).display c ⟨8, some d.toNat, ' ', none⟩)

/-- `text.split_once('.')` of the standard library -/
def splitOnce : List U8 → Option (List U8 × List U8)
  | [] => none
  | b :: l => if b = 46 then some ([], l) else (splitOnce l).map fun p => (b :: p.1, p.2)

/-- `let (i, f) = text.split_once('.')?; if f.len() != d || !f.bytes().all(|b| b.is_ascii_digit()) { return None }
let i: U256 = i.parse().ok()?; let f: U256 = f.parse().ok()?; i.checked_mul(unit)?.checked_add(f)` -/
def parse (c : Cfg) (text : List U8) (d : U32) : Res (Option U256) :=
  match splitOnce text with
  | none => .ok none
  | some (i, f) =>
    if f.length ≠ d.toNat ∨ f.all (fun b => decide (48 ≤ b ∧ b ≤ 57)) = false then .ok none else do
    let unit ← unit c d
    match ← U256.from_str c i with
    | .error _ => return none
    | .ok i =>
      match ← U256.from_str c f with
      | .error _ => return none
      | .ok f =>
        match ← i.checked_mul c unit with
        | none => return none
        | some p => return p.checked_add c f

end Ethnum.Amount
