import Verif.Spec
import Verif.Model.UintApi
import Mathlib.Data.Finset.SymmDiff
import Mathlib.Data.Finset.Range

/-
Specification and client: a `U256` used as a set of numbers below 256, as bit maps are used. The set is a `Finset` of Mathlib; the
client programs are written with the operators of the crate. They are not in /repo.
-/

namespace Ethnum.BitSet

/-- The set a number stands for: the positions of the binary digits 1 among the last 256. -/
def elems (n : Nat) : Finset Nat := (Finset.range 256).filter fun i => n / 2 ^ i % 2 = 1

/-! ### What the client does -/

/-- `s | U256::ONE << i` -/
def insert (c : Cfg) (s : U256) (i : U32) : Res U256 := do return s.bitor (← (U256.ONE c).shlBy c (.prim .u32 i))

/-- `s & !(U256::ONE << i)` -/
def remove (c : Cfg) (s : U256) (i : U32) : Res U256 := do return s.bitand (← (U256.ONE c).shlBy c (.prim .u32 i)).not

/-- `s ^ U256::ONE << i` -/
def toggle (c : Cfg) (s : U256) (i : U32) : Res U256 := do return s.bitxor (← (U256.ONE c).shlBy c (.prim .u32 i))

/-- `(s >> i) & 1 == 1` -/
def contains (c : Cfg) (s : U256) (i : U32) : Res Bool := do
  return (U256.withPrim c (fun _ => U256.bitand) (← s.shrBy c (.prim .u32 i)) 1).eq_prim c 1

/-- `a & b == a` -/
def subset (c : Cfg) (a b : U256) : Bool := (a.bitand b).eq c a

/-- `a & b == 0` -/
def disjoint (c : Cfg) (a b : U256) : Bool := (a.bitand b).eq_prim c 0

/-- `while s != 0 { out.push(s.trailing_zeros()); s &= s - 1; }`, by its result under a budget for the evaluations of the condition -/
def walk (c : Cfg) : Nat → U256 → Res (List U32)
  | 0, _ => .error .diverge
  | k + 1, s => if s.eq_prim c 0 then .ok [] else do
    let i ← s.trailing_zeros c
    let s' := s.bitand_assign (← U256.withPrim c U256.sub s 1)
    return i :: (← walk c k s')

/-- What can be done to a set. -/
inductive Cmd
  | insert (i : U32) | remove (i : U32) | toggle (i : U32)
  | union (s : U256) | inter (s : U256) | minus (s : U256) | complement

/-- The numbers named are below 256. -/
def Cmd.Ok : Cmd → Prop
  | .insert i | .remove i | .toggle i => i.toNat < 256
  | _ => True

/-- On sets. -/
def Cmd.meaning (c : Cfg) (A : Finset Nat) : Cmd → Finset Nat
  | .insert i => A ∪ {i.toNat}
  | .remove i => A \ {i.toNat}
  | .toggle i => symmDiff A {i.toNat}
  | .union s => A ∪ elems (s.toNat c)
  | .inter s => A ∩ elems (s.toNat c)
  | .minus s => A \ elems (s.toNat c)
  | .complement => Finset.range 256 \ A

/-- On bit maps; the binary ones with the assigning operators `|=` and `&=`. -/
def Cmd.step (c : Cfg) (s : U256) : Cmd → Res U256
  | .insert i => BitSet.insert c s i
  | .remove i => BitSet.remove c s i
  | .toggle i => BitSet.toggle c s i
  | .union t => .ok (s.bitor_assign t)
  | .inter t => .ok (s.bitand_assign t)
  | .minus t => .ok (s.bitand_assign t.not)
  | .complement => .ok s.not

/-- A history, from any bit map. -/
def run (c : Cfg) (s : U256) (h : List Cmd) : Res U256 := h.foldlM (Cmd.step c) s

end Ethnum.BitSet
