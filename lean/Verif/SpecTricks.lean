import Verif.Spec
import Verif.Model.IntApi
import Verif.Model.UintApi

/-
Clients: well known bit manipulations, written with the operators of the crate as a user would write them. They are not in /repo.
-/

namespace Ethnum.Tricks

/-- The mean of two numbers, rounded down: `(a & b) + ((a ^ b) >> 1)` -/
def mean (c : Cfg) (a b : U256) : Res U256 := do
  (a.bitand b).add c (← (a.bitxor b).shrBy c (.prim .i32 1))

/-- The mean of two numbers, rounded up: `(a | b) - ((a ^ b) >> 1)` -/
def meanUp (c : Cfg) (a b : U256) : Res U256 := do
  (a.bitor b).sub c (← (a.bitxor b).shrBy c (.prim .i32 1))

/-- The lowest digit 1: `x & x.wrapping_neg()` -/
def lowest (c : Cfg) (x : U256) : U256 := x.bitand (x.wrapping_neg c)

/-- Is it a power of two? `x != 0 && x & (x - 1) == 0` -/
def isPower (c : Cfg) (x : U256) : Res Bool :=
  if !x.eq_prim c 0 then do return (x.bitand (← U256.withPrim c U256.sub x 1)).eq_prim c 0
  else .ok false

/-- The next multiple of `m`, a power of two: `(x + (m - 1)) & !(m - 1)` -/
def alignUp (c : Cfg) (x m : U256) : Res U256 := do
  return (← x.add c (← U256.withPrim c U256.sub m 1)).bitand (← U256.withPrim c U256.sub m 1).not

/-- The remainder by `m`, a power of two: `x & (m - 1)` -/
def maskOff (c : Cfg) (x m : U256) : Res U256 := do
  return x.bitand (← U256.withPrim c U256.sub m 1)

/-- `x ^ (x >> k)` -/
def fold (c : Cfg) (k : U32) (x : U256) : Res U256 := do
  return x.bitxor (← x.shrBy c (.prim .i32 k))

/-- The Gray code: `x ^ (x >> 1)` -/
def gray (c : Cfg) (x : U256) : Res U256 := fold c 1 x

/-- From the Gray code: `g ^= g >> 1; g ^= g >> 2; g ^= g >> 4; … g ^= g >> 128; g` -/
def ungray (c : Cfg) (g : U256) : Res U256 := do
  fold c 128 (← fold c 64 (← fold c 32 (← fold c 16 (← fold c 8 (← fold c 4 (← fold c 2 (← fold c 1 g)))))))

/-- The absolute value without a branch: `let m = s >> 255; (s ^ m).wrapping_sub(m).as_u256()` -/
def absolute (c : Cfg) (s : I256) : Res U256 := do
  let m ← s.shrBy c (.prim .i32 255)
  return ((s.bitxor m).wrapping_sub c m).as_u256

/-- The exchange of two variables: `a ^= b; b ^= a; a ^= b; (a, b)` -/
def swap (a b : U256) : U256 × U256 :=
  let a := a.bitxor_assign b
  let b := b.bitxor_assign a
  let a := a.bitxor_assign b
  (a, b)

end Ethnum.Tricks
