import Verif.Spec
import Verif.Model.Ops

/-
Specification: what the right-hand side of a shift operator denotes.
-/

namespace Ethnum

/-- The number a shift amount denotes. -/
def ShiftBy.value {c : Cfg} : ShiftBy c → Int
  | .prim t b => t.toInt b
  | .u256 b => b.toNat c
  | .i256 b => b.toInt c

/-- The amount a build without debug assertions shifts by, for any amount `v`: `v` is truncated to a `u32`; the LLVM
back-end then uses the low eight bits; the native back-end does so below 256 and uses 128 plus the low seven bits from
256 on. -/
def releaseShift (c : Cfg) (v : Int) : Nat :=
  if c.llvm ∨ v % 2 ^ 32 < 256 then (v % 256).toNat else 128 + (v % 128).toNat

end Ethnum
