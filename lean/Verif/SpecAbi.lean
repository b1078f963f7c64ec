import Verif.Spec
import Verif.Model.Bytes
import Verif.Model.Convert

/-
A client: arguments of contract calls, written and read in the format of the Solidity ABI. It is not in /repo. An argument is a `uint256`,
an `int256` or `bytes`. The head has a word of 32 bytes for each argument, the number itself or the offset of the tail of the argument; the
tail of `bytes` is the length, in a word, and the bytes, filled up with zeros to a multiple of 32.
-/

namespace Ethnum.Abi

inductive Ty where
  | uint | int | bytes
  deriving DecidableEq

inductive Arg where
  | uint (x : U256)
  | int (x : I256)
  | bytes (b : List U8)
  deriving DecidableEq

def Arg.ty : Arg → Ty
  | .uint _ => .uint
  | .int _ => .int
  | .bytes _ => .bytes

/-! ### Writing -/

/-- `n.as_u256().to_be_bytes()` for `n: usize` -/
def word (c : Cfg) (n : Nat) : List U8 := (U256.of_prim_as c .usize (BitVec.ofNat _ n)).to_be_bytes c

/-- the tail of `bytes`: `out.extend(b.len().as_u256().to_be_bytes()); out.extend(b); out.resize(out.len().next_multiple_of(32), 0)` -/
def tail (c : Cfg) (b : List U8) : List U8 := word c b.length ++ b ++ List.replicate ((32 - b.length % 32) % 32) 0

/-- the heads and the tails, where the next tail will be at `off` -/
def parts (c : Cfg) : Nat → List Arg → List U8 × List U8
  | _, [] => ([], [])
  | off, .uint x :: l => (x.to_be_bytes c ++ (parts c off l).1, (parts c off l).2)
  | off, .int x :: l => (x.to_be_bytes c ++ (parts c off l).1, (parts c off l).2)
  | off, .bytes b :: l =>
    let p := parts c (off + (tail c b).length) l
    (word c off ++ p.1, tail c b ++ p.2)

def encode (c : Cfg) (l : List Arg) : List U8 := (parts c (32 * l.length) l).1 ++ (parts c (32 * l.length) l).2

/-! ### Reading -/

/-- `d.get(i..i.checked_add(n)?)` -/
def get (c : Cfg) (d : List U8) (i n : Nat) : Option (List U8) :=
  if 2 ^ c.ptr.bits ≤ i + n then none else if d.length < i + n then none else some ((d.drop i).take n)

/-- `usize::try_from(U256::from_be_bytes(get(d, i, 32)?.try_into().unwrap())).ok()` -/
def readLen (c : Cfg) (d : List U8) (i : Nat) : Option Nat := do
  let v ← (U256.from_be_bytes c (← get c d i 32)).prim_try_from c .usize
  return (PrimTy.usize.toInt v).toNat

def decodeArg (c : Cfg) (d : List U8) (i : Nat) : Ty → Option Arg
  | .uint => do return .uint (U256.from_be_bytes c (← get c d i 32))
  | .int => do return .int (I256.from_be_bytes c (← get c d i 32))
  | .bytes => do
    let o ← readLen c d i
    let n ← readLen c d o
    return .bytes (← get c d (o + 32) n)

/-- the arguments whose heads begin at `i` -/
def decode (c : Cfg) (d : List U8) : Nat → List Ty → Option (List Arg)
  | _, [] => some []
  | i, t :: l => do
    let a ← decodeArg c d i t
    return a :: (← decode c d (i + 32) l)

/-! ### What the bytes say -/

/-- the number that the 32 bytes from `i` are, most significant first -/
def num (d : List U8) (i : Nat) : Nat := leValue ((d.drop i).take 32).reverse

/-- The argument whose head is at `i` is `a`. -/
def Says (c : Cfg) (d : List U8) (i : Nat) : Arg → Prop
  | .uint x => i + 32 ≤ d.length ∧ x.toNat c = num d i
  | .int x => i + 32 ≤ d.length ∧ x.toInt c % 2 ^ 256 = num d i
  | .bytes b => i + 32 ≤ d.length ∧ num d i + 32 + num d (num d i) ≤ d.length
      ∧ b = (d.drop (num d i + 32)).take (num d (num d i))

end Ethnum.Abi
