import Verif.Basic

/-
Specification: the Ethereum virtual machine, restricted to the instructions that compute with words (arithmetic,
comparison, bits, memory, storage, jumps; no gas, no calls, no environment other than the call data). The meaning of the
instructions on numbers below `2^256` is that of the Yellow Paper, appendix H. Nothing here uses the model of the crate.

The machine itself is written once for any type of words, so that it can be run on numbers (the specification) and on
`U256` (the client of `SpecEvmClient`).
-/

namespace Ethnum.Evm

/-! ### Words as numbers -/

/-- The signed number that a word denotes in two's complement. -/
def signed (x : Nat) : Int := if x < 2 ^ 255 then x else (x : Int) - 2 ^ 256

/-- The word that denotes a signed number, modulo `2^256`. -/
def unsigned (z : Int) : Nat := (z % 2 ^ 256).toNat

/-- Truth values are the words 1 and 0. -/
def truth (b : Bool) : Nat := if b then 1 else 0

/-- The signed number that the low `t` bits of a word denote. -/
def signedBits (t x : Nat) : Int := if x % 2 ^ t < 2 ^ (t - 1) then (x % 2 ^ t : Nat) else ((x % 2 ^ t : Nat) : Int) - 2 ^ t

/-- Instructions with one operand. -/
inductive Op1 | iszero | not | clz
  deriving DecidableEq, Repr

/-- Instructions with two operands. -/
inductive Op2
  | add | mul | sub | div | sdiv | mod | smod | exp | signextend
  | lt | gt | slt | sgt | eq | and | or | xor | byte | shl | shr | sar
  deriving DecidableEq, Repr

/-- Instructions with three operands. -/
inductive Op3 | addmod | mulmod
  deriving DecidableEq, Repr

/-- The Yellow Paper's meaning (`clz` from EIP-7939). -/
def Op1.meaning : Op1 → Nat → Nat
  | .iszero, a => truth (a = 0)
  | .not, a => 2 ^ 256 - 1 - a
  | .clz, a => if a = 0 then 256 else 255 - Nat.log2 a

/-- The Yellow Paper's meaning; `a` is the top of the stack and `b` the item below. -/
def Op2.meaning : Op2 → Nat → Nat → Nat
  | .add, a, b => (a + b) % 2 ^ 256
  | .mul, a, b => a * b % 2 ^ 256
  | .sub, a, b => unsigned ((a : Int) - b)
  | .div, a, b => if b = 0 then 0 else a / b
  | .sdiv, a, b => if b = 0 then 0 else unsigned (Int.tdiv (signed a) (signed b))
  | .mod, a, b => if b = 0 then 0 else a % b
  | .smod, a, b => if b = 0 then 0 else unsigned (Int.tmod (signed a) (signed b))
  | .exp, a, b => a ^ b % 2 ^ 256
  | .signextend, a, b => if a < 31 then unsigned (signedBits (8 * (a + 1)) b) else b
  | .lt, a, b => truth (a < b)
  | .gt, a, b => truth (a > b)
  | .slt, a, b => truth (signed a < signed b)
  | .sgt, a, b => truth (signed a > signed b)
  | .eq, a, b => truth (a = b)
  | .and, a, b => a &&& b
  | .or, a, b => a ||| b
  | .xor, a, b => a ^^^ b
  | .byte, a, b => if a < 32 then b / 256 ^ (31 - a) % 256 else 0
  | .shl, a, b => b * 2 ^ a % 2 ^ 256
  | .shr, a, b => b / 2 ^ a
  | .sar, a, b => unsigned (signed b / 2 ^ a)

/-- The Yellow Paper's meaning: the sum and the product are not reduced modulo `2^256`. -/
def Op3.meaning : Op3 → Nat → Nat → Nat → Nat
  | .addmod, a, b, n => if n = 0 then 0 else (a + b) % n
  | .mulmod, a, b, n => if n = 0 then 0 else a * b % n

/-- The number that bytes denote, most significant first. -/
def bigEndian (l : List (BitVec 8)) : Nat := l.foldl (fun n b => 256 * n + b.toNat) 0

/-- The 32 bytes of a word, most significant first. -/
def bytes32 (x : Nat) : List (BitVec 8) := (List.range 32).map fun i => BitVec.ofNat 8 (x / 256 ^ (31 - i))

/-! ### The machine -/

/-- What an interpreter needs to know about its words. `Res` allows an operation to panic. -/
structure Words (w : Type) where
  op1 : Op1 → w → Res w
  op2 : Op2 → w → w → Res w
  op3 : Op3 → w → w → w → Res w
  /-- The word with the given 32 bytes, most significant first. -/
  ofBytes : List (BitVec 8) → w
  toBytes : w → List (BitVec 8)
  /-- A length or a position of the interpreter as a word. -/
  ofIndex : Nat → w
  /-- A word as a position of the interpreter, if it has so large ones. -/
  toIndex : w → Option Nat
  isZero : w → Bool
  /-- Equality of the keys of the storage. -/
  same : w → w → Bool

/-- The words of the specification: the numbers below `2^256`. -/
def numbers : Words Nat where
  op1 o a := .ok (o.meaning a)
  op2 o a b := .ok (o.meaning a b)
  op3 o a b n := .ok (o.meaning a b n)
  ofBytes := bigEndian
  toBytes := bytes32
  ofIndex n := n
  toIndex a := some a
  isZero a := decide (a = 0)
  same a b := decide (a = b)

/-- Instructions. -/
inductive Instr
  | stop | op1 (o : Op1) | op2 (o : Op2) | op3 (o : Op3)
  | calldataload | calldatasize | pop | mload | mstore | mstore8 | sload | sstore | jump | jumpi | pc | jumpdest
  | push (n : Nat) | dup (n : Nat) | swap (n : Nat) | ret | revert | invalid
  deriving DecidableEq, Repr

/-- The instruction that a byte of code stands for. -/
def decode (b : BitVec 8) : Instr :=
  match b.toNat with
  | 0x00 => .stop | 0x01 => .op2 .add | 0x02 => .op2 .mul | 0x03 => .op2 .sub | 0x04 => .op2 .div | 0x05 => .op2 .sdiv
  | 0x06 => .op2 .mod | 0x07 => .op2 .smod | 0x08 => .op3 .addmod | 0x09 => .op3 .mulmod | 0x0a => .op2 .exp
  | 0x0b => .op2 .signextend
  | 0x10 => .op2 .lt | 0x11 => .op2 .gt | 0x12 => .op2 .slt | 0x13 => .op2 .sgt | 0x14 => .op2 .eq | 0x15 => .op1 .iszero
  | 0x16 => .op2 .and | 0x17 => .op2 .or | 0x18 => .op2 .xor | 0x19 => .op1 .not | 0x1a => .op2 .byte | 0x1b => .op2 .shl
  | 0x1c => .op2 .shr | 0x1d => .op2 .sar | 0x1e => .op1 .clz
  | 0x35 => .calldataload | 0x36 => .calldatasize
  | 0x50 => .pop | 0x51 => .mload | 0x52 => .mstore | 0x53 => .mstore8 | 0x54 => .sload | 0x55 => .sstore
  | 0x56 => .jump | 0x57 => .jumpi | 0x58 => .pc | 0x5b => .jumpdest
  | 0xf3 => .ret | 0xfd => .revert
  | n => if 0x5f ≤ n ∧ n ≤ 0x7f then .push (n - 0x5f) else if 0x80 ≤ n ∧ n ≤ 0x8f then .dup (n - 0x80)
    else if 0x90 ≤ n ∧ n ≤ 0x9f then .swap (n - 0x90) else .invalid

/-- `n` bytes of a sequence that is followed by zeros for ever, from position `i`. -/
def window (l : List (BitVec 8)) (i n : Nat) : List (BitVec 8) := (List.range n).map fun k => l.getD (i + k) 0

/-- The positions of instructions in the code from position `i` on, up to `fuel` of them: data of a push is skipped. -/
def starts (code : List (BitVec 8)) : Nat → Nat → List Nat
  | 0, _ => []
  | fuel + 1, i =>
    if i < code.length then
      i :: starts code fuel (match decode (code.getD i 0) with | .push n => i + 1 + n | _ => i + 1)
    else []

/-- Where one may jump to. -/
def destination (code : List (BitVec 8)) (i : Nat) : Bool :=
  decode (code.getD i 0) == .jumpdest && (starts code code.length 0).contains i

/-- The state of the machine: the stack, the memory, the storage and the position in the code. -/
structure State (w : Type) where
  stack : List w
  mem : Nat → BitVec 8
  store : w → w
  pc : Nat

/-- What one step leads to: the next state, an end with data (kept or undone effects), or an exceptional halt. -/
inductive Step (w : Type)
  | next (s : State w)
  | ended (data : List (BitVec 8)) (store : w → w)
  | reverted (data : List (BitVec 8))
  | failed

/-- A contract being called: its code, the call data, and how much memory its gas pays for. -/
structure Call where
  code : List (BitVec 8)
  data : List (BitVec 8)
  limit : Nat

variable {w : Type}

/-- The position that a word denotes if `n` bytes from there are within `limit`. -/
def Words.within (W : Words w) (a : w) (n limit : Nat) : Option Nat := (W.toIndex a).filter fun i => i + n ≤ limit

/-- `n` bytes of memory. -/
def readMem (m : Nat → BitVec 8) (i n : Nat) : List (BitVec 8) := (List.range n).map fun k => m (i + k)

/-- Writing bytes to memory. -/
def writeMem (m : Nat → BitVec 8) (i : Nat) (l : List (BitVec 8)) : Nat → BitVec 8 :=
  fun k => if i ≤ k ∧ k < i + l.length then l.getD (k - i) 0 else m k

/-- Going on with a new stack, which has at most 1024 items. -/
def State.goOn (s : State w) (stack : List w) (len : Nat := 1) : Step w :=
  if stack.length ≤ 1024 then .next { s with stack := stack, pc := s.pc + len } else .failed

/-- The bytes that `ret` and `revert` give back. -/
def Words.slice (W : Words w) (k : Call) (s : State w) (a n : w) : Option (List (BitVec 8)) :=
  match W.within n 0 k.limit with
  | none => none
  | some n => (W.within a n k.limit).map fun i => readMem s.mem i n

/-- One instruction. Too few operands, too many items, a jump to nowhere, too much memory and unknown instructions are
exceptional halts. -/
def step (W : Words w) (k : Call) (s : State w) : Res (Step w) :=
  match decode (k.code.getD s.pc 0), s.stack with
  | .stop, _ => .ok (.ended [] s.store)
  | .op1 o, a :: st => do .ok (s.goOn ((← W.op1 o a) :: st))
  | .op2 o, a :: b :: st => do .ok (s.goOn ((← W.op2 o a b) :: st))
  | .op3 o, a :: b :: n :: st => do .ok (s.goOn ((← W.op3 o a b n) :: st))
  | .calldataload, a :: st =>
    .ok (s.goOn (W.ofBytes (match W.within a 0 k.data.length with
      | some i => window k.data i 32
      | none => List.replicate 32 0) :: st))
  | .calldatasize, st => .ok (s.goOn (W.ofIndex k.data.length :: st))
  | .pop, _ :: st => .ok (s.goOn st)
  | .mload, a :: st =>
    match W.within a 32 k.limit with
    | some i => .ok (s.goOn (W.ofBytes (readMem s.mem i 32) :: st))
    | none => .ok .failed
  | .mstore, a :: v :: st =>
    match W.within a 32 k.limit with
    | some i => .ok ({ s with mem := writeMem s.mem i (W.toBytes v) }.goOn st)
    | none => .ok .failed
  | .mstore8, a :: v :: st =>
    match W.within a 1 k.limit with
    | some i => .ok ({ s with mem := writeMem s.mem i [(W.toBytes v).getD 31 0] }.goOn st)
    | none => .ok .failed
  | .sload, a :: st => .ok (s.goOn (s.store a :: st))
  | .sstore, a :: v :: st => .ok ({ s with store := fun x => if W.same x a then v else s.store x }.goOn st)
  | .jump, a :: st =>
    match W.within a 1 k.code.length with
    | some i => .ok (if destination k.code i then .next { s with stack := st, pc := i } else .failed)
    | none => .ok .failed
  | .jumpi, a :: v :: st =>
    if W.isZero v then .ok (s.goOn st) else
    match W.within a 1 k.code.length with
    | some i => .ok (if destination k.code i then .next { s with stack := st, pc := i } else .failed)
    | none => .ok .failed
  | .pc, st => .ok (s.goOn (W.ofIndex s.pc :: st))
  | .jumpdest, st => .ok (s.goOn st)
  | .push n, st => .ok (s.goOn (W.ofBytes (List.replicate (32 - n) 0 ++ window k.code (s.pc + 1) n) :: st) (n + 1))
  | .dup n, st =>
    match st[n]? with
    | some v => .ok (s.goOn (v :: st))
    | none => .ok .failed
  | .swap n, a :: st =>
    match st[n]? with
    | some v => .ok (s.goOn (v :: st.set n a))
    | none => .ok .failed
  | .ret, a :: n :: _ =>
    match W.slice k s a n with
    | some l => .ok (.ended l s.store)
    | none => .ok .failed
  | .revert, a :: n :: _ =>
    match W.slice k s a n with
    | some l => .ok (.reverted l)
    | none => .ok .failed
  | _, _ => .ok .failed

/-- How a call ends. -/
inductive Outcome (w : Type)
  | ended (data : List (BitVec 8)) (store : w → w)
  | reverted (data : List (BitVec 8))
  | failed

/-- At most `n` steps. -/
def exec (W : Words w) (k : Call) : Nat → State w → Res (Outcome w)
  | 0, _ => .error .diverge
  | n + 1, s => do
    match ← step W k s with
    | .next s => exec W k n s
    | .ended d σ => .ok (.ended d σ)
    | .reverted d => .ok (.reverted d)
    | .failed => .ok .failed

/-- A call: empty stack and memory, the given storage, at most `n` steps. -/
def run (W : Words w) (k : Call) (store : w → w) (n : Nat) : Res (Outcome w) :=
  exec W k n { stack := [], mem := fun _ => 0, store := store, pc := 0 }

end Ethnum.Evm
