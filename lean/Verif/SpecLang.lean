import Verif.SpecMem
import Verif.SpecText
import Verif.SpecFmt
import Verif.Model.UintApi
import Verif.Model.IntApi
import Verif.Model.Ops
import Verif.Model.Ord
import Verif.Model.Convert
import Verif.Model.Fmt
import Verif.Model.Parse

/-
Specification: whole programs, with variables of both types, branches, loops, input and output.
`Ex`, `Test` and `Prog` are the syntax. `Ex.value`, `Test.value` and `Prog.exact` say what a program means, over the
integers and without the model. `Ex.eval`, `Test.eval` and `Prog.run` are client code: the same program computed with the
operators and methods of the crate.
-/

namespace Ethnum

/-! ### Syntax -/

/-- An operation whose exact result may not fit. -/
inductive Arith where
  | add | sub | mul
  deriving DecidableEq, Repr

/-- A comparison. -/
inductive Rel where
  | lt | le | gt | ge | eq | ne
  deriving DecidableEq, Repr

/-- A function that counts bits. -/
inductive Bits where
  | ones | zeros | leadingZeros | trailingZeros | leadingOnes | trailingOnes
  deriving DecidableEq, Repr

/-- A function that moves bits. -/
inductive Perm where
  /-- `a.rotate_left(u32::from(n))` for a `u8` -/
  | rotateLeft (n : BitVec 8)
  /-- `a.rotate_right(u32::from(n))` for a `u8` -/
  | rotateRight (n : BitVec 8)
  | swapBytes | reverseBits
  deriving DecidableEq, Repr

/-- An expression of type `U256` or `I256`. -/
inductive Ex : Kind → Type where
  | var {k : Kind} (n : Nat) : Ex k
  /-- `U256::new(v)` or `I256::new(v)` -/
  | lit {k : Kind} (v : BitVec 128) : Ex k
  /-- `a + b`, `a - b`, `a * b`, `a / b`, `a % b`, `a & b`, `a | b`, `a ^ b` -/
  | op {k : Kind} (o : Assign) (a b : Ex k) : Ex k
  | wrapping {k : Kind} (o : Arith) (a b : Ex k) : Ex k
  | saturating {k : Kind} (o : Arith) (a b : Ex k) : Ex k
  | pow {k : Kind} (a : Ex k) (n : BitVec 32) : Ex k
  /-- `a.wrapping_shl(n.as_u32())` -/
  | shl {k j : Kind} (a : Ex k) (n : Ex j) : Ex k
  /-- `a.wrapping_shr(n.as_u32())` -/
  | shr {k j : Kind} (a : Ex k) (n : Ex j) : Ex k
  /-- `!a` -/
  | compl {k : Kind} (a : Ex k) : Ex k
  | larger {k : Kind} (a b : Ex k) : Ex k
  | smaller {k : Kind} (a b : Ex k) : Ex k
  /-- `-a` -/
  | neg (a : Ex .i) : Ex .i
  | abs (a : Ex .i) : Ex .i
  | unsignedAbs (a : Ex .i) : Ex .u
  /-- `a.as_i256()` -/
  | asI (a : Ex .u) : Ex .i
  /-- `a.as_u256()` -/
  | asU (a : Ex .i) : Ex .u
  | divEuclid {k : Kind} (a b : Ex k) : Ex k
  | remEuclid {k : Kind} (a b : Ex k) : Ex k
  /-- `a.clamp(lo, hi)` -/
  | between {k : Kind} (a lo hi : Ex k) : Ex k
  | absDiff {k : Kind} (a b : Ex k) : Ex .u
  | signum (a : Ex .i) : Ex .i
  /-- `U256::from(a.count_ones())`, and so on -/
  | bits {k : Kind} (f : Bits) (a : Ex k) : Ex .u
  | wrappingNeg {k : Kind} (a : Ex k) : Ex k
  | wrappingAbs (a : Ex .i) : Ex .i
  | wrappingPow {k : Kind} (a : Ex k) (n : BitVec 32) : Ex k
  | saturatingPow {k : Kind} (a : Ex k) (n : BitVec 32) : Ex k
  | nextPowerOfTwo (a : Ex .u) : Ex .u
  | permute {k : Kind} (f : Perm) (a : Ex k) : Ex k

/-- A condition; `and` and `or` are `&&` and `||`, which may skip the second operand. -/
inductive Test where
  | cmp {k : Kind} (r : Rel) (a b : Ex k)
  /-- `a.overflowing_add(b).1`, and so on -/
  | overflows {k : Kind} (o : Arith) (a b : Ex k)
  | negative (a : Ex .i)
  | positive (a : Ex .i)
  | powerOfTwo (a : Ex .u)
  | not (p : Test)
  | and (p q : Test)
  | or (p q : Test)

/-- A checked operation. -/
inductive Checked where
  | add | sub | mul | div | rem | divEuclid | remEuclid
  deriving DecidableEq, Repr

/-- A checked operation on one value. -/
inductive Checked1 : Kind → Type where
  | neg {k : Kind} : Checked1 k
  | abs : Checked1 .i
  | pow {k : Kind} (n : BitVec 32) : Checked1 k
  | shl {k : Kind} (n : BitVec 32) : Checked1 k
  | shr {k : Kind} (n : BitVec 32) : Checked1 k
  | nextPowerOfTwo : Checked1 .u
  deriving DecidableEq, Repr

/-- How a line of input is parsed. -/
inductive TextIn where
  /-- `from_str_radix(line, r)` -/
  | radix (r : BitVec 32)
  /-- `from_str_hex(line)` -/
  | hex
  /-- `from_str_prefixed(line)` -/
  | prefixed
  deriving DecidableEq, Repr

/-- A program. -/
inductive Prog where
  | skip
  /-- `x = e` -/
  | set {k : Kind} (x : Nat) (e : Ex k)
  /-- `x += e`, and so on -/
  | upd {k : Kind} (o : Assign) (x : Nat) (e : Ex k)
  | seq (p q : Prog)
  | ite (t : Test) (p q : Prog)
  | loop (t : Test) (p : Prog)
  /-- `match a.checked_add(b) { Some(v) => x = v, None => q }`, and so on -/
  | checked {k : Kind} (o : Checked) (x : Nat) (a b : Ex k) (q : Prog)
  /-- `match I256::try_from(e) { Ok(v) => x = v, Err(_) => q }` for an unsigned `e` -/
  | toSigned (x : Nat) (e : Ex .u) (q : Prog)
  /-- `match U256::try_from(e) { Ok(v) => x = v, Err(_) => q }` for a signed `e` -/
  | toUnsigned (x : Nat) (e : Ex .i) (q : Prog)
  /-- Take the next line of input; `match line.parse() { Ok(v) => x = v, Err(_) => q }`; also `q` if there is none. -/
  | read (k : Kind) (x : Nat) (q : Prog)
  /-- Output `format!("{}", e)` as a line. -/
  | print {k : Kind} (e : Ex k)
  /-- `match a.checked_neg() { Some(v) => x = v, None => q }`, and so on -/
  | checked1 {k : Kind} (o : Checked1 k) (x : Nat) (a : Ex k) (q : Prog)
  /-- As `read`, with another parser. -/
  | readAs (f : TextIn) (k : Kind) (x : Nat) (q : Prog)
  /-- Output `format!("{:x}", e)`, or `format!("{:#x}", e)` if `alt`, and so on for the other bases. -/
  | printAs {k : Kind} (r : Radix) (alt : Bool) (e : Ex k)

/-! ### Meaning over the integers -/

/-- The number closest to `z` in the range of the type. -/
def Kind.clamp : Kind → Int → Int
  | .u, z => max 0 (min z (2 ^ 256 - 1))
  | .i, z => max (-2 ^ 255) (min z (2 ^ 255 - 1))

/-- The result of an operator whose exact result is `z`: a result that does not fit panics with debug assertions and wraps
without. -/
def Kind.fit (debug : Bool) (k : Kind) (z : Int) : Option Int :=
  if k.In z then some z else if debug = true then none else some (k.wrap z)

/-- The exact result. -/
def Arith.exact (x y : Int) : Arith → Int
  | .add => x + y
  | .sub => x - y
  | .mul => x * y

/-- The comparison of numbers. -/
def Rel.holds (x y : Int) : Rel → Bool
  | .lt => x < y
  | .le => x ≤ y
  | .gt => x > y
  | .ge => x ≥ y
  | .eq => x = y
  | .ne => x ≠ y

/-- The number with the given bits. -/
def Kind.literal : Kind → BitVec 128 → Int
  | .u, v => v.toNat
  | .i, v => v.toInt

/-- How many of the items in a list, from its start, satisfy a condition. -/
def runLength (p : Nat → Bool) (l : List Nat) : Nat := (l.takeWhile p).length

/-- The count for a number of 256 bits. -/
def Bits.count (n : Nat) : Bits → Nat
  | .ones => (List.range 256).countP fun i => n.testBit i
  | .zeros => (List.range 256).countP fun i => !n.testBit i
  | .leadingZeros => runLength (fun i => !n.testBit (255 - i)) (List.range 256)
  | .trailingZeros => runLength (fun i => !n.testBit i) (List.range 256)
  | .leadingOnes => runLength (fun i => n.testBit (255 - i)) (List.range 256)
  | .trailingOnes => runLength (fun i => n.testBit i) (List.range 256)

/-- Which bit of the operand becomes bit `i` of the result. -/
def Perm.source (i : Nat) : Perm → Nat
  | .rotateLeft n => (i + (256 - n.toNat)) % 256
  | .rotateRight n => (i + n.toNat) % 256
  | .swapBytes => 8 * (31 - i / 8) + i % 8
  | .reverseBits => 255 - i

/-- The number of 256 bits with the given bits. -/
def fromBits (f : Nat → Bool) : Nat := ((List.range 256).map fun i => if f i then 2 ^ i else 0).sum

/-- The least power of two that is not less than `n`, found by doubling. -/
def leastPower (n : Nat) : Nat → Nat → Nat
  | 0, p => p
  | fuel + 1, p => if n ≤ p then p else leastPower n fuel (2 * p)

/-- The value of an expression when the variables have the given numbers; `none` if it panics. -/
def Ex.value (debug : Bool) (ρ : Kind → Nat → Int) : {k : Kind} → Ex k → Option Int
  | k, .var n => some (ρ k n)
  | k, .lit v => some (k.literal v)
  | k, .op o a b => do o.result debug k (← a.value debug ρ) (← b.value debug ρ)
  | k, .wrapping o a b => do return k.wrap (o.exact (← a.value debug ρ) (← b.value debug ρ))
  | k, .saturating o a b => do return k.clamp (o.exact (← a.value debug ρ) (← b.value debug ρ))
  | k, .pow a n => do k.fit debug ((← a.value debug ρ) ^ n.toNat)
  | k, .shl a n => do return k.wrap ((← a.value debug ρ) * 2 ^ ((← n.value debug ρ) % 256).toNat)
  | _, .shr a n => do return (← a.value debug ρ) / 2 ^ ((← n.value debug ρ) % 256).toNat
  | k, .compl a => do return k.wrap (-(← a.value debug ρ) - 1)
  | _, .larger a b => do return max (← a.value debug ρ) (← b.value debug ρ)
  | _, .smaller a b => do return min (← a.value debug ρ) (← b.value debug ρ)
  | _, .neg a => do Kind.i.fit debug (-(← a.value debug ρ))
  | _, .abs a => do Kind.i.fit debug (← a.value debug ρ).natAbs
  | _, .unsignedAbs a => do return (← a.value debug ρ).natAbs
  | _, .asI a => do return Kind.i.wrap (← a.value debug ρ)
  | _, .asU a => do return Kind.u.wrap (← a.value debug ρ)
  | k, .divEuclid a b => do
    let x ← a.value debug ρ
    let y ← b.value debug ρ
    if y = 0 then none else some (k.wrap (x / y))
  | _, .remEuclid a b => do
    let x ← a.value debug ρ
    let y ← b.value debug ρ
    if y = 0 then none else some (x % y)
  | _, .between a lo hi => do
    let x ← a.value debug ρ
    let l ← lo.value debug ρ
    let h ← hi.value debug ρ
    if l ≤ h then some (max l (min x h)) else none
  | _, .absDiff a b => do return ((← a.value debug ρ) - (← b.value debug ρ)).natAbs
  | _, .signum a => do return (← a.value debug ρ).sign
  | _, .bits f a => do return f.count ((← a.value debug ρ) % 2 ^ 256).toNat
  | k, .wrappingNeg a => do return k.wrap (-(← a.value debug ρ))
  | _, .wrappingAbs a => do return Kind.i.wrap (← a.value debug ρ).natAbs
  | k, .wrappingPow a n => do return k.wrap ((← a.value debug ρ) ^ n.toNat)
  | k, .saturatingPow a n => do return k.clamp ((← a.value debug ρ) ^ n.toNat)
  | _, .nextPowerOfTwo a => do Kind.u.fit debug (leastPower (← a.value debug ρ).toNat 256 1)
  | k, .permute f a => do
    let x ← a.value debug ρ
    return k.wrap (fromBits fun i => (x % 2 ^ 256).toNat.testBit (f.source i))

/-- Whether a condition holds; `none` if it panics. -/
def Test.value (debug : Bool) (ρ : Kind → Nat → Int) : Test → Option Bool
  | .cmp r a b => do return r.holds (← a.value debug ρ) (← b.value debug ρ)
  | .overflows (k := k) o a b => do return decide ¬ k.In (o.exact (← a.value debug ρ) (← b.value debug ρ))
  | .negative a => do return decide ((← a.value debug ρ) < 0)
  | .positive a => do return decide (0 < (← a.value debug ρ))
  | .powerOfTwo a => do
    let x ← a.value debug ρ
    return (List.range 256).any fun i => x = 2 ^ i
  | .not p => do return !(← p.value debug ρ)
  | .and p q => do if ← p.value debug ρ then q.value debug ρ else return false
  | .or p q => do if ← p.value debug ρ then return true else q.value debug ρ

/-- The result of a checked operation: `none` if it does not fit or the divisor is zero. The remainder of the one division
that does not fit counts as not fitting. -/
def Checked.exact (k : Kind) (x y : Int) (o : Checked) : Option Int :=
  match o with
  | .add => if k.In (x + y) then some (x + y) else none
  | .sub => if k.In (x - y) then some (x - y) else none
  | .mul => if k.In (x * y) then some (x * y) else none
  | .div => if y ≠ 0 ∧ k.In (x.tdiv y) then some (x.tdiv y) else none
  | .rem => if y ≠ 0 ∧ k.In (x.tdiv y) then some (x.tmod y) else none
  | .divEuclid => if y ≠ 0 ∧ k.In (x / y) then some (x / y) else none
  | .remEuclid => if y ≠ 0 ∧ k.In (x / y) then some (x % y) else none

/-- The same for an operation on one value. A shift fits if its amount is less than 256, whatever bits it drops. -/
def Checked1.exact (x : Int) : {k : Kind} → Checked1 k → Option Int
  | k, .neg => if k.In (-x) then some (-x) else none
  | _, .abs => if Kind.i.In x.natAbs then some x.natAbs else none
  | k, .pow n => if k.In (x ^ n.toNat) then some (x ^ n.toNat) else none
  | k, .shl n => if n.toNat < 256 then some (k.wrap (x * 2 ^ n.toNat)) else none
  | _, .shr n => if n.toNat < 256 then some (x / 2 ^ n.toNat) else none
  | _, .nextPowerOfTwo => if x ≤ 2 ^ 255 then some (leastPower x.toNat 256 1) else none

/-- The number that a non-empty string of decimal digits denotes. -/
def decimal (s : List (BitVec 8)) : Option Nat :=
  if s ≠ [] ∧ ∀ b ∈ s, 48 ≤ b.toNat ∧ b.toNat ≤ 57 then some (s.foldl (fun v b => v * 10 + (b.toNat - 48)) 0) else none

/-- The number that a line of input denotes: decimal digits after an optional `+`, or `-` for the signed type. -/
def Kind.denoted : Kind → List (BitVec 8) → Option Int
  | .u, s => (decimal (dropPlus s)).map fun n : Nat => (n : Int)
  | .i, s =>
    if s.head? = some 45 then (decimal s.tail).map fun n : Nat => -(n : Int)
    else (decimal (dropPlus s)).map fun n : Nat => (n : Int)

/-- The same if it fits. -/
def Kind.parse (k : Kind) (s : List (BitVec 8)) : Option Int :=
  (k.denoted s).bind fun z => if k.In z then some z else none

/-- The value of a byte as a digit: `0`–`9`, then letters of either case. -/
def digitValue (r : Nat) (b : BitVec 8) : Option Nat :=
  let d := if 48 ≤ b.toNat ∧ b.toNat ≤ 57 then b.toNat - 48
    else if 97 ≤ b.toNat ∧ b.toNat ≤ 122 then b.toNat - 97 + 10
    else if 65 ≤ b.toNat ∧ b.toNat ≤ 90 then b.toNat - 65 + 10 else r
  if d < r then some d else none

/-- The number that the digits after `v` denote. -/
def digitsFrom (r : Nat) : Nat → List (BitVec 8) → Option Nat
  | v, [] => some v
  | v, b :: s => do digitsFrom r (v * r + (← digitValue r b)) s

/-- The number that a non-empty string of digits denotes. -/
def numeral (r : Nat) (s : List (BitVec 8)) : Option Nat := if s = [] then none else digitsFrom r 0 s

/-- The number that a text without a sign denotes. -/
def TextIn.magnitude (s : List (BitVec 8)) : TextIn → Option Nat
  | .radix r => numeral r.toNat s
  | .hex => if s.take 2 = str "0x" then numeral 16 (s.drop 2) else none
  | .prefixed =>
    if s.take 2 = str "0b" then numeral 2 (s.drop 2)
    else if s.take 2 = str "0o" then numeral 8 (s.drop 2)
    else if s.take 2 = str "0x" then numeral 16 (s.drop 2)
    else numeral 10 s

/-- The number that a line of input denotes, with an optional `+`, or `-` for the signed type. -/
def TextIn.denoted (f : TextIn) : Kind → List (BitVec 8) → Option Int
  | .u, s => (f.magnitude (dropPlus s)).map fun n : Nat => (n : Int)
  | .i, s =>
    if s.head? = some 45 then (f.magnitude s.tail).map fun n : Nat => -(n : Int)
    else (f.magnitude (dropPlus s)).map fun n : Nat => (n : Int)

/-- The same if it fits. -/
def TextIn.parse (f : TextIn) (k : Kind) (s : List (BitVec 8)) : Option Int :=
  (f.denoted k s).bind fun z => if k.In z then some z else none

/-- Whether the parser panics, which it does if the base is not one of 2 to 36. -/
def TextIn.bad : TextIn → Bool
  | .radix r => r.toNat < 2 || 36 < r.toNat
  | _ => false

/-- The digits of the bits of a number, after a prefix if `alt`. -/
def textOut (r : Radix) (alt : Bool) (z : Int) : List Char :=
  (if alt = true then r.pfx else []) ++ r.numeral (z % 2 ^ 256).toNat

/-- The state of a program: the numbers of the variables, the lines of input that are left, the lines written. -/
@[ext] structure Numbers where
  var : Kind → Nat → Int
  input : List (List (BitVec 8))
  output : List (List Char)

/-- A variable assigned to. -/
def Numbers.set (σ : Numbers) (k : Kind) (x : Nat) (z : Int) : Numbers :=
  { σ with var := fun k' x' => if k' = k ∧ x' = x then z else σ.var k' x' }

/-- Why there is no final state. -/
inductive Stop where
  | panic
  /-- The program needs more steps than allowed. -/
  | unfinished
  deriving DecidableEq, Repr

/-- A result that is missing because of a panic. -/
def orPanic {α : Type} : Option α → Except Stop α
  | some a => .ok a
  | none => .error .panic

/-- Running a program for a number of steps. -/
def Prog.exact (debug : Bool) : Nat → Prog → Numbers → Except Stop Numbers
  | 0, _, _ => .error .unfinished
  | n + 1, p, σ => match p with
    | .skip => .ok σ
    | .set (k := k) x e => do return σ.set k x (← orPanic (e.value debug σ.var))
    | .upd (k := k) o x e => do
      let z ← orPanic (e.value debug σ.var)
      return σ.set k x (← orPanic (o.result debug k (σ.var k x) z))
    | .seq p q => do q.exact debug n (← p.exact debug n σ)
    | .ite t p q => do if ← orPanic (t.value debug σ.var) then p.exact debug n σ else q.exact debug n σ
    | .loop t p => do
      if ← orPanic (t.value debug σ.var) then Prog.exact debug n (.loop t p) (← p.exact debug n σ) else return σ
    | .checked (k := k) o x a b q => do
      match o.exact k (← orPanic (a.value debug σ.var)) (← orPanic (b.value debug σ.var)) with
      | some z => return σ.set k x z
      | none => q.exact debug n σ
    | .toSigned x e q => do
      let z ← orPanic (e.value debug σ.var)
      if z < 2 ^ 255 then return σ.set .i x z else q.exact debug n σ
    | .toUnsigned x e q => do
      let z ← orPanic (e.value debug σ.var)
      if 0 ≤ z then return σ.set .u x z else q.exact debug n σ
    | .read k x q => match σ.input with
      | [] => q.exact debug n σ
      | l :: ls => match k.parse l with
        | some z => return { σ with input := ls }.set k x z
        | none => q.exact debug n { σ with input := ls }
    | .print e => do
      let z ← orPanic (e.value debug σ.var)
      return { σ with output := σ.output ++ [(toString z).toList] }
    | .checked1 (k := k) o x a q => do
      match o.exact (← orPanic (a.value debug σ.var)) with
      | some z => return σ.set k x z
      | none => q.exact debug n σ
    | .readAs f k x q => match σ.input with
      | [] => q.exact debug n σ
      | l :: ls =>
        if f.bad = true then .error .panic
        else match f.parse k l with
          | some z => return { σ with input := ls }.set k x z
          | none => q.exact debug n { σ with input := ls }
    | .printAs r alt e => do
      let z ← orPanic (e.value debug σ.var)
      return { σ with output := σ.output ++ [textOut r alt z] }

/-! ### The same with the crate -/

/-- The type of an expression. -/
abbrev Kind.Val : Kind → Type
  | .u => U256
  | .i => I256

/-- The number that a value holds. -/
def Kind.num (c : Cfg) : (k : Kind) → k.Val → Int
  | .u, v => U256.toNat c v
  | .i, v => I256.toInt c v

/-- `a + b`, … for either type. -/
def Assign.evalOp (c : Cfg) : (k : Kind) → Assign → k.Val → k.Val → Res k.Val
  | .u, .add, a, b => U256.add c a b
  | .u, .sub, a, b => U256.sub c a b
  | .u, .mul, a, b => U256.mul c a b
  | .u, .div, a, b => U256.div c a b
  | .u, .rem, a, b => U256.rem c a b
  | .u, .and, a, b => .ok (U256.bitand a b)
  | .u, .or, a, b => .ok (U256.bitor a b)
  | .u, .xor, a, b => .ok (U256.bitxor a b)
  | .i, .add, a, b => I256.add c a b
  | .i, .sub, a, b => I256.sub c a b
  | .i, .mul, a, b => I256.mul c a b
  | .i, .div, a, b => I256.div c a b
  | .i, .rem, a, b => I256.rem c a b
  | .i, .and, a, b => .ok (I256.bitand a b)
  | .i, .or, a, b => .ok (I256.bitor a b)
  | .i, .xor, a, b => .ok (I256.bitxor a b)

/-- `a += b`, … for either type: the value of `a` afterwards. -/
def Assign.evalAssign (c : Cfg) : (k : Kind) → Assign → k.Val → k.Val → Res k.Val
  | .u, .add, a, b => U256.add_assign c a b
  | .u, .sub, a, b => U256.sub_assign c a b
  | .u, .mul, a, b => U256.mul_assign c a b
  | .u, .div, a, b => U256.div_assign c a b
  | .u, .rem, a, b => U256.rem_assign c a b
  | .u, .and, a, b => .ok (U256.bitand_assign a b)
  | .u, .or, a, b => .ok (U256.bitor_assign a b)
  | .u, .xor, a, b => .ok (U256.bitxor_assign a b)
  | .i, .add, a, b => I256.add_assign c a b
  | .i, .sub, a, b => I256.sub_assign c a b
  | .i, .mul, a, b => I256.mul_assign c a b
  | .i, .div, a, b => I256.div_assign c a b
  | .i, .rem, a, b => I256.rem_assign c a b
  | .i, .and, a, b => .ok (I256.bitand_assign a b)
  | .i, .or, a, b => .ok (I256.bitor_assign a b)
  | .i, .xor, a, b => .ok (I256.bitxor_assign a b)

/-- `a.wrapping_add(b)`, … -/
def Arith.evalWrapping (c : Cfg) : (k : Kind) → Arith → k.Val → k.Val → Res k.Val
  | .u, .add, a, b => .ok (U256.wrapping_add c a b)
  | .u, .sub, a, b => .ok (U256.wrapping_sub c a b)
  | .u, .mul, a, b => U256.wrapping_mul c a b
  | .i, .add, a, b => .ok (I256.wrapping_add c a b)
  | .i, .sub, a, b => .ok (I256.wrapping_sub c a b)
  | .i, .mul, a, b => I256.wrapping_mul c a b

/-- `a.saturating_add(b)`, … -/
def Arith.evalSaturating (c : Cfg) : (k : Kind) → Arith → k.Val → k.Val → Res k.Val
  | .u, .add, a, b => .ok (U256.saturating_add c a b)
  | .u, .sub, a, b => .ok (U256.saturating_sub c a b)
  | .u, .mul, a, b => U256.saturating_mul c a b
  | .i, .add, a, b => .ok (I256.saturating_add c a b)
  | .i, .sub, a, b => .ok (I256.saturating_sub c a b)
  | .i, .mul, a, b => I256.saturating_mul c a b

/-- `a < b`, … -/
def Rel.eval (c : Cfg) : (k : Kind) → Rel → k.Val → k.Val → Bool
  | .u, .lt, a, b => U256.lt c a b
  | .u, .le, a, b => U256.le c a b
  | .u, .gt, a, b => U256.gt c a b
  | .u, .ge, a, b => U256.ge c a b
  | .u, .eq, a, b => U256.eq c a b
  | .u, .ne, a, b => U256.ne c a b
  | .i, .lt, a, b => I256.lt c a b
  | .i, .le, a, b => I256.le c a b
  | .i, .gt, a, b => I256.gt c a b
  | .i, .ge, a, b => I256.ge c a b
  | .i, .eq, a, b => I256.eq c a b
  | .i, .ne, a, b => I256.ne c a b

/-- `a.checked_add(b)`, … -/
def Checked.eval (c : Cfg) : (k : Kind) → Checked → k.Val → k.Val → Res (Option k.Val)
  | .u, .add, a, b => .ok (U256.checked_add c a b)
  | .u, .sub, a, b => .ok (U256.checked_sub c a b)
  | .u, .mul, a, b => U256.checked_mul c a b
  | .u, .div, a, b => U256.checked_div c a b
  | .u, .rem, a, b => U256.checked_rem c a b
  | .u, .divEuclid, a, b => U256.checked_div_euclid c a b
  | .u, .remEuclid, a, b => U256.checked_rem_euclid c a b
  | .i, .add, a, b => .ok (I256.checked_add c a b)
  | .i, .sub, a, b => .ok (I256.checked_sub c a b)
  | .i, .mul, a, b => I256.checked_mul c a b
  | .i, .div, a, b => I256.checked_div c a b
  | .i, .rem, a, b => I256.checked_rem c a b
  | .i, .divEuclid, a, b => I256.checked_div_euclid c a b
  | .i, .remEuclid, a, b => I256.checked_rem_euclid c a b

/-- `a.checked_neg()`, … -/
def Checked1.eval (c : Cfg) : {k : Kind} → Checked1 k → k.Val → Res (Option k.Val)
  | .u, .neg, a => .ok (U256.checked_neg c a)
  | .i, .neg, a => I256.checked_neg c a
  | _, .abs, a => I256.checked_abs c a
  | .u, .pow n, a => U256.checked_pow c a n
  | .i, .pow n, a => I256.checked_pow c a n
  | .u, .shl n, a => U256.checked_shl c a n
  | .i, .shl n, a => I256.checked_shl c a n
  | .u, .shr n, a => U256.checked_shr c a n
  | .i, .shr n, a => I256.checked_shr c a n
  | _, .nextPowerOfTwo, a => U256.checked_next_power_of_two c a

/-- `U256::new` or `I256::new` -/
def Kind.new (c : Cfg) : (k : Kind) → BitVec 128 → k.Val
  | .u, v => U256.new c v
  | .i, v => I256.new c v
/-- `a.pow(n)` -/
def Kind.pow (c : Cfg) : (k : Kind) → k.Val → BitVec 32 → Res k.Val
  | .u, a, n => U256.pow c a n
  | .i, a, n => I256.pow c a n
/-- `a.as_u32()` -/
def Kind.asU32 (c : Cfg) : (k : Kind) → k.Val → BitVec 32
  | .u, a => U256.as_prim c .u32 a
  | .i, a => I256.as_prim c .u32 a
/-- `a.wrapping_shl(n)` -/
def Kind.shl (c : Cfg) : (k : Kind) → k.Val → BitVec 32 → Res k.Val
  | .u, a, n => U256.wrapping_shl c a n
  | .i, a, n => I256.wrapping_shl c a n
/-- `a.wrapping_shr(n)` -/
def Kind.shr (c : Cfg) : (k : Kind) → k.Val → BitVec 32 → Res k.Val
  | .u, a, n => U256.wrapping_shr c a n
  | .i, a, n => I256.wrapping_shr c a n
/-- `!a` -/
def Kind.compl : (k : Kind) → k.Val → k.Val
  | .u, a => U256.not a
  | .i, a => I256.not a
/-- `a.max(b)` -/
def Kind.larger (c : Cfg) : (k : Kind) → k.Val → k.Val → k.Val
  | .u, a, b => U256.max c a b
  | .i, a, b => I256.max c a b
/-- `a.min(b)` -/
def Kind.smaller (c : Cfg) : (k : Kind) → k.Val → k.Val → k.Val
  | .u, a, b => U256.min c a b
  | .i, a, b => I256.min c a b
/-- `line.parse()` -/
def Kind.fromStr (c : Cfg) : (k : Kind) → List (BitVec 8) → Res (ParseResult k.Val)
  | .u, s => U256.from_str c s
  | .i, s => I256.from_str c s
/-- `format!("{}", a)` -/
def Kind.display (c : Cfg) : (k : Kind) → k.Val → Res (List Char)
  | .u, a => U256.display c a .default
  | .i, a => I256.display c a .default

/-- `a.div_euclid(b)` -/
def Kind.divEuclid (c : Cfg) : (k : Kind) → k.Val → k.Val → Res k.Val
  | .u, a, b => U256.div_euclid c a b
  | .i, a, b => I256.div_euclid c a b
/-- `a.rem_euclid(b)` -/
def Kind.remEuclid (c : Cfg) : (k : Kind) → k.Val → k.Val → Res k.Val
  | .u, a, b => U256.rem_euclid c a b
  | .i, a, b => I256.rem_euclid c a b
/-- `a.clamp(lo, hi)` -/
def Kind.between (c : Cfg) : (k : Kind) → k.Val → k.Val → k.Val → Res k.Val
  | .u, a, lo, hi => U256.clamp c a lo hi
  | .i, a, lo, hi => I256.clamp c a lo hi
/-- `a.abs_diff(b)` -/
def Kind.absDiff (c : Cfg) : (k : Kind) → k.Val → k.Val → Res U256
  | .u, a, b => U256.abs_diff c a b
  | .i, a, b => .ok (I256.abs_diff c a b)
/-- `a.count_ones()`, … -/
def Bits.eval (c : Cfg) : (k : Kind) → Bits → k.Val → Res (BitVec 32)
  | .u, .ones, a => U256.count_ones c a
  | .u, .zeros, a => U256.count_zeros c a
  | .u, .leadingZeros, a => U256.leading_zeros c a
  | .u, .trailingZeros, a => U256.trailing_zeros c a
  | .u, .leadingOnes, a => U256.leading_ones c a
  | .u, .trailingOnes, a => U256.trailing_ones c a
  | .i, .ones, a => I256.count_ones c a
  | .i, .zeros, a => I256.count_zeros c a
  | .i, .leadingZeros, a => I256.leading_zeros c a
  | .i, .trailingZeros, a => I256.trailing_zeros c a
  | .i, .leadingOnes, a => I256.leading_ones c a
  | .i, .trailingOnes, a => I256.trailing_ones c a
/-- `a.overflowing_add(b).1`, … -/
def Arith.evalOverflows (c : Cfg) : (k : Kind) → Arith → k.Val → k.Val → Res Bool
  | .u, .add, a, b => .ok (U256.overflowing_add c a b).2
  | .u, .sub, a, b => .ok (U256.overflowing_sub c a b).2
  | .u, .mul, a, b => do return (← U256.overflowing_mul c a b).2
  | .i, .add, a, b => .ok (I256.overflowing_add c a b).2
  | .i, .sub, a, b => .ok (I256.overflowing_sub c a b).2
  | .i, .mul, a, b => do return (← I256.overflowing_mul c a b).2

/-- `a.wrapping_neg()` -/
def Kind.wrappingNeg (c : Cfg) : (k : Kind) → k.Val → k.Val
  | .u, a => U256.wrapping_neg c a
  | .i, a => I256.wrapping_neg c a
/-- `a.wrapping_pow(n)` -/
def Kind.wrappingPow (c : Cfg) : (k : Kind) → k.Val → BitVec 32 → Res k.Val
  | .u, a, n => U256.wrapping_pow c a n
  | .i, a, n => I256.wrapping_pow c a n
/-- `a.saturating_pow(n)` -/
def Kind.saturatingPow (c : Cfg) : (k : Kind) → k.Val → BitVec 32 → Res k.Val
  | .u, a, n => U256.saturating_pow c a n
  | .i, a, n => I256.saturating_pow c a n
/-- `a.rotate_left(u32::from(n))`, … -/
def Perm.eval (c : Cfg) : (k : Kind) → Perm → k.Val → Res k.Val
  | .u, .rotateLeft n, a => U256.rotate_left c a (n.zeroExtend 32)
  | .u, .rotateRight n, a => U256.rotate_right c a (n.zeroExtend 32)
  | .u, .swapBytes, a => .ok (U256.swap_bytes a)
  | .u, .reverseBits, a => .ok (U256.reverse_bits a)
  | .i, .rotateLeft n, a => I256.rotate_left c a (n.zeroExtend 32)
  | .i, .rotateRight n, a => I256.rotate_right c a (n.zeroExtend 32)
  | .i, .swapBytes, a => .ok (I256.swap_bytes a)
  | .i, .reverseBits, a => .ok (I256.reverse_bits a)
/-- `from_str_radix(line, r)`, … -/
def TextIn.eval (c : Cfg) : (k : Kind) → TextIn → List (BitVec 8) → Res (ParseResult k.Val)
  | .u, .radix r, s => U256.from_str_radix c s r
  | .u, .hex, s => U256.from_str_hex c s
  | .u, .prefixed, s => U256.from_str_prefixed c s
  | .i, .radix r, s => I256.from_str_radix c s r
  | .i, .hex, s => I256.from_str_hex c s
  | .i, .prefixed, s => I256.from_str_prefixed c s
/-- The settings of `{:x}`, or of `{:#x}` if `alt`. -/
def plainSpec (alt : Bool) : FormatSpec where
  plus := false
  minus := false
  alternate := alt
  zero := false
  hexLower := false
  hexUpper := false
  width := none
  fill := ' '
  align := none
/-- `format!("{:x}", a)`, … -/
def Kind.formatRadix (c : Cfg) : (k : Kind) → Radix → Bool → k.Val → Res (List Char)
  | .u, r, alt, a => U256.fmtRadix c r a (plainSpec alt).formatter
  | .i, r, alt, a => I256.fmtRadix c r a (plainSpec alt).formatter

/-- The expression computed with the crate. -/
def Ex.eval (c : Cfg) (ρ : (k : Kind) → Nat → k.Val) : {k : Kind} → Ex k → Res k.Val
  | k, .var n => .ok (ρ k n)
  | k, .lit v => .ok (k.new c v)
  | k, .op o a b => do o.evalOp c k (← a.eval c ρ) (← b.eval c ρ)
  | k, .wrapping o a b => do o.evalWrapping c k (← a.eval c ρ) (← b.eval c ρ)
  | k, .saturating o a b => do o.evalSaturating c k (← a.eval c ρ) (← b.eval c ρ)
  | k, .pow a n => do k.pow c (← a.eval c ρ) n
  | k, .shl (j := j) a n => do k.shl c (← a.eval c ρ) (j.asU32 c (← n.eval c ρ))
  | k, .shr (j := j) a n => do k.shr c (← a.eval c ρ) (j.asU32 c (← n.eval c ρ))
  | k, .compl a => do return k.compl (← a.eval c ρ)
  | k, .larger a b => do return k.larger c (← a.eval c ρ) (← b.eval c ρ)
  | k, .smaller a b => do return k.smaller c (← a.eval c ρ) (← b.eval c ρ)
  | _, .neg a => do I256.neg c (← a.eval c ρ)
  | _, .abs a => do I256.abs c (← a.eval c ρ)
  | _, .unsignedAbs a => do return I256.unsigned_abs c (← a.eval c ρ)
  | _, .asI a => do return U256.as_i256 (← a.eval c ρ)
  | _, .asU a => do return I256.as_u256 (← a.eval c ρ)
  | k, .divEuclid a b => do k.divEuclid c (← a.eval c ρ) (← b.eval c ρ)
  | k, .remEuclid a b => do k.remEuclid c (← a.eval c ρ) (← b.eval c ρ)
  | k, .between a lo hi => do k.between c (← a.eval c ρ) (← lo.eval c ρ) (← hi.eval c ρ)
  | _, .absDiff (k := k) a b => do k.absDiff c (← a.eval c ρ) (← b.eval c ρ)
  | _, .signum a => do return I256.signum c (← a.eval c ρ)
  | _, .bits (k := k) f a => do return U256.from_prim c .u32 (← f.eval c k (← a.eval c ρ))
  | k, .wrappingNeg a => do return k.wrappingNeg c (← a.eval c ρ)
  | _, .wrappingAbs a => do return I256.wrapping_abs c (← a.eval c ρ)
  | k, .wrappingPow a n => do k.wrappingPow c (← a.eval c ρ) n
  | k, .saturatingPow a n => do k.saturatingPow c (← a.eval c ρ) n
  | _, .nextPowerOfTwo a => do U256.next_power_of_two c (← a.eval c ρ)
  | k, .permute f a => do f.eval c k (← a.eval c ρ)

/-- The condition computed with the crate. -/
def Test.eval (c : Cfg) (ρ : (k : Kind) → Nat → k.Val) : Test → Res Bool
  | .cmp (k := k) r a b => do return r.eval c k (← a.eval c ρ) (← b.eval c ρ)
  | .overflows (k := k) o a b => do o.evalOverflows c k (← a.eval c ρ) (← b.eval c ρ)
  | .negative a => do return I256.is_negative c (← a.eval c ρ)
  | .positive a => do return I256.is_positive c (← a.eval c ρ)
  | .powerOfTwo a => do U256.is_power_of_two c (← a.eval c ρ)
  | .not p => do return !(← p.eval c ρ)
  | .and p q => do if ← p.eval c ρ then q.eval c ρ else return false
  | .or p q => do if ← p.eval c ρ then return true else q.eval c ρ

/-- The state with values of the crate. -/
structure Store where
  var : (k : Kind) → Nat → k.Val
  input : List (List (BitVec 8))
  output : List (List Char)

/-- A variable assigned to. -/
def Store.set (σ : Store) (k : Kind) (x : Nat) (v : k.Val) : Store :=
  { σ with var := fun k' x' => if h : k' = k then if x' = x then h ▸ v else σ.var k' x' else σ.var k' x' }

/-- The numbers of a state. -/
def Store.numbers (c : Cfg) (σ : Store) : Numbers := ⟨fun k x => k.num c (σ.var k x), σ.input, σ.output⟩

/-- Running the program with the crate for a number of steps; running out of steps is reported as `diverge`. -/
def Prog.run (c : Cfg) : Nat → Prog → Store → Res Store
  | 0, _, _ => .error .diverge
  | n + 1, p, σ => match p with
    | .skip => .ok σ
    | .set (k := k) x e => do return σ.set k x (← e.eval c σ.var)
    | .upd (k := k) o x e => do
      let v ← e.eval c σ.var
      return σ.set k x (← o.evalAssign c k (σ.var k x) v)
    | .seq p q => do q.run c n (← p.run c n σ)
    | .ite t p q => do if ← t.eval c σ.var then p.run c n σ else q.run c n σ
    | .loop t p => do if ← t.eval c σ.var then Prog.run c n (.loop t p) (← p.run c n σ) else return σ
    | .checked (k := k) o x a b q => do
      match ← o.eval c k (← a.eval c σ.var) (← b.eval c σ.var) with
      | some v => return σ.set k x v
      | none => q.run c n σ
    | .toSigned x e q => do
      match I256.try_from_u256 c (← e.eval c σ.var) with
      | some v => return σ.set .i x v
      | none => q.run c n σ
    | .toUnsigned x e q => do
      match U256.try_from_i256 c (← e.eval c σ.var) with
      | some v => return σ.set .u x v
      | none => q.run c n σ
    | .read k x q => match σ.input with
      | [] => q.run c n σ
      | l :: ls => do
        match ← k.fromStr c l with
        | .ok v => return { σ with input := ls }.set k x v
        | .error _ => q.run c n { σ with input := ls }
    | .print (k := k) e => do
      let s ← k.display c (← e.eval c σ.var)
      return { σ with output := σ.output ++ [s] }
    | .checked1 (k := k) o x a q => do
      match ← o.eval c (← a.eval c σ.var) with
      | some v => return σ.set k x v
      | none => q.run c n σ
    | .readAs f k x q => match σ.input with
      | [] => q.run c n σ
      | l :: ls => do
        match ← f.eval c k l with
        | .ok v => return { σ with input := ls }.set k x v
        | .error _ => q.run c n { σ with input := ls }
    | .printAs (k := k) r alt e => do
      let s ← k.formatRadix c r alt (← e.eval c σ.var)
      return { σ with output := σ.output ++ [s] }

/-! ### Agreement -/

/-- The outcome of a run with the crate is the one over the integers: the same numbers in every variable, the same input
left and the same lines written; or both panic; or both need more steps. -/
def Agrees (c : Cfg) : Except Stop Numbers → Res Store → Prop
  | .ok τ, r => ∃ σ, r = .ok σ ∧ σ.numbers c = τ
  | .error .panic, r => Panics r
  | .error .unfinished, r => r = .error .diverge

/-- The program ends in the given state. -/
def Prog.Ends (debug : Bool) (p : Prog) (σ τ : Numbers) : Prop := ∃ n, p.exact debug n σ = .ok τ
/-- The program panics. -/
def Prog.Fails (debug : Bool) (p : Prog) (σ : Numbers) : Prop := ∃ n, p.exact debug n σ = .error .panic
/-- The program never ends. -/
def Prog.Endless (debug : Bool) (p : Prog) (σ : Numbers) : Prop := ∀ n, p.exact debug n σ = .error .unfinished

end Ethnum
