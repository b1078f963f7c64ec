import Verif.Model.Mem

/-
The functions of Model/Mem.lean once more, now with every access to memory as a step of its own, between which other
threads may run. The text of the functions is that of Model/Mem.lean, in another monad; that nothing else changed is
proved (Proofs/Steps.lean).

Simplification: a step reads or writes one 128-bit word at once. The machine may split it further; a word that no other thread
writes meanwhile (which is what C72 shows) has the same value for all of the parts.
-/

namespace Ethnum.Steps

/-- Code as a tree of steps: what comes next, as a function of what the step gives. The word of an object is that at index 1
if `i` is true, else that at index 0. -/
inductive P (α : Type) where
  /-- the code has returned or panicked -/
  | done (r : Res α)
  /-- a word is read; undefined behaviour if there is none -/
  | read (i : Bool) (p : Loc) (k : Res U128 → P α)
  /-- a word is written -/
  | write (i : Bool) (p : Loc) (w : U128) (k : Res Unit → P α)
  /-- a local variable begins to live; it is given an address -/
  | enter (x : Cell) (k : Loc → P α)
  /-- the local variables from an address on are gone -/
  | leave (n : Loc) (k : P α)

namespace P

/-- The first code, then the second with its result; after a panic, nothing. -/
def andThen {α β : Type} (f : α → P β) : P α → P β
  | .done (.ok x) => f x
  | .done (.error e) => .done (.error e)
  | .read i p k => .read i p fun r => andThen f (k r)
  | .write i p w k => .write i p w fun r => andThen f (k r)
  | .enter x k => .enter x fun l => andThen f (k l)
  | .leave n k => .leave n (andThen f k)

instance : Monad P where
  pure x := .done (.ok x)
  bind p f := andThen f p

/-- A computation on values. -/
def lift {α : Type} (r : Res α) : P α := .done r

/-- The code, and the end of the local variable at `l` when it returns or panics. -/
def leaving {α : Type} (l : Loc) : P α → P α
  | .done r => .leave l (.done r)
  | .read i p k => .read i p fun r => leaving l (k r)
  | .write i p w k => .write i p w fun r => leaving l (k r)
  | .enter x k => .enter x fun m => leaving l (k m)
  | .leave n k => .leave n (leaving l k)

/-- `let mut x = …;` where `k` uses `&mut x`: the object is gone when `k` returns or panics. -/
def withLocal {α : Type} (x : Cell) (k : Loc → P α) : P α := .enter x fun l => leaving l (k l)

/-- Reading the word at index 0 of an object. -/
def rd0 (p : Loc) : P U128 := .read false p .done
/-- Reading the word at index 1 of an object. -/
def rd1 (p : Loc) : P U128 := .read true p .done
/-- Writing the word at index 0 of an object. -/
def wr0 (p : Loc) (w : U128) : P Unit := .write false p w .done
/-- Writing the word at index 1 of an object. -/
def wr1 (p : Loc) (w : U128) : P Unit := .write true p w .done

/-- `*x.low()` (src/uint.rs 60-71, src/int.rs 64-75) -/
def low (c : Cfg) (p : Loc) : P U128 := if c.bigEndian then rd1 p else rd0 p
/-- `*x.high()` (src/uint.rs 87-98, src/int.rs 90-101) -/
def high (c : Cfg) (p : Loc) : P U128 := if c.bigEndian then rd0 p else rd1 p
/-- `*x.low_mut() = w` (src/uint.rs 73-85, src/int.rs 77-88) -/
def setLow (c : Cfg) (p : Loc) (w : U128) : P Unit := if c.bigEndian then wr1 p w else wr0 p w
/-- `*x.high_mut() = w` (src/uint.rs 100-112, src/int.rs 103-115) -/
def setHigh (c : Cfg) (p : Loc) (w : U128) : P Unit := if c.bigEndian then wr0 p w else wr1 p w

/-- `*x` for `x: &U256`; also `x.assume_init()` and `x.assume_init_ref()` of a `MaybeUninit<U256>` -/
def rd (p : Loc) : P U256 := do
  let a ← rd0 p
  let b ← rd1 p
  return ⟨a, b⟩
/-- `*x = v` for `x: &mut U256`, `x.write(v)` for `x: &mut MaybeUninit<U256>` -/
def wr (p : Loc) (v : U256) : P Unit := do
  wr0 p v.w0
  wr1 p v.w1
/-- `*x` for `x: &I256`, and `assume_init` -/
def ird (p : Loc) : P I256 := do
  let a ← rd0 p
  let b ← rd1 p
  return ⟨a, b⟩
/-- `*x = v` for `x: &mut I256`, and `x.write(v)` -/
def iwr (p : Loc) (v : I256) : P Unit := do
  wr0 p v.w0
  wr1 p v.w1

end P

open P

namespace MemNative

/-- src/intrinsics/native/add.rs 7-11 -/
def add2 (c : Cfg) (r a : Loc) : P Unit := do
  let (lo, carry) := overflowingAdd (← low c r) (← low c a)
  setLow c r lo
  setHigh c r ((← high c r) + ofBool 128 carry + (← high c a))

/-- src/intrinsics/native/add.rs 14-19 -/
def add3 (c : Cfg) (r a b : Loc) : P Unit := do
  let (lo, carry) := overflowingAdd (← low c a) (← low c b)
  let hi := (← high c a) + ofBool 128 carry + (← high c b)
  wr r (U256.from_words c hi lo)

/-- src/intrinsics/native/add.rs 22-29 -/
def uaddc (c : Cfg) (r a b : Loc) : P Bool := do
  let (lo, carry_lo) := overflowingAdd (← low c a) (← low c b)
  let (hi, carry_c) := overflowingAdd (← high c a) (ofBool 128 carry_lo)
  let (hi, carry_hi) := overflowingAdd hi (← high c b)
  wr r (U256.from_words c hi lo)
  return carry_c || carry_hi

/-- src/intrinsics/native/add.rs 32-36: `a` and `b` are read again after `r` was written -/
def iaddc (c : Cfg) (r a b : Loc) : P Bool := do
  add3 c r a b
  let s ← ird r
  let a ← ird a
  let b ← ird b
  return (b.ge_prim c 0 && s.lt c a) || (b.lt_prim c 0 && s.ge c a)

/-- src/intrinsics/native/sub.rs 7-11 -/
def sub2 (c : Cfg) (r a : Loc) : P Unit := do
  let (lo, carry) := overflowingSub (← low c r) (← low c a)
  setLow c r lo
  setHigh c r ((← high c r) - ofBool 128 carry - (← high c a))

/-- src/intrinsics/native/sub.rs 14-19 -/
def sub3 (c : Cfg) (r a b : Loc) : P Unit := do
  let (lo, carry) := overflowingSub (← low c a) (← low c b)
  let hi := (← high c a) - ofBool 128 carry - (← high c b)
  wr r (U256.from_words c hi lo)

/-- src/intrinsics/native/sub.rs 22-29 -/
def usubc (c : Cfg) (r a b : Loc) : P Bool := do
  let (lo, carry_lo) := overflowingSub (← low c a) (← low c b)
  let (hi, carry_c) := overflowingSub (← high c a) (ofBool 128 carry_lo)
  let (hi, carry_hi) := overflowingSub hi (← high c b)
  wr r (U256.from_words c hi lo)
  return carry_c || carry_hi

/-- src/intrinsics/native/sub.rs 32-36 -/
def isubc (c : Cfg) (r a b : Loc) : P Bool := do
  sub3 c r a b
  let s ← ird r
  let a ← ird a
  let b ← ird b
  return (b.ge_prim c 0 && s.gt c a) || (b.lt_prim c 0 && s.le c a)

/-- src/intrinsics/native/mul.rs 44-52 -/
def mul3 (c : Cfg) (res a b : Loc) : P Unit := do
  let r ← lift (Native.umulddi3 c (← low c a) (← low c b))
  let hi_lo := (← high c a) * (← low c b)
  let lo_hi := (← low c a) * (← high c b)
  let r := r.set_high c (r.high c + (hi_lo + lo_hi))
  wr res r

/-- src/intrinsics/native/mul.rs 35-41: the operand is copied, then its place is reused as the output -/
def mul2 (c : Cfg) (r a : Loc) : P Unit := do
  let x ← rd r
  withLocal (Cell.ofU x) fun a' => mul3 c r a' a

/-- src/intrinsics/native/mul.rs 55-68 -/
def umulc (c : Cfg) (r a b : Loc) : P Bool := do
  let res ← lift (Native.umulddi3 c (← low c a) (← low c b))
  let (hi_lo, overflow_hi_lo) := overflowingMul (← high c a) (← low c b)
  let (lo_hi, overflow_lo_hi) := overflowingMul (← low c a) (← high c b)
  let (hi, overflow_hi) := overflowingAdd hi_lo lo_hi
  let (high', overflow_high) := overflowingAdd (res.high c) hi
  let res := res.set_high c high'
  let overflow_hi_hi := decide ((← high c a) ≠ 0) && decide ((← high c b) ≠ 0)
  wr r res
  return overflow_hi_lo || overflow_lo_hi || overflow_hi || overflow_high || overflow_hi_hi

/-- src/intrinsics/native/mul.rs 71-91 -/
def imulc (c : Cfg) (res a b : Loc) : P Bool := do
  mul3 c res a b
  let a ← ird a
  let b ← ird b
  lift (Ethnum.MemNative.imulcFlag c a b)

/-- src/intrinsics/native/shl.rs 7-19: nothing is written if the amount is zero -/
def shl2 (c : Cfg) (r : Loc) (a : U32) : P Unit := do
  lift (debugAssert c (decide (a < 256)))
  if a = 0 then return ()
  else if a < 128 then
    let h ← high c r
    let l ← low c r
    let v ← lift (do
      let hi := (← shlC c h a) ||| (← shrC c l (← subC c 128 a))
      let lo ← shlC c l a
      return U256.from_words c hi lo)
    wr r v
  else
    let w ← low c r
    let v ← lift (do
      let hi ← shlC c w (a &&& 0x7f)
      return U256.from_words c hi 0)
    wr r v

/-- src/intrinsics/native/shl.rs 22-34 -/
def shl3 (c : Cfg) (r a : Loc) (b : U32) : P Unit := do
  lift (debugAssert c (decide (b < 256)))
  if b = 0 then
    let h ← high c a
    let l ← low c a
    wr r (U256.from_words c h l)
  else if b < 128 then
    let h ← high c a
    let l ← low c a
    let v ← lift (do
      let hi := (← shlC c h b) ||| (← shrC c l (← subC c 128 b))
      let lo ← shlC c l b
      return U256.from_words c hi lo)
    wr r v
  else
    let w ← low c a
    let v ← lift (do
      let hi ← shlC c w (b &&& 0x7f)
      return U256.from_words c hi 0)
    wr r v

/-- src/intrinsics/native/shr.rs 7-22: nothing is written if the amount is zero -/
def sar2 (c : Cfg) (r : Loc) (a : U32) : P Unit := do
  lift (debugAssert c (decide (a < 256)))
  if a = 0 then return ()
  else if a < 128 then
    let h ← high c r
    let l ← low c r
    let v ← lift (do
      let hi ← sarC c h a
      let lo := (← shrC c l a) ||| (← shlC c h (← subC c 128 a))
      return I256.from_words c hi lo)
    iwr r v
  else
    let w ← high c r
    let v ← lift (do
      let hi ← sarC c w 127
      let lo ← sarC c w (a &&& 0x7f)
      return I256.from_words c hi lo)
    iwr r v

/-- src/intrinsics/native/shr.rs 25-40 -/
def sar3 (c : Cfg) (r a : Loc) (b : U32) : P Unit := do
  lift (debugAssert c (decide (b < 256)))
  if b = 0 then
    let h ← high c a
    let l ← low c a
    iwr r (I256.from_words c h l)
  else if b < 128 then
    let h ← high c a
    let l ← low c a
    let v ← lift (do
      let hi ← sarC c h b
      let lo := (← shrC c l b) ||| (← shlC c h (← subC c 128 b))
      return I256.from_words c hi lo)
    iwr r v
  else
    let w ← high c a
    let v ← lift (do
      let hi ← sarC c w 127
      let lo ← sarC c w (b &&& 0x7f)
      return I256.from_words c hi lo)
    iwr r v

/-- src/intrinsics/native/shr.rs 43-55: nothing is written if the amount is zero -/
def shr2 (c : Cfg) (r : Loc) (a : U32) : P Unit := do
  lift (debugAssert c (decide (a < 256)))
  if a = 0 then return ()
  else if a < 128 then
    let h ← high c r
    let l ← low c r
    let v ← lift (do
      let hi ← shrC c h a
      let lo := (← shrC c l a) ||| (← shlC c h (← subC c 128 a))
      return U256.from_words c hi lo)
    wr r v
  else
    let w ← high c r
    let v ← lift (do
      let lo ← shrC c w (a &&& 0x7f)
      return U256.from_words c 0 lo)
    wr r v

/-- src/intrinsics/native/shr.rs 58-70 -/
def shr3 (c : Cfg) (r a : Loc) (b : U32) : P Unit := do
  lift (debugAssert c (decide (b < 256)))
  if b = 0 then
    let h ← high c a
    let l ← low c a
    wr r (U256.from_words c h l)
  else if b < 128 then
    let h ← high c a
    let l ← low c a
    let v ← lift (do
      let hi ← shrC c h b
      let lo := (← shrC c l b) ||| (← shlC c h (← subC c 128 b))
      return U256.from_words c hi lo)
    wr r v
  else
    let w ← high c a
    let v ← lift (do
      let lo ← shrC c w (b &&& 0x7f)
      return U256.from_words c 0 lo)
    wr r v

/-- src/intrinsics/native/rot.rs 8-10 -/
def rol3 (c : Cfg) (r a : Loc) (b : U32) : P Unit := do
  let x ← rd a
  let v ← lift (Native.rol3 c x b)
  wr r v
/-- src/intrinsics/native/rot.rs 13-15 -/
def ror3 (c : Cfg) (r a : Loc) (b : U32) : P Unit := do
  let x ← rd a
  let v ← lift (Native.ror3 c x b)
  wr r v

end MemNative

namespace MemLlvm

/-- A function `fn(r: &mut T, a: &T)` of src/intrinsics/llvm.rs 41-69: `r` and `a` are loaded, the result is stored at
`r` (intrinsics/build/intrinsics.rs, the functions ending in `2`). -/
def two (f : U256 → U256 → U256) (r a : Loc) : P Unit := do
  let x ← rd r
  let y ← rd a
  wr r (f x y)
/-- A function `fn(r: &mut MaybeUninit<T>, a: &T, b: &T)` of src/intrinsics/llvm.rs 41-69. -/
def three (f : U256 → U256 → U256) (r a b : Loc) : P Unit := do
  let x ← rd a
  let y ← rd b
  wr r (f x y)
/-- A function `fn(r: &mut MaybeUninit<T>, a: &T, b: &T) -> bool` of src/intrinsics/llvm.rs 41-69. -/
def carry (f : U256 → U256 → U256 × Bool) (r a b : Loc) : P Bool := do
  let x ← rd a
  let y ← rd b
  let (v, o) := f x y
  wr r v
  return o
/-- A function `fn(r: &mut MaybeUninit<I256>, a: &I256, b: &I256) -> bool` of src/intrinsics/llvm.rs 41-69. -/
def icarry (f : I256 → I256 → I256 × Bool) (r a b : Loc) : P Bool := do
  let x ← ird a
  let y ← ird b
  let (v, o) := f x y
  iwr r v
  return o
/-- A function `fn(r: &mut U256, a: u32)` of src/intrinsics/llvm.rs 41-69. -/
def shift2 (f : U256 → U32 → U256) (r : Loc) (a : U32) : P Unit := do
  let x ← rd r
  wr r (f x a)
/-- A function `fn(r: &mut MaybeUninit<U256>, a: &U256, b: u32)` of src/intrinsics/llvm.rs 41-69. -/
def shift3 (f : U256 → U32 → U256) (r a : Loc) (b : U32) : P Unit := do
  let x ← rd a
  wr r (f x b)
/-- A function `fn(r: &mut I256, a: u32)` of src/intrinsics/llvm.rs 41-69. -/
def ishift2 (f : I256 → U32 → I256) (r : Loc) (a : U32) : P Unit := do
  let x ← ird r
  iwr r (f x a)
/-- A function `fn(r: &mut MaybeUninit<I256>, a: &I256, b: u32)` of src/intrinsics/llvm.rs 41-69. -/
def ishift3 (f : I256 → U32 → I256) (r a : Loc) (b : U32) : P Unit := do
  let x ← ird a
  iwr r (f x b)

end MemLlvm

namespace MemIntr

/-- `add2` of the selected back-end (src/intrinsics.rs 14-23, src/intrinsics/llvm.rs 42) -/
def add2 (c : Cfg) (r a : Loc) : P Unit :=
  if c.llvm then MemLlvm.two (Llvm.add2 c) r a else MemNative.add2 c r a
/-- `add3` of the selected back-end (src/intrinsics.rs 14-23, src/intrinsics/llvm.rs 43) -/
def add3 (c : Cfg) (r a b : Loc) : P Unit :=
  if c.llvm then MemLlvm.three (Llvm.add3 c) r a b else MemNative.add3 c r a b
/-- `uaddc` of the selected back-end (src/intrinsics.rs 14-23, src/intrinsics/llvm.rs 44) -/
def uaddc (c : Cfg) (r a b : Loc) : P Bool :=
  if c.llvm then MemLlvm.carry (Llvm.uaddc c) r a b else MemNative.uaddc c r a b
/-- `iaddc` of the selected back-end (src/intrinsics.rs 14-23, src/intrinsics/llvm.rs 45) -/
def iaddc (c : Cfg) (r a b : Loc) : P Bool :=
  if c.llvm then MemLlvm.icarry (Llvm.iaddc c) r a b else MemNative.iaddc c r a b
/-- `sub2` of the selected back-end (src/intrinsics.rs 14-23, src/intrinsics/llvm.rs 47) -/
def sub2 (c : Cfg) (r a : Loc) : P Unit :=
  if c.llvm then MemLlvm.two (Llvm.sub2 c) r a else MemNative.sub2 c r a
/-- `sub3` of the selected back-end (src/intrinsics.rs 14-23, src/intrinsics/llvm.rs 48) -/
def sub3 (c : Cfg) (r a b : Loc) : P Unit :=
  if c.llvm then MemLlvm.three (Llvm.sub3 c) r a b else MemNative.sub3 c r a b
/-- `usubc` of the selected back-end (src/intrinsics.rs 14-23, src/intrinsics/llvm.rs 49) -/
def usubc (c : Cfg) (r a b : Loc) : P Bool :=
  if c.llvm then MemLlvm.carry (Llvm.usubc c) r a b else MemNative.usubc c r a b
/-- `isubc` of the selected back-end (src/intrinsics.rs 14-23, src/intrinsics/llvm.rs 50) -/
def isubc (c : Cfg) (r a b : Loc) : P Bool :=
  if c.llvm then MemLlvm.icarry (Llvm.isubc c) r a b else MemNative.isubc c r a b
/-- `mul2` of the selected back-end (src/intrinsics.rs 14-23, src/intrinsics/llvm.rs 52) -/
def mul2 (c : Cfg) (r a : Loc) : P Unit :=
  if c.llvm then MemLlvm.two (Llvm.mul2 c) r a else MemNative.mul2 c r a
/-- `mul3` of the selected back-end (src/intrinsics.rs 14-23, src/intrinsics/llvm.rs 53) -/
def mul3 (c : Cfg) (r a b : Loc) : P Unit :=
  if c.llvm then MemLlvm.three (Llvm.mul3 c) r a b else MemNative.mul3 c r a b
/-- `umulc` of the selected back-end (src/intrinsics.rs 14-23, src/intrinsics/llvm.rs 54) -/
def umulc (c : Cfg) (r a b : Loc) : P Bool :=
  if c.llvm then MemLlvm.carry (Llvm.umulc c) r a b else MemNative.umulc c r a b
/-- `shl2` of the selected back-end (src/intrinsics.rs 14-23, src/intrinsics/llvm.rs 56) -/
def shl2 (c : Cfg) (r : Loc) (a : U32) : P Unit :=
  if c.llvm then MemLlvm.shift2 (Llvm.shl2 c) r a else MemNative.shl2 c r a
/-- `shl3` of the selected back-end (src/intrinsics.rs 14-23, src/intrinsics/llvm.rs 57) -/
def shl3 (c : Cfg) (r a : Loc) (b : U32) : P Unit :=
  if c.llvm then MemLlvm.shift3 (Llvm.shl3 c) r a b else MemNative.shl3 c r a b
/-- `sar2` of the selected back-end (src/intrinsics.rs 14-23, src/intrinsics/llvm.rs 59) -/
def sar2 (c : Cfg) (r : Loc) (a : U32) : P Unit :=
  if c.llvm then MemLlvm.ishift2 (Llvm.sar2 c) r a else MemNative.sar2 c r a
/-- `sar3` of the selected back-end (src/intrinsics.rs 14-23, src/intrinsics/llvm.rs 60) -/
def sar3 (c : Cfg) (r a : Loc) (b : U32) : P Unit :=
  if c.llvm then MemLlvm.ishift3 (Llvm.sar3 c) r a b else MemNative.sar3 c r a b
/-- `shr2` of the selected back-end (src/intrinsics.rs 14-23, src/intrinsics/llvm.rs 61) -/
def shr2 (c : Cfg) (r : Loc) (a : U32) : P Unit :=
  if c.llvm then MemLlvm.shift2 (Llvm.shr2 c) r a else MemNative.shr2 c r a
/-- `shr3` of the selected back-end (src/intrinsics.rs 14-23, src/intrinsics/llvm.rs 62) -/
def shr3 (c : Cfg) (r a : Loc) (b : U32) : P Unit :=
  if c.llvm then MemLlvm.shift3 (Llvm.shr3 c) r a b else MemNative.shr3 c r a b
/-- `rol3` of the selected back-end (src/intrinsics.rs 14-23, src/intrinsics/llvm.rs 64) -/
def rol3 (c : Cfg) (r a : Loc) (b : U32) : P Unit :=
  if c.llvm then MemLlvm.shift3 (Llvm.rol3 c) r a b else MemNative.rol3 c r a b
/-- `ror3` of the selected back-end (src/intrinsics.rs 14-23, src/intrinsics/llvm.rs 65) -/
def ror3 (c : Cfg) (r a : Loc) (b : U32) : P Unit :=
  if c.llvm then MemLlvm.shift3 (Llvm.ror3 c) r a b else MemNative.ror3 c r a b

/-- src/intrinsics/native/divmod.rs 104-186 -/
def udivmod4 (c : Cfg) (res a b : Loc) (rem : Option Loc) : P Unit := do
  let ah ← high c a
  let bh ← high c b
  if ah ||| bh = 0 then
    let q ← lift (divC (← low c a) (← low c b))
    wr res (U256.from_words c 0 q)
    match rem with
    | some rem =>
      let r ← lift (remC (← low c a) (← low c b))
      wr rem (U256.from_words c 0 r)
    | none => return ()
  else
    let dividend ← rd a
    let divisor ← rd b
    if divisor.gt c dividend then
      match rem with
      | some rem =>
        wr rem dividend
        wr res U256.ZERO
      | none => wr res U256.ZERO
    else
      let (quotient, remainder) ← lift (if divisor.high c = 0 then Intr.udivmodNarrow c dividend divisor
        else Intr.div_mod_knuth c dividend divisor)
      match rem with
      | some rem =>
        wr rem remainder
        wr res quotient
      | none => wr res quotient

/-- src/intrinsics/native/divmod.rs 394-400: the operand is copied, then its place is the output -/
def udiv2 (c : Cfg) (r a : Loc) : P Unit := do
  let x ← rd r
  withLocal (Cell.ofU x) fun a' => udivmod4 c r a' a none

/-- src/intrinsics/native/divmod.rs 403-405 -/
def udiv3 (c : Cfg) (r a b : Loc) : P Unit := udivmod4 c r a b none

/-- src/intrinsics/native/divmod.rs 408-415 -/
def urem2 (c : Cfg) (r a : Loc) : P Unit :=
  withLocal Cell.uninit fun res => do
    let x ← rd r
    withLocal (Cell.ofU x) fun a' => udivmod4 c res a' a (some r)

/-- src/intrinsics/native/divmod.rs 418-421 -/
def urem3 (c : Cfg) (r a b : Loc) : P Unit :=
  withLocal Cell.uninit fun res => udivmod4 c res a b (some r)

/-- src/intrinsics/native/divmod.rs 436-448: divides `*a` by `*b` and puts the signs `s_a` (of the remainder) and `s_b`
(of the quotient) on the results, which are read back from the outputs and overwritten -/
def idivmodSigns (c : Cfg) (res : Loc) (rem : Option Loc) (s_a s_b : I256) (a b : Loc) : P Unit := do
  udivmod4 c res a b rem
  let q ← ird res
  let q := (q.bitxor s_b).wrapping_sub c s_b
  iwr res q
  match rem with
  | some rem =>
    let r ← ird rem
    let r := (r.bitxor s_a).wrapping_sub c s_a
    iwr rem r
  | none => return ()

/-- src/intrinsics/native/divmod.rs 423-449: the absolute values are locals -/
def idivmod4 (c : Cfg) (res a b : Loc) (rem : Option Loc) : P Unit := do
  let a ← ird a
  let b ← ird b
  let s_a ← lift (a.shr c 255)
  let s_b ← lift (b.shr c 255)
  let a := (a.bitxor s_a).wrapping_sub c s_a
  let b := (b.bitxor s_b).wrapping_sub c s_b
  let s_b := s_b.bitxor s_a
  withLocal (Cell.ofI a) fun a' => withLocal (Cell.ofI b) fun b' => idivmodSigns c res rem s_a s_b a' b'

/-- src/intrinsics/native/divmod.rs 452-458 -/
def idiv2 (c : Cfg) (r a : Loc) : P Unit := do
  let x ← ird r
  withLocal (Cell.ofI x) fun a' => idivmod4 c r a' a none

/-- src/intrinsics/native/divmod.rs 461-463 -/
def idiv3 (c : Cfg) (r a b : Loc) : P Unit := idivmod4 c r a b none

/-- src/intrinsics/native/divmod.rs 466-473 -/
def irem2 (c : Cfg) (r a : Loc) : P Unit :=
  withLocal Cell.uninit fun res => do
    let x ← ird r
    withLocal (Cell.ofI x) fun a' => idivmod4 c res a' a (some r)

/-- src/intrinsics/native/divmod.rs 476-479 -/
def irem3 (c : Cfg) (r a b : Loc) : P Unit :=
  withLocal Cell.uninit fun res => idivmod4 c res a b (some r)

/-- `imulc` of both back-ends (src/intrinsics/llvm.rs 8-12, src/intrinsics/native/mul.rs 71-91) -/
def imulc (c : Cfg) (res a b : Loc) : P Bool := MemNative.imulc c res a b

/-- src/intrinsics/signed.rs 16-18: the same object, seen as a `U256` -/
def iadd2 (c : Cfg) (r a : Loc) : P Unit := add2 c r a
/-- src/intrinsics/signed.rs 21-23: the same object, seen as a `U256` -/
def iadd3 (c : Cfg) (r a b : Loc) : P Unit := add3 c r a b
/-- src/intrinsics/signed.rs 26-28: the same object, seen as a `U256` -/
def isub2 (c : Cfg) (r a : Loc) : P Unit := sub2 c r a
/-- src/intrinsics/signed.rs 31-33: the same object, seen as a `U256` -/
def isub3 (c : Cfg) (r a b : Loc) : P Unit := sub3 c r a b
/-- src/intrinsics/signed.rs 36-38: the same object, seen as a `U256` -/
def imul2 (c : Cfg) (r a : Loc) : P Unit := mul2 c r a
/-- src/intrinsics/signed.rs 41-43: the same object, seen as a `U256` -/
def imul3 (c : Cfg) (r a b : Loc) : P Unit := mul3 c r a b
/-- src/intrinsics/signed.rs 46-48: the same object, seen as a `U256` -/
def ishl2 (c : Cfg) (r : Loc) (a : U32) : P Unit := shl2 c r a
/-- src/intrinsics/signed.rs 51-53: the same object, seen as a `U256` -/
def ishl3 (c : Cfg) (r a : Loc) (b : U32) : P Unit := shl3 c r a b
/-- src/intrinsics/signed.rs 56-58: the same object, seen as a `U256` -/
def irol3 (c : Cfg) (r a : Loc) (b : U32) : P Unit := rol3 c r a b
/-- src/intrinsics/signed.rs 61-63: the same object, seen as a `U256` -/
def iror3 (c : Cfg) (r a : Loc) (b : U32) : P Unit := ror3 c r a b

end MemIntr

/-! ### Operators (src/macros/ops.rs), on operands in memory -/

namespace MemOps

/-- `&a op &b` for `+`, `-`, `*` (src/macros/ops.rs 154-172); `rdT` is `assume_init` at the type of the operands -/
def binop {T : Type} (c : Cfg) (rdT : Loc → P T) (op3 : Loc → Loc → Loc → P Unit) (opc : Loc → Loc → Loc → P Bool)
    (p : Panic) (a b : Loc) : P T :=
  withLocal Cell.uninit fun result => do
    if c.debugAssertions then
      if ← opc result a b then lift (throwPanic p)
    else op3 result a b
    rdT result

/-- `&a / &b` and `&a % &b` (src/macros/ops.rs 231-244) -/
def divmod {T : Type} (rdT : Loc → P T) (isZero : T → Bool) (op3 : Loc → Loc → Loc → P Unit) (p : Panic)
    (a b : Loc) : P T := do
  if isZero (← rdT b) then lift (throwPanic p)
  else withLocal Cell.uninit fun result => do
    op3 result a b
    rdT result

/-- `&a << b` and `&a >> b` (src/macros/ops.rs 262-276) -/
def shift {T : Type} (c : Cfg) (rdT : Loc → P T) (op3 : Loc → Loc → U32 → P Unit) (p : Panic) (a : Loc) (b : U32) :
    P T := do
  if c.debugAssertions && decide (b > 0xff) then lift (throwPanic p)
  else withLocal Cell.uninit fun result => do
    op3 result a b
    rdT result

/-- `a op= &b` (src/macros/ops.rs 395-407, 455-467): the routine that works in place without debug assertions,
`*self = &*self op rhs` with them -/
def assign {T : Type} (c : Cfg) (wrT : Loc → T → P Unit) (op : P T) (op2 : P Unit) (a : Loc) : P Unit := do
  if c.debugAssertions then
    let v ← op
    wrT a v
  else op2

/-- `a op= b` with `b` by value (src/macros/ops.rs 413-427): `*a op= &b`, where `b` is the copy that was passed -/
def byValue (b : Loc) (op : Loc → P Unit) : P Unit := do
  let y ← rd b
  withLocal (Cell.ofU y) op

/-- A method that calls a routine on `&self` and `&rhs` and returns its output: `let mut result =
MaybeUninit::uninit(); op(&mut result, &self, &rhs); result.assume_init()` (for instance src/uint/api.rs 850-852) -/
def out {T : Type} (rdT : Loc → P T) (op : Loc → P Unit) : P T :=
  withLocal Cell.uninit fun result => do
    op result
    rdT result

/-- The same for a routine that returns a carry (for instance src/uint/api.rs 1156-1158) -/
def outc {T : Type} (rdT : Loc → P T) (op : Loc → P Bool) : P (T × Bool) :=
  withLocal Cell.uninit fun result => do
    let overflow ← op result
    return (← rdT result, overflow)

/-- The same for the two outputs of a division (src/uint.rs 310-313, src/int.rs 365-368, 494-497) -/
def out2 {T : Type} (rdT : Loc → P T) (op : Loc → Option Loc → P Unit) : P (T × T) :=
  withLocal Cell.uninit fun res => withLocal Cell.uninit fun rem => do
    op res (some rem)
    return (← rdT res, ← rdT rem)

/-- `a op= &b` for `&`, `|`, `^` (src/macros/ops.rs 528-536): one word after the other -/
def bitwise (op : U128 → U128 → U128) (a b : Loc) : P Unit := do
  wr0 a (op (← rd0 a) (← rd0 b))
  wr1 a (op (← rd1 a) (← rd1 b))

end MemOps

open Ethnum.Steps.MemOps

namespace U256

/-- `&a + &b` -/
def addM (c : Cfg) (a b : Loc) : P U256 := binop c rd (MemIntr.add3 c) (MemIntr.uaddc c) .addOverflow a b
/-- `a += &b` -/
def add_assignM (c : Cfg) (a b : Loc) : P Unit := assign c wr (addM c a b) (MemIntr.add2 c a b) a
/-- `&a - &b` -/
def subM (c : Cfg) (a b : Loc) : P U256 := binop c rd (MemIntr.sub3 c) (MemIntr.usubc c) .subOverflow a b
/-- `a -= &b` -/
def sub_assignM (c : Cfg) (a b : Loc) : P Unit := assign c wr (subM c a b) (MemIntr.sub2 c a b) a
/-- `&a * &b` -/
def mulM (c : Cfg) (a b : Loc) : P U256 := binop c rd (MemIntr.mul3 c) (MemIntr.umulc c) .mulOverflow a b
/-- `a *= &b` -/
def mul_assignM (c : Cfg) (a b : Loc) : P Unit := assign c wr (mulM c a b) (MemIntr.mul2 c a b) a
/-- `&a / &b` -/
def divM (c : Cfg) (a b : Loc) : P U256 := divmod rd (fun x => x.eq_prim c 0) (MemIntr.udiv3 c) .divByZero a b
/-- `a /= &b` -/
def div_assignM (c : Cfg) (a b : Loc) : P Unit := assign c wr (divM c a b) (MemIntr.udiv2 c a b) a
/-- `&a % &b` -/
def remM (c : Cfg) (a b : Loc) : P U256 := divmod rd (fun x => x.eq_prim c 0) (MemIntr.urem3 c) .remByZero a b
/-- `a %= &b` -/
def rem_assignM (c : Cfg) (a b : Loc) : P Unit := assign c wr (remM c a b) (MemIntr.urem2 c a b) a
/-- `&a << b` -/
def shlM (c : Cfg) (a : Loc) (b : U32) : P U256 := shift c rd (MemIntr.shl3 c) .shlOverflow a b
/-- `a <<= b` -/
def shl_assignM (c : Cfg) (a : Loc) (b : U32) : P Unit := assign c wr (shlM c a b) (MemIntr.shl2 c a b) a
/-- `&a >> b` -/
def shrM (c : Cfg) (a : Loc) (b : U32) : P U256 := shift c rd (MemIntr.shr3 c) .shrOverflow a b
/-- `a >>= b` -/
def shr_assignM (c : Cfg) (a : Loc) (b : U32) : P Unit := assign c wr (shrM c a b) (MemIntr.shr2 c a b) a
/-- `a &= &b` -/
def bitand_assignM (a b : Loc) : P Unit := bitwise (· &&& ·) a b
/-- `a |= &b` -/
def bitor_assignM (a b : Loc) : P Unit := bitwise (· ||| ·) a b
/-- `a ^= &b` -/
def bitxor_assignM (a b : Loc) : P Unit := bitwise (· ^^^ ·) a b
/-- src/uint/api.rs 850-852 -/
def wrapping_addM (c : Cfg) (a b : Loc) : P U256 := out rd fun r => MemIntr.add3 c r a b
/-- src/uint/api.rs 1156-1158 -/
def overflowing_addM (c : Cfg) (a b : Loc) : P (U256 × Bool) := outc rd fun r => MemIntr.uaddc c r a b
/-- src/uint/api.rs 891-893 -/
def wrapping_subM (c : Cfg) (a b : Loc) : P U256 := out rd fun r => MemIntr.sub3 c r a b
/-- src/uint/api.rs 1204-1206 -/
def overflowing_subM (c : Cfg) (a b : Loc) : P (U256 × Bool) := outc rd fun r => MemIntr.usubc c r a b
/-- src/uint/api.rs 915-917 -/
def wrapping_mulM (c : Cfg) (a b : Loc) : P U256 := out rd fun r => MemIntr.mul3 c r a b
/-- src/uint/api.rs 1256-1258 -/
def overflowing_mulM (c : Cfg) (a b : Loc) : P (U256 × Bool) := outc rd fun r => MemIntr.umulc c r a b
/-- src/uint/api.rs 1060-1062 -/
def wrapping_shlM (c : Cfg) (a : Loc) (b : U32) : P U256 := out rd fun r => MemIntr.shl3 c r a (b &&& 0xff)
/-- src/uint/api.rs 1089-1091 -/
def wrapping_shrM (c : Cfg) (a : Loc) (b : U32) : P U256 := out rd fun r => MemIntr.shr3 c r a (b &&& 0xff)
/-- src/uint/api.rs 201-203 -/
def rotate_leftM (c : Cfg) (a : Loc) (b : U32) : P U256 := out rd fun r => MemIntr.rol3 c r a b
/-- src/uint/api.rs 229-231 -/
def rotate_rightM (c : Cfg) (a : Loc) (b : U32) : P U256 := out rd fun r => MemIntr.ror3 c r a b
/-- src/uint.rs 297-329 -/
def div_remM (c : Cfg) (a b : Loc) : P (U256 × U256) := do
  let y ← rd b
  if y.eq_prim c 0 then lift (do
    unreachableIf (y.gt_prim c 0)
    throwPanic .divByZero)
  else
    lift (unreachableIf (y.le_prim c 0))
    let (res, rem) ← out2 rd fun q r => MemIntr.udivmod4 c q a b r
    let x ← rd a
    lift (do
      unreachableIf (rem.ge c y)
      unreachableIf (rem.gt c x)
      unreachableIf (res.gt c x)
      return (res, rem))

end U256

namespace I256

/-- `&a + &b` -/
def addM (c : Cfg) (a b : Loc) : P I256 := binop c ird (MemIntr.iadd3 c) (MemIntr.iaddc c) .addOverflow a b
/-- `a += &b` -/
def add_assignM (c : Cfg) (a b : Loc) : P Unit := assign c iwr (addM c a b) (MemIntr.iadd2 c a b) a
/-- `&a - &b` -/
def subM (c : Cfg) (a b : Loc) : P I256 := binop c ird (MemIntr.isub3 c) (MemIntr.isubc c) .subOverflow a b
/-- `a -= &b` -/
def sub_assignM (c : Cfg) (a b : Loc) : P Unit := assign c iwr (subM c a b) (MemIntr.isub2 c a b) a
/-- `&a * &b` -/
def mulM (c : Cfg) (a b : Loc) : P I256 := binop c ird (MemIntr.imul3 c) (MemIntr.imulc c) .mulOverflow a b
/-- `a *= &b` -/
def mul_assignM (c : Cfg) (a b : Loc) : P Unit := assign c iwr (mulM c a b) (MemIntr.imul2 c a b) a
/-- `&a / &b` -/
def divM (c : Cfg) (a b : Loc) : P I256 := divmod ird (fun x => x.eq_prim c 0) (MemIntr.idiv3 c) .divByZero a b
/-- `a /= &b` -/
def div_assignM (c : Cfg) (a b : Loc) : P Unit := assign c iwr (divM c a b) (MemIntr.idiv2 c a b) a
/-- `&a % &b` -/
def remM (c : Cfg) (a b : Loc) : P I256 := divmod ird (fun x => x.eq_prim c 0) (MemIntr.irem3 c) .remByZero a b
/-- `a %= &b` -/
def rem_assignM (c : Cfg) (a b : Loc) : P Unit := assign c iwr (remM c a b) (MemIntr.irem2 c a b) a
/-- `&a << b` -/
def shlM (c : Cfg) (a : Loc) (b : U32) : P I256 := shift c ird (MemIntr.ishl3 c) .shlOverflow a b
/-- `a <<= b` -/
def shl_assignM (c : Cfg) (a : Loc) (b : U32) : P Unit := assign c iwr (shlM c a b) (MemIntr.ishl2 c a b) a
/-- `&a >> b` -/
def shrM (c : Cfg) (a : Loc) (b : U32) : P I256 := shift c ird (MemIntr.sar3 c) .shrOverflow a b
/-- `a >>= b` -/
def shr_assignM (c : Cfg) (a : Loc) (b : U32) : P Unit := assign c iwr (shrM c a b) (MemIntr.sar2 c a b) a
/-- `a &= &b` -/
def bitand_assignM (a b : Loc) : P Unit := bitwise (· &&& ·) a b
/-- `a |= &b` -/
def bitor_assignM (a b : Loc) : P Unit := bitwise (· ||| ·) a b
/-- `a ^= &b` -/
def bitxor_assignM (a b : Loc) : P Unit := bitwise (· ^^^ ·) a b
/-- src/int/api.rs 1012-1014 -/
def wrapping_addM (c : Cfg) (a b : Loc) : P I256 := out ird fun r => MemIntr.iadd3 c r a b
/-- src/int/api.rs 1406-1408 -/
def overflowing_addM (c : Cfg) (a b : Loc) : P (I256 × Bool) := outc ird fun r => MemIntr.iaddc c r a b
/-- src/int/api.rs 1052-1054 -/
def wrapping_subM (c : Cfg) (a b : Loc) : P I256 := out ird fun r => MemIntr.isub3 c r a b
/-- src/int/api.rs 1455-1457 -/
def overflowing_subM (c : Cfg) (a b : Loc) : P (I256 × Bool) := outc ird fun r => MemIntr.isubc c r a b
/-- src/int/api.rs 1092-1094 -/
def wrapping_mulM (c : Cfg) (a b : Loc) : P I256 := out ird fun r => MemIntr.imul3 c r a b
/-- src/int/api.rs 1546-1548 -/
def overflowing_mulM (c : Cfg) (a b : Loc) : P (I256 × Bool) := outc ird fun r => MemIntr.imulc c r a b
/-- src/int/api.rs 1255-1257 -/
def wrapping_shlM (c : Cfg) (a : Loc) (b : U32) : P I256 := out ird fun r => MemIntr.ishl3 c r a (b &&& 0xff)
/-- src/int/api.rs 1284-1286 -/
def wrapping_shrM (c : Cfg) (a : Loc) (b : U32) : P I256 := out ird fun r => MemIntr.sar3 c r a (b &&& 0xff)
/-- src/int/api.rs 211-213 -/
def rotate_leftM (c : Cfg) (a : Loc) (b : U32) : P I256 := out ird fun r => MemIntr.irol3 c r a b
/-- src/int/api.rs 240-242 -/
def rotate_rightM (c : Cfg) (a : Loc) (b : U32) : P I256 := out ird fun r => MemIntr.iror3 c r a b
/-- src/int.rs 481-498 -/
def wrapping_div_remM (c : Cfg) (a b : Loc) : P (I256 × I256) := do
  let y ← ird b
  if y.eq_prim c 0 then lift (do
    unreachableIf (I256.cmp c y I256.ZERO != .eq)
    throwPanic .divByZero)
  else
    lift (unreachableIf (I256.cmp c y I256.ZERO == .eq))
    out2 ird fun q r => MemIntr.idivmod4 c q a b r
/-- src/int.rs 356-370 -/
def checked_div_remM (c : Cfg) (a b : Loc) : P (Option (I256 × I256)) := do
  let x ← ird a
  let y ← ird b
  if y.eq_prim c 0 || I256.minByMinusOne c x y then return none
  else
    lift (unreachableIf (I256.cmp c y I256.ZERO == .eq))
    let r ← out2 ird fun q r => MemIntr.idivmod4 c q a b r
    return some r
/-- src/int/api.rs 559-567 -/
def checked_divM (c : Cfg) (a b : Loc) : P (Option I256) := do
  let x ← ird a
  let y ← ird b
  if y.eq_prim c 0 || I256.minByMinusOne c x y then return none
  else
    let r ← out ird fun r => MemIntr.idiv3 c r a b
    return some r
/-- src/int/api.rs 609-617 -/
def checked_remM (c : Cfg) (a b : Loc) : P (Option I256) := do
  let x ← ird a
  let y ← ird b
  if y.eq_prim c 0 || I256.minByMinusOne c x y then return none
  else
    let r ← out ird fun r => MemIntr.irem3 c r a b
    return some r

end I256
end Ethnum.Steps
