import Verif.Model.Mem
import Verif.SpecBorrow

/-
The references and raw pointers that the operators and the intrinsics make to their operands: src/macros/ops.rs and
src/intrinsics once more, now with the pointer events of Verif/SpecBorrow.lean. Each function is that of Model/Mem.lean
with the events added; that nothing else changed is proved (`*_sim` in Proofs/Alias.lean).

What makes an event: a reference that is passed to a function (protected until it returns), `&x`, `&mut x`, `&*p`,
`&mut *p`, a reference cast to a raw pointer, `low()`, `high()` and their `_mut` forms (a call which returns a reference to
one of the words), `MaybeUninit::write`, `as_mut_ptr`, `assume_init_ref`, reads and writes, and the end of a local variable
(a write to all of it). Simplifications: the inside of functions of `core` is not followed further; operators on values that
are not in memory in Model/Mem.lean are not followed either.
-/

namespace Ethnum.Alias
open Borrow Borrow.Event

/-- A reference or raw pointer: the object, its allocation and the tag. Two objects that were at the same place one after
the other are different allocations. -/
structure Ref where
  loc : Loc
  id : Nat
  tag : Tag

/-- The memory, the events so far with the allocation they belong to, the last one first, and the first unused tag and
allocation. -/
structure World where
  mem : Mem
  log : List (Nat × Event)
  next : Nat

/-- Code that works on memory and makes pointers. -/
def T (α : Type) := World → Res α × World

instance : Monad T where
  pure x := fun w => (.ok x, w)
  bind m k := fun w => match m w with
    | (.ok x, w) => k x w
    | (.error e, w) => (.error e, w)

/-- A computation on values -/
def lift {α : Type} (r : Res α) : T α := fun w => (r, w)
/-- A computation on memory -/
def mem {α : Type} (m : M α) : T α := fun w =>
  match m w.mem with
  | (r, s) => (r, { w with mem := s })
/-- An event of the allocation of `r` -/
def note (r : Ref) (e : Event) : T Unit := fun w => (.ok (), { w with log := (r.id, e) :: w.log })

/-- `&*r` or `&mut *r`, of the whole object -/
def ref (k : Kind) (r : Ref) (prot : Bool := false) : T Ref := fun w =>
  (.ok ⟨r.loc, r.id, w.next⟩, { w with log := (r.id, .ref k r.tag w.next 0 32 prot) :: w.log, next := w.next + 1 })
/-- `&r.0[i]` or `&mut r.0[i]` -/
def refWord (k : Kind) (i : Nat) (r : Ref) : T Ref := fun w =>
  (.ok ⟨r.loc, r.id, w.next⟩, { w with log := (r.id, .ref k r.tag w.next (16 * i) 16 false) :: w.log, next := w.next + 1 })
/-- `r as *const _` or `r as *mut _` -/
def raw (k : Kind) (r : Ref) : T Ref := fun w =>
  (.ok ⟨r.loc, r.id, w.next⟩, { w with log := (r.id, .raw k r.tag w.next 0 32) :: w.log, next := w.next + 1 })

/-- The body of a function whose arguments are `rs`; they are protected until it returns or unwinds. -/
def returning {α : Type} (rs : List Ref) (t : T α) : T α := fun w =>
  match t w with
  | (x, w) => (x, { w with log := (rs.map fun r => (r.id, .ret [r.tag])) ++ w.log })
/-- A call of a function with one argument that is a reference -/
def call1 {α : Type} (k : Kind) (r : Ref) (f : Ref → T α) : T α := do
  let r ← ref k r true
  returning [r] (f r)
/-- Two arguments -/
def call2 {α : Type} (k : Kind) (r : Ref) (l : Kind) (s : Ref) (f : Ref → Ref → T α) : T α := do
  let r ← ref k r true
  let s ← ref l s true
  returning [r, s] (f r s)
/-- Three arguments: an output and two operands -/
def call3 {α : Type} (r a b : Ref) (f : Ref → Ref → Ref → T α) : T α := do
  let r ← ref .unique r true
  let a ← ref .shared a true
  let b ← ref .shared b true
  returning [r, a, b] (f r a b)
/-- The arguments of a division: an output, two operands, and maybe a second output -/
def call4 {α : Type} (r a b : Ref) (m : Option Ref) (f : Ref → Ref → Ref → Option Ref → T α) : T α :=
  match m with
  | none => call3 r a b fun r a b => f r a b none
  | some m => do
    let r ← ref .unique r true
    let a ← ref .shared a true
    let b ← ref .shared b true
    let m ← ref .unique m true
    returning [r, a, b, m] (f r a b (some m))

/-- A local variable: a new allocation, which ends with a write to all of it. -/
def withLocal {α : Type} (x : Cell) (k : Ref → T α) : T α := fun w =>
  match k ⟨w.mem.length, w.next, owner⟩ { w with mem := w.mem ++ [x], next := w.next + 1 } with
  | (r, w') => (r, { w' with mem := w'.mem.take w.mem.length, log := (w.next, .access .write owner 0 32) :: w'.log })

/-- `*x.low()` or `*x.high()`, the word at index `i` (src/uint.rs 60-71, 87-98, src/int.rs 64-75, 90-101) -/
def word (i : Nat) (r : Ref) : T U128 := do
  let w ← call1 .shared r fun s => refWord .shared i s
  note w (.access .read w.tag (16 * i) 16)
  mem (if i = 0 then M.rd0 r.loc else M.rd1 r.loc)
/-- `*x.low_mut() = v` or `*x.high_mut() = v` (src/uint.rs 73-85, 100-112, src/int.rs 77-88, 103-115) -/
def setWord (i : Nat) (r : Ref) (v : U128) : T Unit := do
  let w ← call1 .unique r fun s => refWord .unique i s
  note w (.access .write w.tag (16 * i) 16)
  mem (if i = 0 then M.wr0 r.loc v else M.wr1 r.loc v)
/-- `*x.low()` (src/uint.rs 60-71, src/int.rs 64-75) -/
def low (c : Cfg) (r : Ref) : T U128 := word (if c.bigEndian then 1 else 0) r
/-- `*x.high()` (src/uint.rs 87-98, src/int.rs 90-101) -/
def high (c : Cfg) (r : Ref) : T U128 := word (if c.bigEndian then 0 else 1) r
/-- `*x.low_mut() = v` (src/uint.rs 73-85, src/int.rs 77-88) -/
def setLow (c : Cfg) (r : Ref) (v : U128) : T Unit := setWord (if c.bigEndian then 1 else 0) r v
/-- `*x.high_mut() = v` (src/uint.rs 100-112, src/int.rs 103-115) -/
def setHigh (c : Cfg) (r : Ref) (v : U128) : T Unit := setWord (if c.bigEndian then 0 else 1) r v

/-- `*r`, and `r.assume_init()` of a local variable -/
def rd (r : Ref) : T U256 := do
  note r (.access .read r.tag 0 32)
  mem (M.rd r.loc)
/-- The same for an `I256` -/
def ird (r : Ref) : T I256 := do
  note r (.access .read r.tag 0 32)
  mem (M.ird r.loc)
/-- `*r = v` -/
def set (r : Ref) (v : U256) : T Unit := do
  note r (.access .write r.tag 0 32)
  mem (M.wr r.loc v)
/-- The same for an `I256` -/
def iset (r : Ref) (v : I256) : T Unit := do
  note r (.access .write r.tag 0 32)
  mem (M.iwr r.loc v)
/-- `r.write(v)`, of `MaybeUninit` -/
def wr (r : Ref) (v : U256) : T Unit := call1 .unique r fun r => set r v
/-- The same for an `I256` -/
def iwr (r : Ref) (v : I256) : T Unit := call1 .unique r fun r => iset r v
/-- Another read of `*r`, or an operator that takes `&*r`: the value is known already. -/
def again (r : Ref) : T Unit := call1 .shared r fun r => note r (.access .read r.tag 0 32)
/-- `*r.assume_init_ref()` of `r: &mut MaybeUninit<I256>` -/
def iassumeRef (r : Ref) : T I256 := do
  let p ← call1 .shared r fun r => raw .shared r
  let q ← ref .shared p
  ird q

/-- `cast!(mut: r)` (src/intrinsics/cast.rs 5-7) -/
def castMut (r : Ref) : T Ref := do
  let p ← raw .unique r
  ref .unique p
/-- `cast!(ref: r)` (src/intrinsics/cast.rs 8-10) -/
def castRef (r : Ref) : T Ref := do
  let p ← raw .shared r
  ref .shared p
/-- `cast!(uninit: r)` (src/intrinsics/cast.rs 11-13) -/
def castUninit (r : Ref) : T Ref := do
  let p ← call1 .unique r fun r => raw .unique r
  ref .unique p
/-- `cast!(optuninit: r)` (src/intrinsics/cast.rs 14-16) -/
def castOpt (r : Option Ref) : T (Option Ref) :=
  match r with
  | none => return none
  | some r => do
    let r ← castUninit r
    return some r

namespace Native

/-- src/intrinsics/native/add.rs 7-11 -/
def add2 (c : Cfg) (r a : Ref) : T Unit := call2 .unique r .shared a fun r a => do
  let (lo, carry) := overflowingAdd (← low c r) (← low c a)
  setLow c r lo
  setHigh c r ((← high c r) + ofBool 128 carry + (← high c a))
/-- src/intrinsics/native/add.rs 14-19 -/
def add3 (c : Cfg) (r a b : Ref) : T Unit := call3 r a b fun r a b => do
  let (lo, carry) := overflowingAdd (← low c a) (← low c b)
  let hi := (← high c a) + ofBool 128 carry + (← high c b)
  wr r (U256.from_words c hi lo)
/-- src/intrinsics/native/add.rs 22-29 -/
def uaddc (c : Cfg) (r a b : Ref) : T Bool := call3 r a b fun r a b => do
  let (lo, carry_lo) := overflowingAdd (← low c a) (← low c b)
  let (hi, carry_c) := overflowingAdd (← high c a) (ofBool 128 carry_lo)
  let (hi, carry_hi) := overflowingAdd hi (← high c b)
  wr r (U256.from_words c hi lo)
  return carry_c || carry_hi
/-- src/intrinsics/native/add.rs 32-36 -/
def iaddc (c : Cfg) (r a b : Ref) : T Bool := call3 r a b fun r a b => do
  add3 c (← castUninit r) (← castRef a) (← castRef b)
  let s ← iassumeRef r
  let x ← ird a
  let y ← ird b
  return (y.ge_prim c 0 && s.lt c x) || (y.lt_prim c 0 && s.ge c x)
/-- src/intrinsics/native/sub.rs 7-11 -/
def sub2 (c : Cfg) (r a : Ref) : T Unit := call2 .unique r .shared a fun r a => do
  let (lo, carry) := overflowingSub (← low c r) (← low c a)
  setLow c r lo
  setHigh c r ((← high c r) - ofBool 128 carry - (← high c a))
/-- src/intrinsics/native/sub.rs 14-19 -/
def sub3 (c : Cfg) (r a b : Ref) : T Unit := call3 r a b fun r a b => do
  let (lo, carry) := overflowingSub (← low c a) (← low c b)
  let hi := (← high c a) - ofBool 128 carry - (← high c b)
  wr r (U256.from_words c hi lo)
/-- src/intrinsics/native/sub.rs 22-29 -/
def usubc (c : Cfg) (r a b : Ref) : T Bool := call3 r a b fun r a b => do
  let (lo, carry_lo) := overflowingSub (← low c a) (← low c b)
  let (hi, carry_c) := overflowingSub (← high c a) (ofBool 128 carry_lo)
  let (hi, carry_hi) := overflowingSub hi (← high c b)
  wr r (U256.from_words c hi lo)
  return carry_c || carry_hi
/-- src/intrinsics/native/sub.rs 32-36 -/
def isubc (c : Cfg) (r a b : Ref) : T Bool := call3 r a b fun r a b => do
  sub3 c (← castUninit r) (← castRef a) (← castRef b)
  let s ← iassumeRef r
  let x ← ird a
  let y ← ird b
  return (y.ge_prim c 0 && s.gt c x) || (y.lt_prim c 0 && s.le c x)

/-- src/intrinsics/native/mul.rs 44-52 -/
def mul3 (c : Cfg) (res a b : Ref) : T Unit := call3 res a b fun res a b => do
  let r ← lift (Ethnum.Native.umulddi3 c (← low c a) (← low c b))
  let hi_lo := (← high c a) * (← low c b)
  let lo_hi := (← low c a) * (← high c b)
  let r := r.set_high c (r.high c + (hi_lo + lo_hi))
  wr res r
/-- src/intrinsics/native/mul.rs 35-41 -/
def mul2 (c : Cfg) (r a : Ref) : T Unit := call2 .unique r .shared a fun r a => do
  let x ← rd r
  withLocal (Cell.ofU x) fun a' => do
    let res ← castMut r
    mul3 c res (← ref .shared a') a
/-- src/intrinsics/native/mul.rs 55-68 -/
def umulc (c : Cfg) (r a b : Ref) : T Bool := call3 r a b fun r a b => do
  let res ← lift (Ethnum.Native.umulddi3 c (← low c a) (← low c b))
  let (hi_lo, overflow_hi_lo) := overflowingMul (← high c a) (← low c b)
  let (lo_hi, overflow_lo_hi) := overflowingMul (← low c a) (← high c b)
  let (hi, overflow_hi) := overflowingAdd hi_lo lo_hi
  let (high', overflow_high) := overflowingAdd (res.high c) hi
  let res := res.set_high c high'
  let overflow_hi_hi := decide ((← high c a) ≠ 0) && decide ((← high c b) ≠ 0)
  wr r res
  return overflow_hi_lo || overflow_lo_hi || overflow_hi || overflow_high || overflow_hi_hi
/-- src/intrinsics/native/mul.rs 71-91 -/
def imulc (c : Cfg) (res a b : Ref) : T Bool := call3 res a b fun res a b => do
  mul3 c (← castUninit res) (← castRef a) (← castRef b)
  let x ← ird a
  let y ← ird b
  lift (MemNative.imulcFlag c x y)
/-- src/intrinsics/native/shl.rs 7-19 -/
def shl2 (c : Cfg) (r : Ref) (a : U32) : T Unit := call1 .unique r fun r => do
  lift (debugAssert c (decide (a < 256)))
  if a = 0 then return ()
  else if a < 128 then
    let h ← high c r
    let l ← low c r
    let v ← lift (do
      let hi := (← shlC c h a) ||| (← shrC c l (← subC c 128 a))
      let lo ← shlC c l a
      return U256.from_words c hi lo)
    set r v
  else
    let w ← low c r
    let v ← lift (do
      let hi ← shlC c w (a &&& 0x7f)
      return U256.from_words c hi 0)
    set r v
/-- src/intrinsics/native/shl.rs 22-34 -/
def shl3 (c : Cfg) (r a : Ref) (b : U32) : T Unit := call2 .unique r .shared a fun r a => do
  lift (debugAssert c (decide (b < 256)))
  if b = 0 then
    let h ← high c a
    let l ← low c a
    wr r (U256.from_words c h l)
  else if b < 128 then
    let h ← high c a
    let l ← low c a
    let v ← lift (do
      let hi := (← shlC c h b) ||| (← shrC c l (← subC c 128 b))
      let lo ← shlC c l b
      return U256.from_words c hi lo)
    wr r v
  else
    let w ← low c a
    let v ← lift (do
      let hi ← shlC c w (b &&& 0x7f)
      return U256.from_words c hi 0)
    wr r v
/-- src/intrinsics/native/shr.rs 7-22 -/
def sar2 (c : Cfg) (r : Ref) (a : U32) : T Unit := call1 .unique r fun r => do
  lift (debugAssert c (decide (a < 256)))
  if a = 0 then return ()
  else if a < 128 then
    let h ← high c r
    let l ← low c r
    let v ← lift (do
      let hi ← sarC c h a
      let lo := (← shrC c l a) ||| (← shlC c h (← subC c 128 a))
      return I256.from_words c hi lo)
    iset r v
  else
    let w ← high c r
    let v ← lift (do
      let hi ← sarC c w 127
      let lo ← sarC c w (a &&& 0x7f)
      return I256.from_words c hi lo)
    iset r v
/-- src/intrinsics/native/shr.rs 25-40 -/
def sar3 (c : Cfg) (r a : Ref) (b : U32) : T Unit := call2 .unique r .shared a fun r a => do
  lift (debugAssert c (decide (b < 256)))
  if b = 0 then
    let h ← high c a
    let l ← low c a
    iwr r (I256.from_words c h l)
  else if b < 128 then
    let h ← high c a
    let l ← low c a
    let v ← lift (do
      let hi ← sarC c h b
      let lo := (← shrC c l b) ||| (← shlC c h (← subC c 128 b))
      return I256.from_words c hi lo)
    iwr r v
  else
    let w ← high c a
    let v ← lift (do
      let hi ← sarC c w 127
      let lo ← sarC c w (b &&& 0x7f)
      return I256.from_words c hi lo)
    iwr r v
/-- src/intrinsics/native/shr.rs 43-55 -/
def shr2 (c : Cfg) (r : Ref) (a : U32) : T Unit := call1 .unique r fun r => do
  lift (debugAssert c (decide (a < 256)))
  if a = 0 then return ()
  else if a < 128 then
    let h ← high c r
    let l ← low c r
    let v ← lift (do
      let hi ← shrC c h a
      let lo := (← shrC c l a) ||| (← shlC c h (← subC c 128 a))
      return U256.from_words c hi lo)
    set r v
  else
    let w ← high c r
    let v ← lift (do
      let lo ← shrC c w (a &&& 0x7f)
      return U256.from_words c 0 lo)
    set r v
/-- src/intrinsics/native/shr.rs 58-70 -/
def shr3 (c : Cfg) (r a : Ref) (b : U32) : T Unit := call2 .unique r .shared a fun r a => do
  lift (debugAssert c (decide (b < 256)))
  if b = 0 then
    let h ← high c a
    let l ← low c a
    wr r (U256.from_words c h l)
  else if b < 128 then
    let h ← high c a
    let l ← low c a
    let v ← lift (do
      let hi ← shrC c h b
      let lo := (← shrC c l b) ||| (← shlC c h (← subC c 128 b))
      return U256.from_words c hi lo)
    wr r v
  else
    let w ← high c a
    let v ← lift (do
      let lo ← shrC c w (b &&& 0x7f)
      return U256.from_words c 0 lo)
    wr r v
/-- src/intrinsics/native/rot.rs 8-10 -/
def rol3 (c : Cfg) (r a : Ref) (b : U32) : T Unit := call2 .unique r .shared a fun r a => do
  again a
  let x ← rd a
  let v ← lift (Ethnum.Native.rol3 c x b)
  wr r v
/-- src/intrinsics/native/rot.rs 13-15 -/
def ror3 (c : Cfg) (r a : Ref) (b : U32) : T Unit := call2 .unique r .shared a fun r a => do
  again a
  let x ← rd a
  let v ← lift (Ethnum.Native.ror3 c x b)
  wr r v

end Native

namespace Llvm

/-- Model/Mem.lean `MemLlvm.two`; the references are passed on as pointers (`mem::transmute`, src/intrinsics/llvm.rs 27-36) -/
def two (f : U256 → U256 → U256) (r a : Ref) : T Unit := call2 .unique r .shared a fun r a => do
  let x ← rd r
  let y ← rd a
  set r (f x y)
/-- `MemLlvm.three` (src/intrinsics/llvm.rs 41-69) -/
def three (f : U256 → U256 → U256) (r a b : Ref) : T Unit := call3 r a b fun r a b => do
  let x ← rd a
  let y ← rd b
  set r (f x y)
/-- `MemLlvm.carry` (src/intrinsics/llvm.rs 41-69) -/
def carry (f : U256 → U256 → U256 × Bool) (r a b : Ref) : T Bool := call3 r a b fun r a b => do
  let x ← rd a
  let y ← rd b
  let (v, o) := f x y
  set r v
  return o
/-- `MemLlvm.icarry` (src/intrinsics/llvm.rs 41-69) -/
def icarry (f : I256 → I256 → I256 × Bool) (r a b : Ref) : T Bool := call3 r a b fun r a b => do
  let x ← ird a
  let y ← ird b
  let (v, o) := f x y
  iset r v
  return o
/-- `MemLlvm.shift2` (src/intrinsics/llvm.rs 41-69) -/
def shift2 (f : U256 → U32 → U256) (r : Ref) (a : U32) : T Unit := call1 .unique r fun r => do
  let x ← rd r
  set r (f x a)
/-- `MemLlvm.shift3` (src/intrinsics/llvm.rs 41-69) -/
def shift3 (f : U256 → U32 → U256) (r a : Ref) (b : U32) : T Unit := call2 .unique r .shared a fun r a => do
  let x ← rd a
  set r (f x b)
/-- `MemLlvm.ishift2` (src/intrinsics/llvm.rs 41-69) -/
def ishift2 (f : I256 → U32 → I256) (r : Ref) (a : U32) : T Unit := call1 .unique r fun r => do
  let x ← ird r
  iset r (f x a)
/-- `MemLlvm.ishift3` (src/intrinsics/llvm.rs 41-69) -/
def ishift3 (f : I256 → U32 → I256) (r a : Ref) (b : U32) : T Unit := call2 .unique r .shared a fun r a => do
  let x ← ird a
  iset r (f x b)

end Llvm

namespace Intr
/-- `add2` of the selected back-end (src/intrinsics.rs 14-23, src/intrinsics/llvm.rs 42) -/
def add2 (c : Cfg) (r a : Ref) : T Unit :=
  if c.llvm then Llvm.two (Ethnum.Llvm.add2 c) r a else Native.add2 c r a
/-- `add3` of the selected back-end (src/intrinsics.rs 14-23, src/intrinsics/llvm.rs 43) -/
def add3 (c : Cfg) (r a b : Ref) : T Unit :=
  if c.llvm then Llvm.three (Ethnum.Llvm.add3 c) r a b else Native.add3 c r a b
/-- `uaddc` of the selected back-end (src/intrinsics.rs 14-23, src/intrinsics/llvm.rs 44) -/
def uaddc (c : Cfg) (r a b : Ref) : T Bool :=
  if c.llvm then Llvm.carry (Ethnum.Llvm.uaddc c) r a b else Native.uaddc c r a b
/-- `iaddc` of the selected back-end (src/intrinsics.rs 14-23, src/intrinsics/llvm.rs 45) -/
def iaddc (c : Cfg) (r a b : Ref) : T Bool :=
  if c.llvm then Llvm.icarry (Ethnum.Llvm.iaddc c) r a b else Native.iaddc c r a b
/-- `sub2` of the selected back-end (src/intrinsics.rs 14-23, src/intrinsics/llvm.rs 47) -/
def sub2 (c : Cfg) (r a : Ref) : T Unit :=
  if c.llvm then Llvm.two (Ethnum.Llvm.sub2 c) r a else Native.sub2 c r a
/-- `sub3` of the selected back-end (src/intrinsics.rs 14-23, src/intrinsics/llvm.rs 48) -/
def sub3 (c : Cfg) (r a b : Ref) : T Unit :=
  if c.llvm then Llvm.three (Ethnum.Llvm.sub3 c) r a b else Native.sub3 c r a b
/-- `usubc` of the selected back-end (src/intrinsics.rs 14-23, src/intrinsics/llvm.rs 49) -/
def usubc (c : Cfg) (r a b : Ref) : T Bool :=
  if c.llvm then Llvm.carry (Ethnum.Llvm.usubc c) r a b else Native.usubc c r a b
/-- `isubc` of the selected back-end (src/intrinsics.rs 14-23, src/intrinsics/llvm.rs 50) -/
def isubc (c : Cfg) (r a b : Ref) : T Bool :=
  if c.llvm then Llvm.icarry (Ethnum.Llvm.isubc c) r a b else Native.isubc c r a b
/-- `mul2` of the selected back-end (src/intrinsics.rs 14-23, src/intrinsics/llvm.rs 52) -/
def mul2 (c : Cfg) (r a : Ref) : T Unit :=
  if c.llvm then Llvm.two (Ethnum.Llvm.mul2 c) r a else Native.mul2 c r a
/-- `mul3` of the selected back-end (src/intrinsics.rs 14-23, src/intrinsics/llvm.rs 53) -/
def mul3 (c : Cfg) (r a b : Ref) : T Unit :=
  if c.llvm then Llvm.three (Ethnum.Llvm.mul3 c) r a b else Native.mul3 c r a b
/-- `umulc` of the selected back-end (src/intrinsics.rs 14-23, src/intrinsics/llvm.rs 54) -/
def umulc (c : Cfg) (r a b : Ref) : T Bool :=
  if c.llvm then Llvm.carry (Ethnum.Llvm.umulc c) r a b else Native.umulc c r a b
/-- `shl2` of the selected back-end (src/intrinsics.rs 14-23, src/intrinsics/llvm.rs 56) -/
def shl2 (c : Cfg) (r : Ref) (a : U32) : T Unit :=
  if c.llvm then Llvm.shift2 (Ethnum.Llvm.shl2 c) r a else Native.shl2 c r a
/-- `shl3` of the selected back-end (src/intrinsics.rs 14-23, src/intrinsics/llvm.rs 57) -/
def shl3 (c : Cfg) (r a : Ref) (b : U32) : T Unit :=
  if c.llvm then Llvm.shift3 (Ethnum.Llvm.shl3 c) r a b else Native.shl3 c r a b
/-- `sar2` of the selected back-end (src/intrinsics.rs 14-23, src/intrinsics/llvm.rs 59) -/
def sar2 (c : Cfg) (r : Ref) (a : U32) : T Unit :=
  if c.llvm then Llvm.ishift2 (Ethnum.Llvm.sar2 c) r a else Native.sar2 c r a
/-- `sar3` of the selected back-end (src/intrinsics.rs 14-23, src/intrinsics/llvm.rs 60) -/
def sar3 (c : Cfg) (r a : Ref) (b : U32) : T Unit :=
  if c.llvm then Llvm.ishift3 (Ethnum.Llvm.sar3 c) r a b else Native.sar3 c r a b
/-- `shr2` of the selected back-end (src/intrinsics.rs 14-23, src/intrinsics/llvm.rs 61) -/
def shr2 (c : Cfg) (r : Ref) (a : U32) : T Unit :=
  if c.llvm then Llvm.shift2 (Ethnum.Llvm.shr2 c) r a else Native.shr2 c r a
/-- `shr3` of the selected back-end (src/intrinsics.rs 14-23, src/intrinsics/llvm.rs 62) -/
def shr3 (c : Cfg) (r a : Ref) (b : U32) : T Unit :=
  if c.llvm then Llvm.shift3 (Ethnum.Llvm.shr3 c) r a b else Native.shr3 c r a b
/-- `rol3` of the selected back-end (src/intrinsics.rs 14-23, src/intrinsics/llvm.rs 64) -/
def rol3 (c : Cfg) (r a : Ref) (b : U32) : T Unit :=
  if c.llvm then Llvm.shift3 (Ethnum.Llvm.rol3 c) r a b else Native.rol3 c r a b
/-- `ror3` of the selected back-end (src/intrinsics.rs 14-23, src/intrinsics/llvm.rs 65) -/
def ror3 (c : Cfg) (r a : Ref) (b : U32) : T Unit :=
  if c.llvm then Llvm.shift3 (Ethnum.Llvm.ror3 c) r a b else Native.ror3 c r a b

/-- src/intrinsics/native/divmod.rs 104-186 -/
def udivmod4 (c : Cfg) (res a b : Ref) (rem : Option Ref) : T Unit := call4 res a b rem fun res a b rem => do
  let ah ← high c a
  let bh ← high c b
  if ah ||| bh = 0 then
    let q ← lift (divC (← low c a) (← low c b))
    wr res (U256.from_words c 0 q)
    match rem with
    | some rem =>
      let r ← lift (remC (← low c a) (← low c b))
      wr rem (U256.from_words c 0 r)
    | none => return ()
  else
    let dividend ← rd a
    let divisor ← rd b
    if divisor.gt c dividend then
      match rem with
      | some rem =>
        wr rem dividend
        wr res U256.ZERO
      | none => wr res U256.ZERO
    else
      let (quotient, remainder) ← lift (if divisor.high c = 0 then Ethnum.Intr.udivmodNarrow c dividend divisor
        else Ethnum.Intr.div_mod_knuth c dividend divisor)
      match rem with
      | some rem =>
        wr rem remainder
        wr res quotient
      | none => wr res quotient

/-- src/intrinsics/native/divmod.rs 394-400 -/
def udiv2 (c : Cfg) (r a : Ref) : T Unit := call2 .unique r .shared a fun r a => do
  let x ← rd r
  withLocal (Cell.ofU x) fun a' => do
    let res ← castMut r
    udivmod4 c res (← ref .shared a') a none

/-- src/intrinsics/native/divmod.rs 403-405 -/
def udiv3 (c : Cfg) (r a b : Ref) : T Unit := call3 r a b fun r a b => udivmod4 c r a b none

/-- src/intrinsics/native/divmod.rs 408-415 -/
def urem2 (c : Cfg) (r a : Ref) : T Unit := call2 .unique r .shared a fun r a =>
  withLocal Cell.uninit fun res => do
    let x ← rd r
    withLocal (Cell.ofU x) fun a' => do
      let r ← castMut r
      udivmod4 c (← ref .unique res) (← ref .shared a') a (some r)

/-- src/intrinsics/native/divmod.rs 418-421 -/
def urem3 (c : Cfg) (r a b : Ref) : T Unit := call3 r a b fun r a b =>
  withLocal Cell.uninit fun res => do
    udivmod4 c (← ref .unique res) a b (some r)

/-- src/intrinsics/native/divmod.rs 432-448: `a` and `b` are the local variables -/
def idivmodSigns (c : Cfg) (res : Ref) (rem : Option Ref) (s_a s_b : I256) (a b : Ref) : T Unit := do
  let res' ← castUninit res
  let a' ← castRef (← ref .shared a)
  let b' ← castRef (← ref .shared b)
  let rem' ← castOpt rem
  udivmod4 c res' a' b' rem'
  let q ← iassumeRef res
  let q := (q.bitxor s_b).wrapping_sub c s_b
  iwr res q
  match rem with
  | some rem =>
    let r ← iassumeRef rem
    let r := (r.bitxor s_a).wrapping_sub c s_a
    iwr rem r
  | none => return ()

/-- src/intrinsics/native/divmod.rs 423-449: `a` and `b` are each read twice -/
def idivmod4 (c : Cfg) (res a b : Ref) (rem : Option Ref) : T Unit := call4 res a b rem fun res a b rem => do
  again a
  again b
  let x ← ird a
  let y ← ird b
  let s_a ← lift (x.shr c 255)
  let s_b ← lift (y.shr c 255)
  let x := (x.bitxor s_a).wrapping_sub c s_a
  let y := (y.bitxor s_b).wrapping_sub c s_b
  let s_b := s_b.bitxor s_a
  withLocal (Cell.ofI x) fun a' => withLocal (Cell.ofI y) fun b' => idivmodSigns c res rem s_a s_b a' b'

/-- src/intrinsics/native/divmod.rs 452-458 -/
def idiv2 (c : Cfg) (r a : Ref) : T Unit := call2 .unique r .shared a fun r a => do
  let x ← ird r
  withLocal (Cell.ofI x) fun a' => do
    let res ← castMut r
    idivmod4 c res (← ref .shared a') a none

/-- src/intrinsics/native/divmod.rs 461-463 -/
def idiv3 (c : Cfg) (r a b : Ref) : T Unit := call3 r a b fun r a b => idivmod4 c r a b none

/-- src/intrinsics/native/divmod.rs 466-473 -/
def irem2 (c : Cfg) (r a : Ref) : T Unit := call2 .unique r .shared a fun r a =>
  withLocal Cell.uninit fun res => do
    let x ← ird r
    withLocal (Cell.ofI x) fun a' => do
      let r ← castMut r
      idivmod4 c (← ref .unique res) (← ref .shared a') a (some r)

/-- src/intrinsics/native/divmod.rs 476-479 -/
def irem3 (c : Cfg) (r a b : Ref) : T Unit := call3 r a b fun r a b =>
  withLocal Cell.uninit fun res => do
    idivmod4 c (← ref .unique res) a b (some r)

/-- src/intrinsics/signed.rs 16-18, and likewise `isub2` (31-33) and `imul2` (36-38): `op2(cast!(mut: r), cast!(ref: a))` -/
def signed2 (op2 : Ref → Ref → T Unit) (r a : Ref) : T Unit := call2 .unique r .shared a fun r a => do
  op2 (← castMut r) (← castRef a)
/-- src/intrinsics/signed.rs 21-23, and likewise `isub3` (31-33) and `imul3` (41-43):
`op3(cast!(uninit: r), cast!(ref: a), cast!(ref: b))` -/
def signed3 (op3 : Ref → Ref → Ref → T Unit) (r a b : Ref) : T Unit := call3 r a b fun r a b => do
  op3 (← castUninit r) (← castRef a) (← castRef b)
/-- src/intrinsics/signed.rs 46-48: `shl2(cast!(mut: r), a)` -/
def ishl2 (c : Cfg) (r : Ref) (a : U32) : T Unit := call1 .unique r fun r => do
  shl2 c (← castMut r) a
/-- src/intrinsics/signed.rs 51-53, and likewise `irol3` (56-58) and `iror3` (61-63): `shl3(cast!(uninit: r), cast!(ref: a), b)` -/
def signedShift3 (op3 : Ref → Ref → U32 → T Unit) (r a : Ref) (b : U32) : T Unit := call2 .unique r .shared a fun r a => do
  op3 (← castUninit r) (← castRef a) b

end Intr

/-! ### Operators (src/macros/ops.rs) -/

namespace Ops

/-- `&a op &b` for `+`, `-`, `*` (src/macros/ops.rs 154-172) -/
def binop {R : Type} (c : Cfg) (rdT : Ref → T R) (op3 : Ref → Ref → Ref → T Unit) (opc : Ref → Ref → Ref → T Bool)
    (p : Panic) (a b : Ref) : T R := call2 .shared a .shared b fun a b =>
  withLocal Cell.uninit fun result => do
    if c.debugAssertions then
      if ← opc (← ref .unique result) a b then lift (throwPanic p)
    else op3 (← ref .unique result) a b
    rdT result

/-- `&a / &b` and `&a % &b` (src/macros/ops.rs 231-244) -/
def divmod {R : Type} (rdT : Ref → T R) (isZero : R → Bool) (op3 : Ref → Ref → Ref → T Unit) (p : Panic)
    (a b : Ref) : T R := call2 .shared a .shared b fun a b => do
  if isZero (← rdT b) then lift (throwPanic p)
  else withLocal Cell.uninit fun result => do
    op3 (← ref .unique result) a b
    rdT result

/-- `&a << b` and `&a >> b` (src/macros/ops.rs 262-276) -/
def shift {R : Type} (c : Cfg) (rdT : Ref → T R) (op3 : Ref → Ref → U32 → T Unit) (p : Panic) (a : Ref) (b : U32) :
    T R := call1 .shared a fun a => do
  if c.debugAssertions && decide (b > 0xff) then lift (throwPanic p)
  else withLocal Cell.uninit fun result => do
    op3 (← ref .unique result) a b
    rdT result

/-- `a op= &b` (src/macros/ops.rs 395-407) -/
def assign {R : Type} (c : Cfg) (setT : Ref → R → T Unit) (op : Ref → Ref → T R) (op2 : Ref → Ref → T Unit) (a b : Ref) :
    T Unit := call2 .unique a .shared b fun a b => do
  if c.debugAssertions then
    let v ← op (← ref .shared a) b
    setT a v
  else op2 a b

/-- `a <<= b` and `a >>= b` (src/macros/ops.rs 455-467) -/
def shiftAssign {R : Type} (c : Cfg) (setT : Ref → R → T Unit) (op : Ref → U32 → T R) (op2 : Ref → U32 → T Unit) (a : Ref)
    (b : U32) : T Unit := call1 .unique a fun a => do
  if c.debugAssertions then
    let v ← op (← ref .shared a) b
    setT a v
  else op2 a b

/-- `a op= &b` for `&`, `|`, `^` (src/macros/ops.rs 528-536): references to the words of both -/
def bitwise (op : U128 → U128 → U128) (a b : Ref) : T Unit := call2 .unique a .shared b fun a b => do
  let a0 ← refWord .unique 0 a
  let a1 ← refWord .unique 1 a
  let b0 ← refWord .shared 0 b
  let b1 ← refWord .shared 1 b
  note a0 (.access .read a0.tag 0 16)
  let x0 ← mem (M.rd0 a.loc)
  note b0 (.access .read b0.tag 0 16)
  let y0 ← mem (M.rd0 b.loc)
  note a0 (.access .write a0.tag 0 16)
  mem (M.wr0 a.loc (op x0 y0))
  note a1 (.access .read a1.tag 16 16)
  let x1 ← mem (M.rd1 a.loc)
  note b1 (.access .read b1.tag 16 16)
  let y1 ← mem (M.rd1 b.loc)
  note a1 (.access .write a1.tag 16 16)
  mem (M.wr1 a.loc (op x1 y1))

end Ops

open Ops

namespace U256

/-- `&a + &b` -/
def add (c : Cfg) : Ref → Ref → T Ethnum.U256 := binop c rd (Intr.add3 c) (Intr.uaddc c) .addOverflow
/-- `a += &b` -/
def add_assign (c : Cfg) : Ref → Ref → T Unit := assign c set (add c) (Intr.add2 c)
/-- `&a - &b` -/
def sub (c : Cfg) : Ref → Ref → T Ethnum.U256 := binop c rd (Intr.sub3 c) (Intr.usubc c) .subOverflow
/-- `a -= &b` -/
def sub_assign (c : Cfg) : Ref → Ref → T Unit := assign c set (sub c) (Intr.sub2 c)
/-- `&a * &b` -/
def mul (c : Cfg) : Ref → Ref → T Ethnum.U256 := binop c rd (Intr.mul3 c) (Intr.umulc c) .mulOverflow
/-- `a *= &b` -/
def mul_assign (c : Cfg) : Ref → Ref → T Unit := assign c set (mul c) (Intr.mul2 c)
/-- `&a / &b` -/
def div (c : Cfg) : Ref → Ref → T Ethnum.U256 := divmod rd (fun x => x.eq_prim c 0) (Intr.udiv3 c) .divByZero
/-- `a /= &b` -/
def div_assign (c : Cfg) : Ref → Ref → T Unit := assign c set (div c) (Intr.udiv2 c)
/-- `&a % &b` -/
def rem (c : Cfg) : Ref → Ref → T Ethnum.U256 := divmod rd (fun x => x.eq_prim c 0) (Intr.urem3 c) .remByZero
/-- `a %= &b` -/
def rem_assign (c : Cfg) : Ref → Ref → T Unit := assign c set (rem c) (Intr.urem2 c)
/-- `&a << b` -/
def shl (c : Cfg) : Ref → U32 → T Ethnum.U256 := shift c rd (Intr.shl3 c) .shlOverflow
/-- `a <<= b` -/
def shl_assign (c : Cfg) : Ref → U32 → T Unit := shiftAssign c set (shl c) (Intr.shl2 c)
/-- `&a >> b` -/
def shr (c : Cfg) : Ref → U32 → T Ethnum.U256 := shift c rd (Intr.shr3 c) .shrOverflow
/-- `a >>= b` -/
def shr_assign (c : Cfg) : Ref → U32 → T Unit := shiftAssign c set (shr c) (Intr.shr2 c)
/-- `a &= &b` -/
def bitand_assign : Ref → Ref → T Unit := bitwise (· &&& ·)
/-- `a |= &b` -/
def bitor_assign : Ref → Ref → T Unit := bitwise (· ||| ·)
/-- `a ^= &b` -/
def bitxor_assign : Ref → Ref → T Unit := bitwise (· ^^^ ·)

end U256

namespace I256

/-- `&a + &b` -/
def add (c : Cfg) : Ref → Ref → T Ethnum.I256 := binop c ird (Intr.signed3 (Intr.add3 c)) (Intr.iaddc c) .addOverflow
/-- `a += &b` -/
def add_assign (c : Cfg) : Ref → Ref → T Unit := assign c iset (add c) (Intr.signed2 (Intr.add2 c))
/-- `&a - &b` -/
def sub (c : Cfg) : Ref → Ref → T Ethnum.I256 := binop c ird (Intr.signed3 (Intr.sub3 c)) (Intr.isubc c) .subOverflow
/-- `a -= &b` -/
def sub_assign (c : Cfg) : Ref → Ref → T Unit := assign c iset (sub c) (Intr.signed2 (Intr.sub2 c))
/-- `&a * &b` -/
def mul (c : Cfg) : Ref → Ref → T Ethnum.I256 := binop c ird (Intr.signed3 (Intr.mul3 c)) (Native.imulc c) .mulOverflow
/-- `a *= &b` -/
def mul_assign (c : Cfg) : Ref → Ref → T Unit := assign c iset (mul c) (Intr.signed2 (Intr.mul2 c))
/-- `&a / &b` -/
def div (c : Cfg) : Ref → Ref → T Ethnum.I256 := divmod ird (fun x => x.eq_prim c 0) (Intr.idiv3 c) .divByZero
/-- `a /= &b` -/
def div_assign (c : Cfg) : Ref → Ref → T Unit := assign c iset (div c) (Intr.idiv2 c)
/-- `&a % &b` -/
def rem (c : Cfg) : Ref → Ref → T Ethnum.I256 := divmod ird (fun x => x.eq_prim c 0) (Intr.irem3 c) .remByZero
/-- `a %= &b` -/
def rem_assign (c : Cfg) : Ref → Ref → T Unit := assign c iset (rem c) (Intr.irem2 c)
/-- `&a << b` -/
def shl (c : Cfg) : Ref → U32 → T Ethnum.I256 := shift c ird (Intr.signedShift3 (Intr.shl3 c)) .shlOverflow
/-- `a <<= b` -/
def shl_assign (c : Cfg) : Ref → U32 → T Unit := shiftAssign c iset (shl c) (Intr.ishl2 c)
/-- `&a >> b` -/
def shr (c : Cfg) : Ref → U32 → T Ethnum.I256 := shift c ird (Intr.sar3 c) .shrOverflow
/-- `a >>= b` -/
def shr_assign (c : Cfg) : Ref → U32 → T Unit := shiftAssign c iset (shr c) (Intr.sar2 c)
/-- `a &= &b` -/
def bitand_assign : Ref → Ref → T Unit := bitwise (· &&& ·)
/-- `a |= &b` -/
def bitor_assign : Ref → Ref → T Unit := bitwise (· ||| ·)
/-- `a ^= &b` -/
def bitxor_assign : Ref → Ref → T Unit := bitwise (· ^^^ ·)

end I256

/-! ### Methods -/

/-- The routine writes a new variable, which is then read: `op3(&mut r, &self, &rhs)`, `r.assume_init()`, of which the code has
one copy in each method -/
def out {R : Type} (rdT : Ref → T R) (op3 : Ref → Ref → Ref → T Unit) (a b : Ref) : T R :=
  withLocal Cell.uninit fun r => do
    op3 (← ref .unique r) (← ref .shared a) (← ref .shared b)
    rdT r
/-- The same, for a routine that tells whether the result is too large -/
def outc {R : Type} (rdT : Ref → T R) (opc : Ref → Ref → Ref → T Bool) (a b : Ref) : T (R × Bool) :=
  withLocal Cell.uninit fun r => do
    let overflow ← opc (← ref .unique r) (← ref .shared a) (← ref .shared b)
    return (← rdT r, overflow)
/-- The same, for a shift by or a rotation by `n` bits -/
def outShift {R : Type} (rdT : Ref → T R) (op3 : Ref → Ref → U32 → T Unit) (a : Ref) (n : U32) : T R :=
  withLocal Cell.uninit fun r => do
    op3 (← ref .unique r) (← ref .shared a) n
    rdT r

/-- src/uint/api.rs 849-853 -/
def U256.wrapping_add (c : Cfg) : Ref → Ref → T Ethnum.U256 := out rd (Intr.add3 c)
/-- src/uint/api.rs 890-894 -/
def U256.wrapping_sub (c : Cfg) : Ref → Ref → T Ethnum.U256 := out rd (Intr.sub3 c)
/-- src/uint/api.rs 914-918 -/
def U256.wrapping_mul (c : Cfg) : Ref → Ref → T Ethnum.U256 := out rd (Intr.mul3 c)
/-- src/uint/api.rs 1155-1159 -/
def U256.overflowing_add (c : Cfg) : Ref → Ref → T (Ethnum.U256 × Bool) := outc rd (Intr.uaddc c)
/-- src/uint/api.rs 1203-1207 -/
def U256.overflowing_sub (c : Cfg) : Ref → Ref → T (Ethnum.U256 × Bool) := outc rd (Intr.usubc c)
/-- src/uint/api.rs 1255-1259 -/
def U256.overflowing_mul (c : Cfg) : Ref → Ref → T (Ethnum.U256 × Bool) := outc rd (Intr.umulc c)
/-- src/uint/api.rs 1059-1063 -/
def U256.wrapping_shl (c : Cfg) (a : Ref) (n : U32) : T Ethnum.U256 := outShift rd (Intr.shl3 c) a (n &&& 0xff)
/-- src/uint/api.rs 1088-1092 -/
def U256.wrapping_shr (c : Cfg) (a : Ref) (n : U32) : T Ethnum.U256 := outShift rd (Intr.shr3 c) a (n &&& 0xff)
/-- src/uint/api.rs 200-204 -/
def U256.rotate_left (c : Cfg) : Ref → U32 → T Ethnum.U256 := outShift rd (Intr.rol3 c)
/-- src/uint/api.rs 228-232 -/
def U256.rotate_right (c : Cfg) : Ref → U32 → T Ethnum.U256 := outShift rd (Intr.ror3 c)
/-- src/int/api.rs 1011-1015 -/
def I256.wrapping_add (c : Cfg) : Ref → Ref → T Ethnum.I256 := out ird (Intr.signed3 (Intr.add3 c))
/-- src/int/api.rs 1051-1055 -/
def I256.wrapping_sub (c : Cfg) : Ref → Ref → T Ethnum.I256 := out ird (Intr.signed3 (Intr.sub3 c))
/-- src/int/api.rs 1091-1095 -/
def I256.wrapping_mul (c : Cfg) : Ref → Ref → T Ethnum.I256 := out ird (Intr.signed3 (Intr.mul3 c))
/-- src/int/api.rs 1405-1409 -/
def I256.overflowing_add (c : Cfg) : Ref → Ref → T (Ethnum.I256 × Bool) := outc ird (Intr.iaddc c)
/-- src/int/api.rs 1454-1458 -/
def I256.overflowing_sub (c : Cfg) : Ref → Ref → T (Ethnum.I256 × Bool) := outc ird (Intr.isubc c)
/-- src/int/api.rs 1545-1549 -/
def I256.overflowing_mul (c : Cfg) : Ref → Ref → T (Ethnum.I256 × Bool) := outc ird (Native.imulc c)
/-- src/int/api.rs 1254-1258 -/
def I256.wrapping_shl (c : Cfg) (a : Ref) (n : U32) : T Ethnum.I256 :=
  outShift ird (Intr.signedShift3 (Intr.shl3 c)) a (n &&& 0xff)
/-- src/int/api.rs 1283-1287 -/
def I256.wrapping_shr (c : Cfg) (a : Ref) (n : U32) : T Ethnum.I256 := outShift ird (Intr.sar3 c) a (n &&& 0xff)
/-- src/int/api.rs 210-214 -/
def I256.rotate_left (c : Cfg) : Ref → U32 → T Ethnum.I256 := outShift ird (Intr.signedShift3 (Intr.rol3 c))
/-- src/int/api.rs 239-243 -/
def I256.rotate_right (c : Cfg) : Ref → U32 → T Ethnum.I256 := outShift ird (Intr.signedShift3 (Intr.ror3 c))

/-- The two outputs of a division (src/uint.rs 310-313, src/int.rs 494-497) -/
def out2 {R : Type} (rdT : Ref → T R) (op4 : Ref → Ref → Ref → Option Ref → T Unit) (a b : Ref) : T (R × R) :=
  withLocal Cell.uninit fun res => withLocal Cell.uninit fun rem => do
    op4 (← ref .unique res) (← ref .shared a) (← ref .shared b) (some (← ref .unique rem))
    return (← rdT res, ← rdT rem)
/-- src/uint.rs 297-329 -/
def U256.div_rem (c : Cfg) (a b : Ref) : T (Ethnum.U256 × Ethnum.U256) := do
  let y ← rd b
  if y.eq_prim c 0 then lift (do
    unreachableIf (y.gt_prim c 0)
    throwPanic .divByZero)
  else
    lift (unreachableIf (y.le_prim c 0))
    let (res, rem) ← out2 rd (Intr.udivmod4 c) a b
    let x ← rd a
    lift (do
      unreachableIf (rem.ge c y)
      unreachableIf (rem.gt c x)
      unreachableIf (res.gt c x)
      return (res, rem))
/-- src/int.rs 481-498 -/
def I256.wrapping_div_rem (c : Cfg) (a b : Ref) : T (Ethnum.I256 × Ethnum.I256) := do
  let y ← ird b
  if y.eq_prim c 0 then lift (do
    unreachableIf (Ethnum.I256.cmp c y Ethnum.I256.ZERO != .eq)
    throwPanic .divByZero)
  else
    lift (unreachableIf (Ethnum.I256.cmp c y Ethnum.I256.ZERO == .eq))
    out2 ird (Intr.idivmod4 c) a b

/-! ### Programs -/

/-- The local variable at index `i` -/
def var (i : Nat) : Ref := ⟨i, i, owner⟩

/-- `let mut x = ..; let y = ..; x op= &y;`, and both variables are read afterwards -/
def assigning (op : Ref → Ref → T Unit) : T Unit := do
  op (← ref .unique (var 0)) (← ref .shared (var 1))
  let _ ← rd (var 0)
  let _ ← rd (var 1)
/-- `let mut x = ..; x op= n;` -/
def assigningShift (op : Ref → U32 → T Unit) (n : U32) : T Unit := do
  op (← ref .unique (var 0)) n
  let _ ← rd (var 0)
/-- `let x = ..; let y = ..; x.method(y)`, and both variables are read afterwards -/
def calling {R : Type} (f : Ref → Ref → T R) : T R := do
  let r ← f (var 0) (var 1)
  let _ ← rd (var 0)
  let _ ← rd (var 1)
  return r
/-- `let x = ..; x.method(n)` -/
def callingShift {R : Type} (f : Ref → U32 → T R) (n : U32) : T R := do
  let r ← f (var 0) n
  let _ ← rd (var 0)
  return r

/-- A program that begins with two variables -/
def start (x y : Cell) : World := ⟨[x, y], [], 2⟩

end Ethnum.Alias
