import Verif.Model.Words

/-
The alternative back-end selected by the feature `llvm-intrinsics`: src/intrinsics/llvm.rs forwards to the symbols of
the crate `ethnum-intrinsics`, whose build script (intrinsics/build/main.rs 27-49) compiles the `u128` functions of
intrinsics/build/intrinsics.rs with `-O` and rewrites the LLVM IR from 128 to 256 bits: `i128` to `i256`, the shift
mask ` 127` to ` 255`.

The first part models the `u128`/`i128` template functions at an arbitrary width `w`: an optimised build has no
overflow checks, so `+=`, `-=`, `*=` wrap and the amounts of `<<=`, `>>=` are masked with `w - 1`, as are those of
`wrapping_shl` and `wrapping_shr`. The textual rewriting of the IR is modelled as taking `w = 256`; rustc, clang and the
linker are trusted to preserve this meaning. The second part models the forwarding functions: a `&U256` transmuted to
a pointer to an LLVM `i256` is read as the 32 bytes in memory, in the byte order of the target.
-/

namespace Ethnum
namespace Template

variable {w : Nat}

/-- intrinsics/build/intrinsics.rs 35-41 (`add2`, `add3`) -/
def add (a b : BitVec w) : BitVec w := a + b
/-- intrinsics/build/intrinsics.rs 42-46 -/
def uaddc (a b : BitVec w) : BitVec w × Bool := (a + b, BitVec.uaddOverflow a b)
/-- intrinsics/build/intrinsics.rs 47-51 -/
def iaddc (a b : BitVec w) : BitVec w × Bool := (a + b, BitVec.saddOverflow a b)
/-- intrinsics/build/intrinsics.rs 53-59 (`sub2`, `sub3`) -/
def sub (a b : BitVec w) : BitVec w := a - b
/-- intrinsics/build/intrinsics.rs 60-64 -/
def usubc (a b : BitVec w) : BitVec w × Bool := (a - b, BitVec.usubOverflow a b)
/-- intrinsics/build/intrinsics.rs 65-69 -/
def isubc (a b : BitVec w) : BitVec w × Bool := (a - b, BitVec.ssubOverflow a b)
/-- intrinsics/build/intrinsics.rs 71-77 (`mul2`, `mul3`) -/
def mul (a b : BitVec w) : BitVec w := a * b
/-- intrinsics/build/intrinsics.rs 78-82 -/
def umulc (a b : BitVec w) : BitVec w × Bool := (a * b, BitVec.umulOverflow a b)
/-- The amount of a shift in an optimised build: masked with the width minus one (127, rewritten to 255). -/
def amount (w : Nat) (b : U32) : Nat := b.toNat &&& (w - 1)
/-- intrinsics/build/intrinsics.rs 84-90 (`shl2`, `shl3`) -/
def shl (a : BitVec w) (b : U32) : BitVec w := a <<< amount w b
/-- intrinsics/build/intrinsics.rs 92-98 (`sar2`, `sar3`) -/
def sar (a : BitVec w) (b : U32) : BitVec w := a.sshiftRight (amount w b)
/-- intrinsics/build/intrinsics.rs 99-105 (`shr2`, `shr3`) -/
def shr (a : BitVec w) (b : U32) : BitVec w := a >>> amount w b
/-- intrinsics/build/intrinsics.rs 107-109 -/
def rol (a : BitVec w) (b : U32) : BitVec w := a.rotateLeft b.toNat
/-- intrinsics/build/intrinsics.rs 110-112 -/
def ror (a : BitVec w) (b : U32) : BitVec w := a.rotateRight b.toNat
/-- intrinsics/build/intrinsics.rs 114-116 -/
def ctlz (a : BitVec w) : U32 := u32 (leadingZeros a)
/-- intrinsics/build/intrinsics.rs 117-119 -/
def cttz (a : BitVec w) : U32 := u32 (trailingZeros a)

end Template

namespace Llvm

/-- Reading an `i256` at the address of a `U256` (`mem::transmute` of the reference, src/intrinsics/llvm.rs 24-37):
the bytes of word 0 then those of word 1, as a number in the byte order of the target. -/
def load (c : Cfg) (x : U256) : BitVec 256 :=
  let m := neBytes128 c x.w0 ++ neBytes128 c x.w1
  BitVec.ofNat 256 (leValue (if c.bigEndian then m.reverse else m))
/-- Writing an `i256` at the address of a `U256`. -/
def store (c : Cfg) (v : BitVec 256) : U256 :=
  let m := if c.bigEndian then (leBytes 32 v.toNat).reverse else leBytes 32 v.toNat
  ⟨ofNeBytes128 c (m.take 16), ofNeBytes128 c (m.drop 16)⟩
/-- Reading an `i256` at the address of an `I256`. -/
def iload (c : Cfg) (x : I256) : BitVec 256 := load c ⟨x.w0, x.w1⟩
/-- Writing an `i256` at the address of an `I256`. -/
def istore (c : Cfg) (v : BitVec 256) : I256 := let r := store c v; ⟨r.w0, r.w1⟩

/-- src/intrinsics/llvm.rs 42 -/
def add2 (c : Cfg) (r a : U256) : U256 := store c (Template.add (load c r) (load c a))
/-- src/intrinsics/llvm.rs 43 -/
def add3 (c : Cfg) (a b : U256) : U256 := store c (Template.add (load c a) (load c b))
/-- src/intrinsics/llvm.rs 44 -/
def uaddc (c : Cfg) (a b : U256) : U256 × Bool :=
  let (r, o) := Template.uaddc (load c a) (load c b); (store c r, o)
/-- src/intrinsics/llvm.rs 45 -/
def iaddc (c : Cfg) (a b : I256) : I256 × Bool :=
  let (r, o) := Template.iaddc (iload c a) (iload c b); (istore c r, o)
/-- src/intrinsics/llvm.rs 47 -/
def sub2 (c : Cfg) (r a : U256) : U256 := store c (Template.sub (load c r) (load c a))
/-- src/intrinsics/llvm.rs 48 -/
def sub3 (c : Cfg) (a b : U256) : U256 := store c (Template.sub (load c a) (load c b))
/-- src/intrinsics/llvm.rs 49 -/
def usubc (c : Cfg) (a b : U256) : U256 × Bool :=
  let (r, o) := Template.usubc (load c a) (load c b); (store c r, o)
/-- src/intrinsics/llvm.rs 50 -/
def isubc (c : Cfg) (a b : I256) : I256 × Bool :=
  let (r, o) := Template.isubc (iload c a) (iload c b); (istore c r, o)
/-- src/intrinsics/llvm.rs 52 -/
def mul2 (c : Cfg) (r a : U256) : U256 := store c (Template.mul (load c r) (load c a))
/-- src/intrinsics/llvm.rs 53 -/
def mul3 (c : Cfg) (a b : U256) : U256 := store c (Template.mul (load c a) (load c b))
/-- src/intrinsics/llvm.rs 54 -/
def umulc (c : Cfg) (a b : U256) : U256 × Bool :=
  let (r, o) := Template.umulc (load c a) (load c b); (store c r, o)
/-- src/intrinsics/llvm.rs 56 -/
def shl2 (c : Cfg) (r : U256) (a : U32) : U256 := store c (Template.shl (load c r) a)
/-- src/intrinsics/llvm.rs 57 -/
def shl3 (c : Cfg) (a : U256) (b : U32) : U256 := store c (Template.shl (load c a) b)
/-- src/intrinsics/llvm.rs 59 -/
def sar2 (c : Cfg) (r : I256) (a : U32) : I256 := istore c (Template.sar (iload c r) a)
/-- src/intrinsics/llvm.rs 60 -/
def sar3 (c : Cfg) (a : I256) (b : U32) : I256 := istore c (Template.sar (iload c a) b)
/-- src/intrinsics/llvm.rs 61 -/
def shr2 (c : Cfg) (r : U256) (a : U32) : U256 := store c (Template.shr (load c r) a)
/-- src/intrinsics/llvm.rs 62 -/
def shr3 (c : Cfg) (a : U256) (b : U32) : U256 := store c (Template.shr (load c a) b)
/-- src/intrinsics/llvm.rs 64 -/
def rol3 (c : Cfg) (a : U256) (b : U32) : U256 := store c (Template.rol (load c a) b)
/-- src/intrinsics/llvm.rs 65 -/
def ror3 (c : Cfg) (a : U256) (b : U32) : U256 := store c (Template.ror (load c a) b)
/-- src/intrinsics/llvm.rs 67 -/
def ctlz (c : Cfg) (a : U256) : U32 := Template.ctlz (load c a)
/-- src/intrinsics/llvm.rs 68 -/
def cttz (c : Cfg) (a : U256) : U32 := Template.cttz (load c a)

end Llvm
end Ethnum
