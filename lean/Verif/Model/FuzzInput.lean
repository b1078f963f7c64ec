import Verif.Model.Fuzz

/-
How the differential fuzzer reads its input: `Target::load` and `fuzz` of fuzz/src/lib.rs on bytes, and the seed written
by fuzz/src/bin/init.rs.

The `arbitrary` crate (version 1) and its derive macro are part of the trusted base; what they do for the three derived
types is written out here. Its guard against recursive types is not triggered, because none of the types is recursive.
-/

namespace Ethnum
namespace Fuzz

/-! ### `arbitrary` (trusted base) -/

/-- `Unstructured`: the bytes not yet taken. -/
abbrev Unstructured := List U8

/-- `Unstructured::fill_buffer`: the next `n` bytes, with zeros for those that are missing. -/
def fill_buffer (n : Nat) (u : Unstructured) : List U8 × Unstructured :=
  (u.take n ++ List.replicate (n - u.length) 0, u.drop n)

/-- `<u32 as Arbitrary>::arbitrary` -/
def arbitrary_u32 (u : Unstructured) : U32 × Unstructured :=
  let (buf, u) := fill_buffer 4 u
  (BitVec.ofNat 32 (leValue buf), u)

/-- `<u128 as Arbitrary>::arbitrary` -/
def arbitrary_u128 (u : Unstructured) : U128 × Unstructured :=
  let (buf, u) := fill_buffer 16 u
  (BitVec.ofNat 128 (leValue buf), u)

/-- The variant that `#[derive(Arbitrary)]` chooses for an enumeration of `count` variants:
`(u64::from(u32::arbitrary(u)?) * count) >> 32` -/
def variant (count : Nat) (u : Unstructured) : Nat × Unstructured :=
  let (n, u) := arbitrary_u32 u
  ((n.toNat * count) % 2 ^ 64 / 2 ^ 32, u)

/-! ### fuzz/src/lib.rs -/

/-- `#[derive(Arbitrary)]` of `Num` (fuzz/src/lib.rs 49-50): the fields in order -/
def Num.arbitrary (u : Unstructured) : Num × Unstructured :=
  let (hi, u) := arbitrary_u128 u
  let (lo, u) := arbitrary_u128 u
  (⟨hi, lo⟩, u)

/-- `#[derive(Arbitrary)]` of `Op` (fuzz/src/lib.rs 40-47); a variant that does not exist is `unreachable!()` -/
def Op.arbitrary (u : Unstructured) : Res (Op × Unstructured) := do
  let (v, u) := variant 5 u
  let kind ← match v with
    | 0 => .ok OpKind.add
    | 1 => .ok OpKind.sub
    | 2 => .ok OpKind.mul
    | 3 => .ok OpKind.div
    | 4 => .ok OpKind.rem
    | _ => throwPanic .explicit
  let (a, u) := Num.arbitrary u
  let (b, u) := Num.arbitrary u
  return (⟨kind, a, b⟩, u)

/-- `Target::load` (fuzz/src/lib.rs 16-19), with `#[derive(Arbitrary)]` of `Target` (8-12). The last field takes the rest
of the bytes, which for a `u128` is the next sixteen. -/
def Target.load (data : List U8) : Res Target := do
  let (v, u) := variant 2 data
  match v with
  | 0 => do return .signed (← Op.arbitrary u).1
  | 1 => do return .unsigned (← Op.arbitrary u).1
  | _ => throwPanic .explicit

/-- `fuzz` on bytes (fuzz/src/lib.rs 90-101) -/
def fuzz_bytes (c : Cfg) (data : List U8) : Res Unit := do
  let target ← Target.load data
  fuzz c target

/-- The seed of fuzz/src/bin/init.rs 27-29: `size` zeros, where `size` is the size of a `Target`. -/
def seed (size : Nat) : List U8 := List.replicate size 0

end Fuzz
end Ethnum
