import Verif.Model.FuzzInput
import Verif.Proofs.Bytes
import Verif.Props.Fuzz

/-
C56, from bytes on: whatever file the fuzzer is given, it is decoded and no difference is reported; and every operation
on every pair of operands is reached from some file, so that the files left out hide nothing.
-/

namespace Ethnum
open Fuzz

private theorem variant_lt (count : Nat) (hc : 0 < count) (u : Unstructured) :
    (variant count u).1 < count := by
  unfold variant
  dsimp only
  have h := (arbitrary_u32 u).1.isLt
  rw [Nat.div_lt_iff_lt_mul (by decide)]
  refine Nat.lt_of_le_of_lt (Nat.mod_le _ _) ?_
  rw [Nat.mul_comm]
  exact Nat.mul_lt_mul_of_pos_left h hc

private theorem op_ok (u : Unstructured) : ∃ r, Op.arbitrary u = .ok r := by
  have h := variant_lt 5 (by decide) u
  unfold Op.arbitrary
  generalize variant 5 u = v at h
  obtain ⟨v, u'⟩ := v
  dsimp only at h ⊢
  have : v = 0 ∨ v = 1 ∨ v = 2 ∨ v = 3 ∨ v = 4 := by omega
  rcases this with rfl | rfl | rfl | rfl | rfl <;> exact ⟨_, rfl⟩

/-- Every file is decoded, however short or long it is. -/
theorem C56_load (data : List U8) : ∃ t, Target.load data = .ok t := by
  have h := variant_lt 2 (by decide) data
  unfold Target.load
  generalize variant 2 data = v at h
  obtain ⟨v, u'⟩ := v
  obtain ⟨r, hr⟩ := op_ok u'
  dsimp only at h ⊢
  have : v = 0 ∨ v = 1 := by omega
  rcases this with rfl | rfl <;> rw [hr] <;> exact ⟨_, rfl⟩

example : Target.load [] = .ok (.signed ⟨.add, ⟨0, 0⟩, ⟨0, 0⟩⟩)
    ∧ Target.load [0, 0, 0, 0x80, 0, 0, 0, 0x80, 7] = .ok (.unsigned ⟨.mul, ⟨7, 0⟩, ⟨0, 0⟩⟩) := by decide +kernel

/-- The fuzzer reports no difference, whatever file it is given. -/
theorem C56_bytes (c : Cfg) (data : List U8) : fuzz_bytes c data = .ok () := by
  obtain ⟨t, ht⟩ := C56_load data
  unfold fuzz_bytes
  rw [ht]
  exact C56_fuzz c t

example : fuzz_bytes dbg [0, 0, 0, 0x80, 0, 0, 0, 0x80, 7, 8, 9] = .ok ()
    ∧ Target.load [0, 0, 0, 0x80, 0, 0, 0, 0x80, 7, 8, 9] = .ok (.unsigned ⟨.mul, ⟨0x90807, 0⟩, ⟨0, 0⟩⟩) := by
  decide +kernel

private theorem fill_append (n : Nat) (l rest : List U8) (h : l.length = n) : fill_buffer n (l ++ rest) = (l, rest) := by
  unfold fill_buffer
  rw [List.take_left' h, List.drop_left' h, List.length_append, show n - (l.length + rest.length) = 0 by omega]
  simp

private theorem u128_append (x : U128) (rest : List U8) : arbitrary_u128 (leBytes 16 x.toNat ++ rest) = (x, rest) := by
  unfold arbitrary_u128
  rw [fill_append 16 _ _ (length_leBytes ..)]
  dsimp only
  rw [leValue_leBytes, Nat.mod_eq_of_lt x.isLt, BitVec.ofNat_toNat, BitVec.setWidth_eq]

private theorem num_append (n : Num) (rest : List U8) :
    Num.arbitrary (leBytes 16 n.hi.toNat ++ (leBytes 16 n.lo.toNat ++ rest)) = (n, rest) := by
  unfold Num.arbitrary
  rw [u128_append]
  dsimp only
  rw [u128_append]

private theorem variant_append (count n : Nat) (hn : n < 2 ^ 32) (hc : count < 2 ^ 32) (rest : List U8) :
    variant count (leBytes 4 n ++ rest) = (n * count / 2 ^ 32, rest) := by
  unfold variant arbitrary_u32
  rw [fill_append 4 _ _ (length_leBytes ..)]
  dsimp only
  rw [leValue_leBytes, show (256 : Nat) ^ 4 = 2 ^ 32 by decide, BitVec.toNat_ofNat, Nat.mod_mod, Nat.mod_eq_of_lt hn,
    Nat.mod_eq_of_lt]
  calc n * count < 2 ^ 32 * 2 ^ 32 := Nat.mul_lt_mul'' hn hc
    _ = 2 ^ 64 := by decide

/-- A number from which the variant of the operation is chosen. -/
private def pick : OpKind → Nat
  | .add => 0 | .sub => 858993460 | .mul => 1717986919 | .div => 2576980378 | .rem => 3435973837

private def opBytes (op : Op) : List U8 :=
  leBytes 4 (pick op.kind) ++ (leBytes 16 op.a.hi.toNat ++ (leBytes 16 op.a.lo.toNat ++ (leBytes 16 op.b.hi.toNat
    ++ leBytes 16 op.b.lo.toNat)))

private theorem op_append (op : Op) (rest : List U8) : Op.arbitrary (opBytes op ++ rest) = .ok (op, rest) := by
  obtain ⟨k, a, b⟩ := op
  have hp : pick k < 2 ^ 32 := by cases k <;> decide
  unfold Op.arbitrary opBytes
  simp only [List.append_assoc]
  rw [variant_append 5 (pick k) hp (by decide)]
  dsimp only
  rw [num_append]
  dsimp only
  rw [num_append]
  cases k <;> rfl

/-- Every target, so every operation of both types on every pair of operands, is decoded from some file of 72 bytes, and
from every file that begins with it. -/
theorem C56_reaches (t : Target) : ∃ data : List U8, data.length = 72 ∧ ∀ rest, Target.load (data ++ rest) = .ok t := by
  cases t with
  | signed op =>
    refine ⟨leBytes 4 0 ++ opBytes op, by simp [opBytes], fun rest => ?_⟩
    unfold Target.load
    rw [List.append_assoc, variant_append 2 0 (by decide) (by decide)]
    show (do return Target.signed (← Op.arbitrary (opBytes op ++ rest)).1) = _
    rw [op_append]; rfl
  | unsigned op =>
    refine ⟨leBytes 4 (2 ^ 31) ++ opBytes op, by simp [opBytes], fun rest => ?_⟩
    unfold Target.load
    rw [List.append_assoc, variant_append 2 (2 ^ 31) (by decide) (by decide)]
    show (do return Target.unsigned (← Op.arbitrary (opBytes op ++ rest)).1) = _
    rw [op_append]; rfl

example : Target.load ([0xff, 0xff, 0xff, 0xff, 0xcd, 0xcc, 0xcc, 0xcc] ++ List.replicate 15 0 ++ [0x80] ++ List.replicate 16 0
    ++ List.replicate 32 0xff) = .ok (.unsigned ⟨.rem, Num.IMIN, Num.UMAX⟩) := by decide +kernel

/-- The seed is a valid input: whatever its size, it stands for `0 + 0`. -/
theorem C56_seed (c : Cfg) (size : Nat) :
    Target.load (seed size) = .ok (.signed ⟨.add, Num.ZERO, Num.ZERO⟩) ∧ fuzz_bytes c (seed size) = .ok () := by
  have fill : ∀ n k, fill_buffer n (List.replicate k 0) = (List.replicate n 0, List.replicate (k - n) 0) := fun n k => by
    unfold fill_buffer
    rw [List.take_replicate, List.drop_replicate, List.length_replicate, List.replicate_append_replicate]
    congr 2; omega
  have zero : ∀ n, leValue (List.replicate n (0 : U8)) = 0 := fun n => by
    induction n with
    | zero => rfl
    | succ n ih => rw [List.replicate_succ, leValue, ih]; rfl
  have v : ∀ count k, variant count (List.replicate k 0) = (0, List.replicate (k - 4) 0) := fun count k => by
    unfold variant arbitrary_u32
    rw [fill]
    dsimp only
    rw [zero]
    simp
  have a : ∀ k, Num.arbitrary (List.replicate k 0) = (Num.ZERO, List.replicate (k - 16 - 16) 0) := fun k => by
    unfold Num.arbitrary arbitrary_u128
    rw [fill]
    dsimp only
    rw [fill]
    dsimp only
    rw [zero]
    rfl
  refine ⟨?_, C56_bytes c _⟩
  unfold Target.load seed
  rw [v]
  dsimp only
  unfold Op.arbitrary
  rw [v]
  dsimp only
  rw [a]
  dsimp only
  rw [a]
  rfl

example : Target.load (seed 96) = .ok (.signed ⟨.add, ⟨0, 0⟩, ⟨0, 0⟩⟩) := by decide +kernel

end Ethnum
