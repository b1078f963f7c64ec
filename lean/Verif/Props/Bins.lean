import Verif.Model.Bins
import Verif.Props.FuzzInput

/-
C82: the programs beside the fuzzer.
-/

namespace Ethnum
namespace Fuzz

/-- What `indent` does to the characters of a text. -/
private def pad (s : List Char) : List Char := s.flatMap (fun ch => if ch = '\n' then "\n    ".toList else [ch])

private theorem pad_append (a b : List Char) : pad (a ++ b) = pad a ++ pad b := List.flatMap_append

private theorem pad_plain (l : List Char) (h : ∀ ch ∈ l, ch ≠ '\n') : pad l = l := by
  induction l with
  | nil => rfl
  | cons a l ih =>
    rw [pad, List.flatMap_cons, ← pad, ih (fun ch hc => h ch (by simp [hc])), if_neg (h a (by simp))]
    rfl

private theorem pad_digits (n : Nat) : pad (Nat.toDigits 10 n) = Nat.toDigits 10 n := by
  apply pad_plain
  rintro ch hc rfl
  have := Nat.isDigit_of_mem_toDigits (by decide) (by decide) hc
  simp at this

private theorem indent_eq (s : List Char) : indent s = "    ".toList ++ pad s := rfl

private theorem num_debug (x : Num) : x.debug = "Num(\n    ".toList ++ Nat.toDigits 10 x.hi.toNat ++ ",\n    ".toList
    ++ Nat.toDigits 10 x.lo.toNat ++ ",\n)".toList := by
  simp only [Num.debug, debugTuple, indent_eq, List.flatMap_cons, List.flatMap_nil, pad_digits]
  simp

private theorem op_debug (op : Op) : op.debug = op.kind.name.toList ++ "(\n    Num(\n        ".toList
    ++ Nat.toDigits 10 op.a.hi.toNat ++ ",\n        ".toList ++ Nat.toDigits 10 op.a.lo.toNat ++ ",\n    ),\n    Num(\n        ".toList
    ++ Nat.toDigits 10 op.b.hi.toNat ++ ",\n        ".toList ++ Nat.toDigits 10 op.b.lo.toNat ++ ",\n    ),\n)".toList := by
  have h1 : pad "Num(\n    ".toList = "Num(\n        ".toList := by decide +kernel
  have h2 : pad ",\n    ".toList = ",\n        ".toList := by decide +kernel
  have h3 : pad ",\n)".toList = ",\n    )".toList := by decide +kernel
  simp only [Op.debug, debugTuple, indent_eq, List.flatMap_cons, List.flatMap_nil, num_debug, pad_append, pad_digits, h1, h2, h3]
  simp

end Fuzz
open Fuzz

/-- C82: the text that `dump` prints for a target. -/
theorem C82_text (k : OpKind) (a b : Num) :
    let rest := "(\n        Num(\n            ".toList
      ++ Nat.toDigits 10 a.hi.toNat ++ ",\n            ".toList ++ Nat.toDigits 10 a.lo.toNat
      ++ ",\n        ),\n        Num(\n            ".toList
      ++ Nat.toDigits 10 b.hi.toNat ++ ",\n            ".toList ++ Nat.toDigits 10 b.lo.toNat ++ ",\n        ),\n    ),\n)".toList
    let name := match k with
      | .add => "Add".toList | .sub => "Sub".toList | .mul => "Mul".toList | .div => "Div".toList | .rem => "Rem".toList
    (Target.signed ⟨k, a, b⟩).debug = "Signed(\n    ".toList ++ name ++ rest
    ∧ (Target.unsigned ⟨k, a, b⟩).debug = "Unsigned(\n    ".toList ++ name ++ rest := by
  have h1 : pad "(\n    Num(\n        ".toList = "(\n        Num(\n            ".toList := by decide +kernel
  have h2 : pad ",\n        ".toList = ",\n            ".toList := by decide +kernel
  have h3 : pad ",\n    ),\n    Num(\n        ".toList = ",\n        ),\n        Num(\n            ".toList := by decide +kernel
  have h4 : pad ",\n    ),\n)".toList = ",\n        ),\n    )".toList := by decide +kernel
  have h5 : pad k.name.toList = k.name.toList := by cases k <;> decide +kernel
  simp only [Target.debug, debugTuple, indent_eq, List.flatMap_cons, List.flatMap_nil, op_debug, pad_append, pad_digits, h1, h2, h3,
    h4, h5]
  cases k <;> simp [OpKind.name]

example : (Target.unsigned ⟨.rem, ⟨1, 20⟩, ⟨0, 3⟩⟩).debug = ("Unsigned(\n    Rem(\n        Num(\n            1,\n            20,\n" ++
    "        ),\n        Num(\n            0,\n            3,\n        ),\n    ),\n)").toList := by decide +kernel

private theorem cut {x y r r' : List Char} (hx : ',' ∉ x) (hy : ',' ∉ y) (h : x ++ ',' :: r = y ++ ',' :: r') : x = y ∧ r = r' := by
  induction x generalizing y with
  | nil =>
    rcases y with _ | ⟨d, y⟩
    · simpa using h
    · simp only [List.nil_append, List.cons_append, List.cons.injEq] at h
      exact absurd (by rw [h.1]; simp) hy
  | cons c x ih =>
    rcases y with _ | ⟨d, y⟩
    · simp only [List.nil_append, List.cons_append, List.cons.injEq] at h
      exact absurd (by rw [h.1]; simp) hx
    · simp only [List.cons_append, List.cons.injEq] at h
      obtain ⟨rfl, h⟩ := h
      obtain ⟨rfl, hr⟩ := ih (by simp_all) (by simp_all) h
      exact ⟨rfl, hr⟩

private theorem digits_inj {m n : Nat} (h : Nat.toDigits 10 m = Nat.toDigits 10 n) : m = n := by
  rw [← Nat.ofDigitChars_ten_toDigits (n := m), h, Nat.ofDigitChars_ten_toDigits]

private theorem digits_filter (n : Nat) (p : Char → Bool) (b : Bool) (hp : ∀ ch : Char, ch.isDigit → p ch = b) :
    (Nat.toDigits 10 n).filter p = if b then Nat.toDigits 10 n else [] := by
  have h : ∀ ch ∈ Nat.toDigits 10 n, p ch = b := fun ch hc => hp ch (Nat.isDigit_of_mem_toDigits (by decide) (by decide) hc)
  cases b
  · simpa using h
  · simpa using h

private theorem split_digits {x y : List Char} {m n : Nat} (hx : ∀ c ∈ x, c.isDigit = false) (hy : ∀ c ∈ y, c.isDigit = false)
    (h : x ++ Nat.toDigits 10 m = y ++ Nat.toDigits 10 n) : x = y ∧ m = n := by
  have h1 := congrArg (List.filter (fun c => c.isDigit)) h
  have h2 := congrArg (List.filter (fun c => !c.isDigit)) h
  rw [List.filter_append, List.filter_append, digits_filter m _ true (by simp), digits_filter n _ true (by simp),
    List.filter_eq_nil_iff.mpr (by simpa using hx), List.filter_eq_nil_iff.mpr (by simpa using hy)] at h1
  rw [List.filter_append, List.filter_append, digits_filter m _ false (by simp), digits_filter n _ false (by simp),
    List.filter_eq_self.mpr (by simpa using hx), List.filter_eq_self.mpr (by simpa using hy)] at h2
  exact ⟨by simpa using h2, digits_inj (by simpa using h1)⟩

private theorem comma_digits (n : Nat) : ',' ∉ Nat.toDigits 10 n := by
  intro h
  have := Nat.isDigit_of_mem_toDigits (by decide) (by decide) h
  simp at this

/-- The first piece of the text, up to the first number. -/
private def front (signed : Bool) (k : OpKind) : List Char :=
  (if signed then "Signed(\n    ".toList else "Unsigned(\n    ".toList) ++ k.name.toList ++ "(\n        Num(\n            ".toList

private def pieces (signed : Bool) (k : OpKind) (a b : Num) : List Char :=
  (front signed k ++ Nat.toDigits 10 a.hi.toNat) ++ ',' :: (("\n            ".toList ++ Nat.toDigits 10 a.lo.toNat) ++ ',' ::
    ("\n        )".toList ++ ',' :: (("\n        Num(\n            ".toList ++ Nat.toDigits 10 b.hi.toNat) ++ ',' ::
      (("\n            ".toList ++ Nat.toDigits 10 b.lo.toNat) ++ ',' :: "\n        ),\n    ),\n)".toList))))

private theorem debug_pieces (k : OpKind) (a b : Num) : (Target.signed ⟨k, a, b⟩).debug = pieces true k a b
    ∧ (Target.unsigned ⟨k, a, b⟩).debug = pieces false k a b := by
  obtain ⟨h1, h2⟩ := C82_text k a b
  rw [h1, h2]
  cases k <;> simp [pieces, front, OpKind.name]

private theorem pieces_inj {s s' : Bool} {k k' : OpKind} {a a' b b' : Num} (h : pieces s k a b = pieces s' k' a' b') :
    s = s' ∧ k = k' ∧ a = a' ∧ b = b' := by
  have hc : ∀ s k, ',' ∉ front s k := by intro s k; cases s <;> cases k <;> decide +kernel
  have hd : ∀ s k, ∀ c ∈ front s k, c.isDigit = false := by intro s k; cases s <;> cases k <;> decide +kernel
  have hi : ∀ s k s' k', front s k = front s' k' → s = s' ∧ k = k' := by
    intro s k s' k'
    cases s <;> cases k <;> cases s' <;> cases k' <;> decide +kernel
  have e1 : ',' ∉ "\n            ".toList := by decide +kernel
  have e2 : ',' ∉ "\n        Num(\n            ".toList := by decide +kernel
  have d1 : ∀ c ∈ "\n            ".toList, c.isDigit = false := by decide +kernel
  have d2 : ∀ c ∈ "\n        Num(\n            ".toList, c.isDigit = false := by decide +kernel
  have m : ∀ (x : List Char) n, ',' ∉ x → ',' ∉ x ++ Nat.toDigits 10 n := by
    intro x n hx
    simp only [List.mem_append, not_or]
    exact ⟨hx, comma_digits n⟩
  obtain ⟨h1, h⟩ := cut (m _ _ (hc _ _)) (m _ _ (hc _ _)) h
  obtain ⟨h2, h⟩ := cut (m _ _ e1) (m _ _ e1) h
  obtain ⟨-, h⟩ := cut (by decide +kernel) (by decide +kernel) h
  obtain ⟨h3, h⟩ := cut (m _ _ e2) (m _ _ e2) h
  obtain ⟨h4, -⟩ := cut (m _ _ e1) (m _ _ e1) h
  obtain ⟨h0, g1⟩ := split_digits (hd _ _) (hd _ _) h1
  obtain ⟨-, g2⟩ := split_digits d1 d1 h2
  obtain ⟨-, g3⟩ := split_digits d2 d2 h3
  obtain ⟨-, g4⟩ := split_digits d1 d1 h4
  obtain ⟨rfl, rfl⟩ := hi _ _ _ _ h0
  rcases a with ⟨a1, a2⟩
  rcases a' with ⟨a1', a2'⟩
  rcases b with ⟨b1, b2⟩
  rcases b' with ⟨b1', b2'⟩
  obtain rfl := BitVec.eq_of_toNat_eq g1
  obtain rfl := BitVec.eq_of_toNat_eq g2
  obtain rfl := BitVec.eq_of_toNat_eq g3
  obtain rfl := BitVec.eq_of_toNat_eq g4
  exact ⟨rfl, rfl, rfl, rfl⟩

/-- C82: what `dump` prints identifies the operation, the type and both operands: no two targets have the same text. -/
theorem C82_identifies (t t' : Target) (h : t.debug = t'.debug) : t = t' := by
  rcases t with ⟨k, a, b⟩ | ⟨k, a, b⟩ <;> rcases t' with ⟨k', a', b'⟩ | ⟨k', a', b'⟩ <;>
    simp only [(debug_pieces _ _ _).1, (debug_pieces _ _ _).2] at h <;> obtain ⟨h0, rfl, rfl, rfl⟩ := pieces_inj h
  · rfl
  · simp at h0
  · simp at h0
  · rfl

example : (Target.signed ⟨.add, ⟨1, 2⟩, ⟨3, 4⟩⟩).debug ≠ (Target.signed ⟨.add, ⟨12, 3⟩, ⟨4, 0⟩⟩).debug := by decide +kernel

/-- C82: `dump` prints the target of any file that can be read and ends with success; it panics, without output, exactly if the
file cannot be read, and without exactly one argument it prints how it is used and ends with -1. -/
theorem C82_dump (c : Cfg) (args : List (List Char)) (read : List Char → Option (List U8)) :
    (args.length ≠ 2 → dump c args read = ⟨[], "USAGE: dump PATH\n".toList, .ok (-1)⟩)
    ∧ (∀ program path, args = [program, path] → read path = none → dump c args read = ⟨[], [], throwPanic .explicit⟩)
    ∧ (∀ program path bytes, args = [program, path] → read path = some bytes →
      ∃ t, Target.load bytes = .ok t ∧ dump c args read = ⟨t.debug ++ "\n".toList, [], .ok 0⟩) := by
  refine ⟨?_, ?_, ?_⟩
  · intro h
    unfold dump
    split
    · simp at h
    · rfl
  · rintro p q rfl h
    simp only [dump, h]
  · rintro p q bytes rfl h
    obtain ⟨t, ht⟩ := C56_load bytes
    refine ⟨t, ht, ?_⟩
    simp only [dump, h, ht, C56_bytes]
    rfl

example : (dump dbg ["dump".toList, "f".toList] (fun _ => some (List.replicate 7 255#8))).exit = .ok 0
    ∧ (dump dbg ["dump".toList] (fun _ => none)).exit = .ok (-1) := by decide +kernel

/-- C82: `init` succeeds exactly if no call of the file system fails. Then both directories have been made, and the seed has the
zeros that the fuzzer reads as 0 + 0 and accepts; no other file has changed, and no other file changes when something fails. -/
theorem C82_init (c : Cfg) (d : Disk) (size : Nat) (program dir : List Char) (t : Tree) :
    let r := init d size [program, dir] t
    let seedPath := Script.join dir "in/seed"
    (r.1.exit = .ok 0 ↔ d.makesDirs (Script.join dir "in") = true ∧ d.makesDirs (Script.join dir "out") = true
      ∧ d.creates seedPath = true ∧ d.writeFails seedPath = none)
    ∧ (r.1.exit ≠ .ok 0 → r.1.exit = throwPanic .explicit)
    ∧ (r.1.exit = .ok 0 → r.2.dirs = t.dirs ++ [Script.join dir "in", Script.join dir "out"]
      ∧ ∃ bytes, r.2.files seedPath = some bytes ∧ bytes.length = size
        ∧ Target.load bytes = .ok (.signed ⟨.add, ⟨0, 0⟩, ⟨0, 0⟩⟩) ∧ fuzz_bytes c bytes = .ok ())
    ∧ (∀ p, p ≠ seedPath → r.2.files p = t.files p) := by
  have hs := C56_seed c size
  have hl : (seed size).length = size := List.length_replicate
  dsimp only
  unfold init
  dsimp only
  cases h1 : d.makesDirs (Script.join dir "in") <;> cases h2 : d.makesDirs (Script.join dir "out") <;>
    cases h3 : d.creates (Script.join dir "in/seed") <;> cases h4 : d.writeFails (Script.join dir "in/seed") <;>
    simp [throwPanic, Tree.put, hs, hl, Num.ZERO] <;> intro p hp <;> simp [hp]

example : (init ⟨fun _ => true, fun _ => true, fun _ => none⟩ 80 ["init".toList, "d".toList] ⟨[], fun _ => none⟩).1.stdout
    = "initializing directory d/{in,out}\nwriting seed d/in/seed\n".toList := by decide +kernel

end Ethnum
