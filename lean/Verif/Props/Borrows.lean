import Verif.Proofs.Borrows
import Verif.Props.Serde

/-
C67 the buffers of the formatting code under the aliasing rules (Verif/SpecBorrow.lean). Rust has not yet decided which
rules are binding; Stacked Borrows and Tree Borrows are the two candidates. The code obeys the second and breaks the
first: it takes a pointer from a reference to the first element and uses it on the whole buffer.
-/

namespace Ethnum
open Borrow Serde

/-- The theorem's first part below: the trace belongs to the call that the other properties are about. -/
theorem dec_call_aux (w : Nat) (c : Cfg) (x : U256) (nn : Bool) (f : Formatter) :
    ∃ text es, Ethnum.fmt_u256 c x nn f = .ok text ∧ Borrow.fmt_u256 w c x nn f = .ok (text, es) := by
  have h := Borrow.fmt_u256_result w c x nn f
  rw [fmt_u256_eq] at h
  cases hr : Borrow.fmt_u256 w c x nn f with
  | error e => rw [hr] at h; cases h
  | ok y =>
    rw [hr] at h
    obtain ⟨text, es⟩ := y
    refine ⟨text, es, ?_, rfl⟩
    rw [fmt_u256_eq]
    exact h.symm

/-- C67: every decimal formatting obeys Tree Borrows: of all values, with all flags, no access to a byte in or around the
buffer is undefined behaviour. Missing: Stacked Borrows (see `C67_decimal_rejected`). -/
theorem C67_decimal_partial (c : Cfg) (x : U256) (nn : Bool) (f : Formatter) :
    ∃ text es, Ethnum.fmt_u256 c x nn f = .ok text ∧ Borrow.fmt_u256 1 c x nn f = .ok (text, es) ∧ Tree.Accepts 79 es := by
  obtain ⟨text, es, h1, h2⟩ := dec_call_aux 1 c x nn f
  obtain ⟨ws, curr, rfl, hw, _, hc⟩ := Borrow.fmt_u256_events 1 c x nn f text es h2
  exact ⟨text, _, h1, h2, Borrow.dec_accepted 1 curr (by decide) hc hw⟩

example : ((Borrow.fmt_u256 1 dbg (U256.ofNat dbg 12345) true .default).map fun x => (x.1, x.2.length,
      (List.range 100).all fun i => (Borrow.Tree.run 79 i x.2 Borrow.Tree.start).isSome))
    = .ok ("12345".toList, 11, true) := by decide +kernel

/-- C67 fails under Stacked Borrows: every decimal formatting, of whichever value, is undefined behaviour. `buf_ptr` is cast
from `&mut buf[0]`, which covers one byte of the buffer, and the first digit is written to the last byte. -/
theorem C67_decimal_rejected (c : Cfg) (x : U256) (nn : Bool) (f : Formatter) :
    ∃ text es, Ethnum.fmt_u256 c x nn f = .ok text ∧ Borrow.fmt_u256 1 c x nn f = .ok (text, es) ∧ ¬ Stacked.Accepts 79 es := by
  obtain ⟨text, es, h1, h2⟩ := dec_call_aux 1 c x nn f
  obtain ⟨ws, curr, rfl, hw, hu, hc⟩ := Borrow.fmt_u256_events 1 c x nn f text es h2
  exact ⟨text, _, h1, h2, Borrow.dec_rejected curr hw hu⟩

example : ∃ es, Borrow.fmt_u256 1 rel (U256.ofNat rel 7) true .default = .ok (['7'], es)
    ∧ Borrow.Stacked.run 78 es (Borrow.Stacked.start 79 78) = none := ⟨_, rfl, by decide +kernel⟩

/-- C67: the repair. With a pointer cast from the whole buffer (`buf.as_mut_ptr()`) the same code obeys both. -/
theorem C67_decimal_whole_pointer (c : Cfg) (x : U256) (nn : Bool) (f : Formatter) :
    ∃ text es, Ethnum.fmt_u256 c x nn f = .ok text ∧ Borrow.fmt_u256 79 c x nn f = .ok (text, es)
      ∧ Stacked.Accepts 79 es ∧ Tree.Accepts 79 es := by
  obtain ⟨text, es, h1, h2⟩ := dec_call_aux 79 c x nn f
  obtain ⟨ws, curr, rfl, hw, _, hc⟩ := Borrow.fmt_u256_events 79 c x nn f text es h2
  exact ⟨text, _, h1, h2, Borrow.dec_whole curr hc hw, Borrow.dec_accepted 79 curr (by decide) hc hw⟩

example : ((Borrow.fmt_u256 79 rel (U256.ofNat rel 700007) true .default).map fun x => (x.1,
      (List.range 100).all fun i => (Borrow.Stacked.run i x.2 (Borrow.Stacked.start 79 i)).isSome))
    = .ok ("700007".toList, true) := by decide +kernel

/-- C67: every formatting in base 2, 8 or 16 obeys Tree Borrows. Missing: Stacked Borrows (see `C67_radix_rejected`). -/
theorem C67_radix_partial (c : Cfg) (r : Radix) (x : U256) (nn : Bool) (f : Formatter) :
    ∃ text es, r.fmt_u256 c x nn f = .ok text ∧ Borrow.radix_fmt_u256 c r x nn f = .ok (text, es) ∧ Tree.Accepts 256 es := by
  obtain ⟨text, curr, h1, h2, h3, _⟩ := Borrow.radix_call c r x nn f
  exact ⟨text, _, h1, h2, Borrow.radix_accepted curr h3⟩

example : ∃ es, Borrow.radix_fmt_u256 dbg .lowerHex (U256.ofNat dbg 0xab) true .default = .ok (['a', 'b'], es) ∧ es.length = 19
    ∧ ∀ i < 300, Borrow.Tree.run 256 i es Borrow.Tree.start ≠ none := ⟨_, rfl, by decide +kernel, by decide +kernel⟩

/-- C67 fails under Stacked Borrows for every value of two digits or more, and only for those: the slice of all digits is
made from a pointer to the first. -/
theorem C67_radix_rejected (c : Cfg) (r : Radix) (x : U256) (nn : Bool) (f : Formatter) :
    ∃ text es, r.fmt_u256 c x nn f = .ok text ∧ Borrow.radix_fmt_u256 c r x nn f = .ok (text, es)
      ∧ (Stacked.Accepts 256 es ↔ x.toNat c < r.b) := by
  obtain ⟨text, curr, h1, h2, h3, h4⟩ := Borrow.radix_call c r x nn f
  refine ⟨text, _, h1, h2, ?_⟩
  rw [← h4]
  constructor
  · intro h
    by_contra hne
    exact Borrow.radix_rejected curr (by omega) h
  · rintro rfl
    exact Borrow.radix_one

example : ∃ es, Borrow.radix_fmt_u256 rll .lowerHex (U256.ofNat rll 0x10) true .default = .ok (['1', '0'], es)
    ∧ Borrow.Stacked.run 255 es (Borrow.Stacked.start 256 255) = none := ⟨_, rfl, by decide +kernel⟩

/-- C67: every text that fits in the buffer of the serializer is written and read in accordance with Tree Borrows, however
it is cut into writes. Missing: Stacked Borrows (see `C67_serialize_rejected`). -/
theorem C67_serialize_partial (c : Cfg) (k : Chunking) (N : Nat) (hN : N < 2 ^ 16) (h0 : 0 < N) (text : List Char)
    (ha : ∀ ch ∈ text, ch.toNat < 128) (hl : text.length ≤ N) :
    ∃ d es, Serde.serialize_text c k N text = .ok d ∧ Borrow.serialize_text c k N text = .ok (d, es) ∧ Tree.Accepts N es := by
  obtain ⟨ns, h1, h2⟩ := Borrow.serialize_text_events c k hN h0 ha hl
  exact ⟨_, _, Serde.serialize_text_eq c k hN h0 ha hl, h2, Borrow.text_accepted h0 h1 hl⟩

example : ∃ es, Borrow.serialize_text dbg .bytewise 67 "-0x2a".toList = .ok (.str (str "-0x2a"), es) ∧ es.length = 34
    ∧ ∀ i < 70, Borrow.Tree.run 67 i es Borrow.Tree.start ≠ none := ⟨_, rfl, by decide +kernel, by decide +kernel⟩

/-- C67 fails under Stacked Borrows for texts of two characters or more, and only for those. -/
theorem C67_serialize_rejected (c : Cfg) (k : Chunking) (N : Nat) (hN : N < 2 ^ 16) (h0 : 0 < N) (text : List Char)
    (ha : ∀ ch ∈ text, ch.toNat < 128) (hl : text.length ≤ N) :
    ∃ d es, Serde.serialize_text c k N text = .ok d ∧ Borrow.serialize_text c k N text = .ok (d, es)
      ∧ (Stacked.Accepts N es ↔ text.length ≤ 1) := by
  obtain ⟨ns, h1, h2⟩ := Borrow.serialize_text_events c k hN h0 ha hl
  refine ⟨_, _, Serde.serialize_text_eq c k hN h0 ha hl, h2, ?_, Borrow.text_one h0 h1⟩
  intro h
  by_contra hne
  exact Borrow.text_rejected N text.length ns (by omega) h

example : ∃ es, Borrow.serialize_text rel .whole 67 "0x0".toList = .ok (.str (str "0x0"), es)
    ∧ Borrow.Stacked.run 1 es (Borrow.Stacked.start 67 1) = none := ⟨_, rfl, by decide +kernel⟩

/-- C67 fails under Stacked Borrows for every number that is serialized in the default format: it begins with `0x`. -/
theorem C67_serialize_number_rejected (c : Cfg) (k : Chunking) (x : U256) :
    ∃ text d es, x.fmtRadix c .lowerHex hexSpec = .ok text ∧ x.serialize c k = .ok d
      ∧ Borrow.serialize_text c k 67 text = .ok (d, es) ∧ ¬ Stacked.Accepts 67 es := by
  have hx := U256.toNat_lt c x
  have h1 := C33_u256_radix c .lowerHex x hexSpec
  have hlen := hex_length (n := x.toNat c) (k := 64) (by omega) (by omega)
  obtain ⟨d, es, e1, e2, e3⟩ := C67_serialize_rejected c k 67 (by decide) (by decide) ([] ++ ['0', 'x'] ++ Nat.toDigits 16 (x.toNat c))
    (hex_ascii _ _ (Or.inl rfl)) (by simp only [List.length_append, List.length_cons, List.length_nil]; omega)
  refine ⟨_, d, es, h1, ?_, e2, ?_⟩
  · unfold U256.serialize
    rw [h1, ok_bind]
    exact e1
  · rw [e3]
    simp only [List.length_append, List.length_cons, List.length_nil]
    omega

example : ∃ es, Borrow.serialize_text dbg .whole 67 "0x2a".toList = .ok (.str (str "0x2a"), es)
    ∧ (U256.ofNat dbg 42).serialize dbg .whole = .ok (.str (str "0x2a"))
    ∧ Borrow.Stacked.run 3 es (Borrow.Stacked.start 67 3) = none := ⟨_, rfl, by decide +kernel, by decide +kernel⟩

end Ethnum
