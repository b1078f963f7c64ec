import Verif.Proofs.Writer
import Verif.Props.Fmt
import Verif.Props.Serde

/-
C71: formatting into a writer that may fail at any call. `x.display_to w c f` is `Display` with the writer `w` behind the
formatter: from a state of the writer to the state afterwards, with `some ()` for `Ok(())` and `none` for
`Err(fmt::Error)`. `x.display c f` is the text that C32 and C33 describe. The predicates are in `SpecWriter.lean`.
-/

namespace Ethnum
open Serde

/-- C71: every formatting trait cuts its text into pieces in a way that does not depend on the writer, passes them on in
order, and stops at the first call that fails, with that failure. -/
theorem C71_calls (c : Cfg) (r : Radix) (x : U256) (s : I256) (f : Formatter) :
    Writes (x.display c f) (fun _ w => x.display_to w c f) ∧ Writes (s.display c f) (fun _ w => s.display_to w c f)
    ∧ Writes (x.fmtRadix c r f) (fun _ w => x.fmtRadix_to w c r f)
    ∧ Writes (s.fmtRadix c r f) (fun _ w => s.fmtRadix_to w c r f)
    ∧ Writes (x.debug c f) (fun _ w => x.debug_to w c f) ∧ Writes (s.debug c f) (fun _ w => s.debug_to w c f) := by
  have h1 : ∀ f, Writes (x.display c f) (fun _ w => x.display_to w c f) := fun f => fmt_u256_writes ..
  have h2 : ∀ f, Writes (s.display c f) (fun _ w => s.display_to w c f) := fun f => fmt_u256_writes ..
  have h3 : ∀ r, Writes (x.fmtRadix c r f) (fun _ w => x.fmtRadix_to w c r f) := fun r => by
    unfold U256.fmtRadix U256.fmtRadix_to
    by_cases h : (x.lt_prim c 0 && f.sign_minus) = true
    · simp only [if_pos h]; exact radix_writes ..
    · simp only [if_neg h]; exact radix_writes ..
  have h4 : ∀ r, Writes (s.fmtRadix c r f) (fun _ w => s.fmtRadix_to w c r f) := fun r => by
    unfold I256.fmtRadix I256.fmtRadix_to
    by_cases h : (s.lt_prim c 0 && f.sign_minus) = true
    · simp only [if_pos h]; exact radix_writes ..
    · simp only [if_neg h]; exact radix_writes ..
  refine ⟨h1 f, h2 f, h3 r, h4 r, ?_, ?_⟩
  · unfold U256.debug U256.debug_to
    split
    · exact h3 _
    · split
      · exact h3 _
      · exact h1 _
  · unfold I256.debug I256.debug_to
    split
    · exact h4 _
    · split
      · exact h4 _
      · exact h2 _

-- `{:+}` of 42: the sign, then the digits. A writer that fails the second call has only the sign.
example : (U256.ofNat rel 42).display_to (cursor 2) rel ⟨1, none, ' ', none⟩ [] = .ok (['+', '4'], none) := by decide +kernel
example : runCalls (cursor 2) [.chr '+', .str ['4', '2']] [] = .ok (['+', '4'], none)
    ∧ runCalls growing [.chr '+', .str ['4', '2']] [] = .ok (['+', '4', '2'], some ()) := ⟨rfl, rfl⟩

/-- C71: with a writer that takes a beginning of what it is given, the formatting traits do not panic; what has been
written is all of the text if they report success, and a beginning of it if they report an error. -/
theorem C71_prefix (c : Cfg) (r : Radix) (x : U256) (s : I256) (f : Formatter) {σ : Type} (w : Writer σ)
    (content : σ → List Char) (hw : Faithful w content) :
    KeepsPrefix content (x.display c f) (x.display_to w c f) ∧ KeepsPrefix content (s.display c f) (s.display_to w c f)
    ∧ KeepsPrefix content (x.fmtRadix c r f) (x.fmtRadix_to w c r f)
    ∧ KeepsPrefix content (s.fmtRadix c r f) (s.fmtRadix_to w c r f)
    ∧ KeepsPrefix content (x.debug c f) (x.debug_to w c f) ∧ KeepsPrefix content (s.debug c f) (s.debug_to w c f) := by
  obtain ⟨h1, h2, h3, h4, h5, h6⟩ := C71_calls c r x s f
  exact ⟨h1.keepsPrefix hw, h2.keepsPrefix hw, h3.keepsPrefix hw, h4.keepsPrefix hw, h5.keepsPrefix hw, h6.keepsPrefix hw⟩

example : Faithful (cursor 5) id ∧ Faithful growing id := by
  constructor
  · intro k st
    refine ⟨st ++ k.text.take (5 - st.length), decide (k.text.length ≤ 5 - st.length), by cases k <;> rfl, fun h => ?_,
      fun _ => ⟨_, List.take_prefix .., rfl⟩⟩
    rw [List.take_of_length_le (of_decide_eq_true h)]; rfl
  · intro k st
    exact ⟨st ++ k.text, true, by cases k <;> rfl, fun _ => rfl, fun h => by cases h⟩
-- A writer that drops a call without reporting it is not faithful.
example : ¬ Faithful (⟨fun _ st => .ok (st, true), fun _ st => .ok (st, true)⟩ : Writer (List Char)) id := by
  intro h
  obtain ⟨st', ok, h1, h2, -⟩ := h (.chr 'a') []
  injection h1 with h1
  injection h1 with h1 h1'
  have := h2 h1'.symm
  rw [← h1] at this
  cases this

/-- C71: written to a slice, the text is cut off at the end of the slice, and success is reported exactly if it fits. -/
theorem C71_slice (c : Cfg) (r : Radix) (x : U256) (s : I256) (f : Formatter) :
    FillsCursor (x.display c f) (fun _ w => x.display_to w c f)
    ∧ FillsCursor (s.display c f) (fun _ w => s.display_to w c f)
    ∧ FillsCursor (x.fmtRadix c r f) (fun _ w => x.fmtRadix_to w c r f)
    ∧ FillsCursor (s.fmtRadix c r f) (fun _ w => s.fmtRadix_to w c r f)
    ∧ FillsCursor (x.debug c f) (fun _ w => x.debug_to w c f)
    ∧ FillsCursor (s.debug c f) (fun _ w => s.debug_to w c f) := by
  obtain ⟨h1, h2, h3, h4, h5, h6⟩ := C71_calls c r x s f
  exact ⟨h1.fillsCursor, h2.fillsCursor, h3.fillsCursor, h4.fillsCursor, h5.fillsCursor, h6.fillsCursor⟩

example : (I256.ofInt rel (-255)).fmtRadix_to (cursor 9) rel .lowerHex ⟨6, some 8, '*', some .center⟩ ['>']
      = .ok (['>', '*', '-', '0', 'x', 'f', 'f', '*', '*'], some ())
    ∧ (I256.ofInt rel (-255)).fmtRadix_to (cursor 8) rel .lowerHex ⟨6, some 8, '*', some .center⟩ ['>']
      = .ok (['>', '*', '-', '0', 'x', 'f', 'f', '*'], none) := by decide +kernel

/-- C71: written to a string, as `format!` and `to_string` do, the text is appended and success is reported. -/
theorem C71_string (c : Cfg) (r : Radix) (x : U256) (s : I256) (f : Formatter) :
    Appends (x.display c f) (fun _ w => x.display_to w c f) ∧ Appends (s.display c f) (fun _ w => s.display_to w c f)
    ∧ Appends (x.fmtRadix c r f) (fun _ w => x.fmtRadix_to w c r f)
    ∧ Appends (s.fmtRadix c r f) (fun _ w => s.fmtRadix_to w c r f)
    ∧ Appends (x.debug c f) (fun _ w => x.debug_to w c f) ∧ Appends (s.debug c f) (fun _ w => s.debug_to w c f) := by
  obtain ⟨h1, h2, h3, h4, h5, h6⟩ := C71_calls c r x s f
  exact ⟨h1.appends, h2.appends, h3.appends, h4.appends, h5.appends, h6.appends⟩

example : (U256.ofNat rel 7).display_to growing rel ⟨8, some 3, '*', none⟩ ['x', '='] = .ok (['x', '=', '0', '0', '7'], some ())
    := by decide +kernel

/-- C71: the text formats of serde, which format into a buffer of fixed size, give the datum of C37 with the pieces that
the formatting traits write, whatever their number: the buffer does not overflow and nothing panics. -/
theorem C71_serde (c : Cfg) (k : Chunking) (x : U256) (s : I256) :
    x.serialize_to c = x.serialize c k ∧ s.serialize_to c = s.serialize c k
    ∧ x.serialize_decimal_to c = x.serialize_decimal c k ∧ s.serialize_decimal_to c = s.serialize_decimal c k := by
  obtain ⟨-, -, h3, -⟩ := C71_calls c .lowerHex x s hexSpec
  obtain ⟨-, -, -, h4, -⟩ := C71_calls c .lowerHex x s minusHexSpec
  obtain ⟨h1, h2, -⟩ := C71_calls c .lowerHex x s .default
  obtain ⟨k3, e3⟩ := serialize_into_eq c 67 h3
  obtain ⟨k4, e4⟩ := serialize_into_eq c 67 h4
  obtain ⟨k1, e1⟩ := serialize_into_eq c 78 h1
  obtain ⟨k2, e2⟩ := serialize_into_eq c 78 h2
  refine ⟨?_, ?_, ?_, ?_⟩
  · exact e3.trans ((C37_serialize c k3 x s).1.trans (C37_serialize c k x s).1.symm)
  · exact e4.trans ((C37_serialize c k4 x s).2.1.trans (C37_serialize c k x s).2.1.symm)
  · exact e1.trans ((C37_serialize c k1 x s).2.2.1.trans (C37_serialize c k x s).2.2.1.symm)
  · exact e2.trans ((C37_serialize c k2 x s).2.2.2.trans (C37_serialize c k x s).2.2.2.symm)

example : (I256.ofInt rel (-42)).serialize_to rel = .ok (.str (str "-0x2a"))
    ∧ (I256.MIN rel).serialize_decimal_to rel
      = .ok (.str (str "-57896044618658097711785492504343953926634992332820282019728792003956564819968")) := by
  decide +kernel

end Ethnum
