import Verif.SpecSerde
import Verif.Proofs.Fmt
import Verif.Props.Parse
import Verif.Props.RoundTrip

namespace Ethnum
namespace Serde

/-! ### UTF-8 -/

/-- Every byte is below 128. -/
def AsciiBytes (l : List U8) : Prop := ∀ b ∈ l, b.toNat < 128

theorem utf8Valid_ascii {l : List U8} (h : AsciiBytes l) : utf8Valid l = true := by
  induction l with
  | nil => rfl
  | cons b l ih =>
    unfold utf8Valid
    rw [if_pos (h b (List.mem_cons_self ..))]
    exact ih (fun x hx => h x (List.mem_cons_of_mem _ hx))

theorem ascii_map_asc {t : List Char} (h : IsAscii t) : AsciiBytes (t.map asc) := by
  intro b hb
  obtain ⟨ch, hc, rfl⟩ := List.mem_map.1 hb
  unfold asc
  rw [BitVec.toNat_ofNat]
  have := h ch hc
  omega

/-! ### `FormatBuffer` -/

theorem copyBytes_eq : ∀ (s : List U8) (buf : Buf) (i : Nat), i + s.length ≤ buf.length →
    copyBytes buf i s = .ok (buf.take i ++ s.map some ++ buf.drop (i + s.length)) := by
  intro s
  induction s with
  | nil => intro buf i _; simp [copyBytes]
  | cons b l ih =>
    intro buf i h
    rw [List.length_cons] at h
    unfold copyBytes
    rw [Buf.write_ok _ _ _ (by omega), ok_bind, ih _ _ (by rw [List.length_set]; omega)]
    congr 1
    have h1 : (buf.set i (some b)).take (i + 1) = buf.take i ++ [some b] := by
      rw [List.take_add_one, List.take_set_of_le (by omega), List.getElem?_set_self (by omega)]; rfl
    have h2 : (buf.set i (some b)).drop (i + 1 + l.length) = buf.drop (i + (b :: l).length) := by
      rw [List.drop_set_of_lt (by omega), List.length_cons]; congr 1; omega
    rw [h1, h2]; simp

/-- The buffer holds `s` and has room for `N` bytes. -/
def FormatBuffer.Holds (f : FormatBuffer) (N : Nat) (s : List U8) : Prop :=
  f.buffer.length = N ∧ f.offset = s.length ∧ f.buffer.take f.offset = s.map some

theorem FormatBuffer.write_str_eq (c : Cfg) {f : FormatBuffer} {N : Nat} {s t : List U8} (h : f.Holds N s) (hN : N < 2 ^ 16)
    (h0 : 0 < N) (ht : s.length + t.length ≤ N) : ∃ f', f.write_str c t = .ok (some f') ∧ f'.Holds N (s ++ t) := by
  obtain ⟨h1, h2, h3⟩ := h
  unfold FormatBuffer.write_str
  have hp : 2 ^ 16 ≤ 2 ^ c.ptr.bits := by cases c.ptr <;> decide
  dsimp only
  rw [if_neg (by omega), if_neg (by omega), if_neg (by omega), copyBytes_eq _ _ _ (by omega), ok_bind]
  refine ⟨_, rfl, ?_, ?_, ?_⟩
  · simp only [List.length_append, List.length_take, List.length_map, List.length_drop]; omega
  · simp only [List.length_append]; omega
  · dsimp only
    rw [List.take_append_of_le_length, List.take_of_length_le, h3, List.map_append]
    · simp only [List.length_append, List.length_take, List.length_map]; omega
    · simp only [List.length_append, List.length_take, List.length_map]; omega

theorem FormatBuffer.write_all_eq (c : Cfg) {N : Nat} (hN : N < 2 ^ 16) (h0 : 0 < N) :
    ∀ (l : List (List U8)) (f : FormatBuffer) (s : List U8), f.Holds N s → s.length + l.flatten.length ≤ N →
      ∃ f', f.write_all c l = .ok (some f') ∧ f'.Holds N (s ++ l.flatten) := by
  intro l
  induction l with
  | nil => intro f s h _; exact ⟨f, rfl, by simpa using h⟩
  | cons t l ih =>
    intro f s h hl
    rw [List.flatten_cons, List.length_append] at hl
    obtain ⟨f1, e1, k1⟩ := write_str_eq c (t := t) h hN h0 (by omega)
    obtain ⟨f2, e2, k2⟩ := ih f1 (s ++ t) k1 (by rw [List.length_append]; omega)
    refine ⟨f2, ?_, by rw [List.flatten_cons, ← List.append_assoc]; exact k2⟩
    unfold write_all
    rw [e1, ok_bind]; exact e2

theorem init_some (s : List U8) : Buf.init (s.map some) = .ok s := by
  induction s with
  | nil => rfl
  | cons a l ih =>
    show (Buf.init (l.map some) >>= fun r => Except.ok (a :: r)) = _
    rw [ih]; rfl

theorem FormatBuffer.as_str_eq {f : FormatBuffer} {N : Nat} {s : List U8} (h : f.Holds N s) (h0 : 0 < N) (hs : s.length ≤ N)
    (ha : utf8Valid s = true) : f.as_str = .ok s := by
  obtain ⟨h1, h2, h3⟩ := h
  unfold FormatBuffer.as_str
  rw [if_neg (by omega), if_neg (by omega), h3, init_some, ok_bind, if_pos ha]; rfl

theorem serialize_text_eq (c : Cfg) (k : Chunking) {N : Nat} (hN : N < 2 ^ 16) (h0 : 0 < N) {text : List Char}
    (ha : IsAscii text) (hl : text.length ≤ N) : serialize_text c k N text = .ok (.str (text.map asc)) := by
  unfold serialize_text
  obtain ⟨f, e, h⟩ := FormatBuffer.write_all_eq c hN h0 (k.split (text.map asc)) (FormatBuffer.new N) []
    ⟨Buf.length_uninit N, rfl, rfl⟩ (by rw [k.join]; simpa using hl)
  rw [k.join, List.nil_append] at h
  have e' : (FormatBuffer.new N).write_all c (k.split (text.map fun ch => BitVec.ofNat 8 ch.toNat)) = .ok (some f) := e
  rw [e', ok_bind]
  dsimp only
  rw [FormatBuffer.as_str_eq h h0 (by rw [List.length_map]; exact hl) (utf8Valid_ascii (ascii_map_asc ha)), ok_bind]; rfl

/-- One byte too many and the write fails. -/
theorem FormatBuffer.write_str_full (c : Cfg) (f : FormatBuffer) (t : List U8) (h : f.buffer.length < f.offset + t.length) :
    f.write_str c t = .ok none := by
  unfold FormatBuffer.write_str
  dsimp only
  split <;> rfl

/-! ### Accepted strings are ASCII -/

theorem digit_ascii {r : Nat} {b : U8} {d : Nat} (h : IsDigit r b d) : b.toNat < 128 := by
  obtain ⟨_, h | h⟩ := h <;> omega

theorem Numeral.ascii {r : Nat} {l : List U8} {v : Nat} (h : Numeral r l v) : AsciiBytes l := by
  induction h with
  | one h => intro b hb; rw [List.mem_singleton.1 hb]; exact digit_ascii h
  | snoc _ h ih =>
    intro b hb
    rcases List.mem_append.1 hb with hb | hb
    · exact ih b hb
    · rw [List.mem_singleton.1 hb]; exact digit_ascii h

theorem AsciiBytes.append {s t : List U8} (hs : AsciiBytes s) (ht : AsciiBytes t) : AsciiBytes (s ++ t) := by
  intro b hb
  rcases List.mem_append.1 hb with h | h
  · exact hs b h
  · exact ht b h

theorem AsciiBytes.cons {b : U8} {t : List U8} (hb : b.toNat < 128) (ht : AsciiBytes t) : AsciiBytes (b :: t) := by
  intro x hx
  rcases List.mem_cons.1 hx with h | h
  · rw [h]; exact hb
  · exact ht x h

theorem ascii_of_dropPlus {s : List U8} (h : AsciiBytes (dropPlus s)) : AsciiBytes s := by
  cases s with
  | nil => exact h
  | cons b l =>
    unfold dropPlus at h
    dsimp only at h
    split at h
    · rename_i hb; subst hb; exact AsciiBytes.cons (by decide) h
    · exact h

theorem SignedNumeral.ascii {pfx : List U8} (hp : AsciiBytes pfx) {r : Nat} {s : List U8} {z : Int} (h : SignedNumeral pfx r s z) :
    AsciiBytes s := by
  rcases h with ⟨t, n, h1, h2, _⟩ | ⟨t, n, h1, h2, _⟩
  · apply ascii_of_dropPlus; rw [h1]; exact hp.append (Numeral.ascii h2)
  · rw [h1]; exact AsciiBytes.cons (by decide) (hp.append (Numeral.ascii h2))

theorem PrefixedNumeral.ascii {l : List U8} {n : Nat} (h : PrefixedNumeral l n) : AsciiBytes l := by
  rcases h with ⟨t, h1, h2⟩ | ⟨t, h1, h2⟩ | ⟨t, h1, h2⟩ | h
  · rw [h1]; exact AsciiBytes.cons (by decide) (AsciiBytes.cons (by decide) (Numeral.ascii h2))
  · rw [h1]; exact AsciiBytes.cons (by decide) (AsciiBytes.cons (by decide) (Numeral.ascii h2))
  · rw [h1]; exact AsciiBytes.cons (by decide) (AsciiBytes.cons (by decide) (Numeral.ascii h2))
  · exact Numeral.ascii h

theorem SignedPrefixedNumeral.ascii {l : List U8} {z : Int} (h : SignedPrefixedNumeral l z) : AsciiBytes l := by
  rcases h with ⟨n, h, _⟩ | ⟨t, n, h1, h2, _⟩
  · exact ascii_of_dropPlus (PrefixedNumeral.ascii h)
  · rw [h1]; exact AsciiBytes.cons (by decide) (PrefixedNumeral.ascii h2)

/-! ### `FormatVisitor` -/

/-- What is needed of a parser: it returns, and what it accepts is ASCII. -/
structure GoodParser {T : Type} (parse : List U8 → Res (ParseResult T)) : Prop where
  total : ∀ s, ∃ r, parse s = .ok r
  ascii : ∀ s x, parse s = .ok (.ok x) → AsciiBytes s

theorem good_u256_hex (c : Cfg) : GoodParser (U256.from_str_hex c) where
  total s := (C30_from_str_hex c s).1
  ascii s x h := by
    obtain ⟨t, h1, h2⟩ := ((C30_from_str_hex c s).2.2.1 x).1 h
    apply ascii_of_dropPlus
    rw [h1]; exact AsciiBytes.append (by unfold AsciiBytes; decide) (Numeral.ascii h2)
theorem good_i256_hex (c : Cfg) : GoodParser (I256.from_str_hex c) where
  total s := (C30_from_str_hex c s).2.1
  ascii s x h := SignedNumeral.ascii (by unfold AsciiBytes; decide) (((C30_from_str_hex c s).2.2.2.1 x).1 h)
theorem good_u256_dec (c : Cfg) : GoodParser (fun s => U256.from_str_radix c s 10) where
  total s := (C28_from_str_radix c s 10 (by decide)).1
  ascii s x h := ascii_of_dropPlus (Numeral.ascii (((C28_from_str_radix c s 10 (by decide)).2.1 x).1 h))
theorem good_i256_dec (c : Cfg) : GoodParser (fun s => I256.from_str_radix c s 10) where
  total s := (C29_from_str_radix c s 10 (by decide)).1
  ascii s x h := SignedNumeral.ascii (by unfold AsciiBytes; decide) (((C29_from_str_radix c s 10 (by decide)).2.1 x).1 h)
theorem good_u256_prefixed (c : Cfg) : GoodParser (U256.from_str_prefixed c) where
  total s := (C30_u256_from_str_prefixed c s).1
  ascii s x h := ascii_of_dropPlus (PrefixedNumeral.ascii (((C30_u256_from_str_prefixed c s).2.1 x).1 h))
theorem good_i256_prefixed (c : Cfg) : GoodParser (I256.from_str_prefixed c) where
  total s := (C30_i256_from_str_prefixed c s).1
  ascii s x h := SignedPrefixedNumeral.ascii (((C30_i256_from_str_prefixed c s).2.1 x).1 h)

theorem format_visit_str_eq {T : Type} {parse : List U8 → Res (ParseResult T)} {s : List U8} {r : ParseResult T}
    (h : parse s = .ok r) : format_visit_str parse s = .ok (r.mapError .parse) := by
  unfold format_visit_str
  rw [h, ok_bind]
  cases r <;> rfl

theorem format_str_ok {T : Type} {parse : List U8 → Res (ParseResult T)} (g : GoodParser parse) (s : List U8) (x : T) :
    format_visit_str parse s = .ok (.ok x) ↔ parse s = .ok (.ok x) := by
  obtain ⟨r, hr⟩ := g.total s
  rw [format_visit_str_eq hr, hr]
  cases r <;> simp [Except.mapError]

theorem format_visitor {T : Type} {parse : List U8 → Res (ParseResult T)} (g : GoodParser parse) :
    TextFormat (FormatVisitor parse).call parse := by
  refine ⟨fun s x => format_str_ok g s x, fun s x => ?_, fun s k => ?_, fun i => ?_, fun i x h => ?_⟩
  · show (if utf8Valid s then format_visit_str parse s else fail .invalidValue) = _ ↔ _
    by_cases hu : utf8Valid s = true
    · rw [if_pos hu]; exact format_str_ok g s x
    · rw [if_neg hu]
      constructor
      · intro h; simp [fail] at h
      · intro h; exact absurd (utf8Valid_ascii (g.ascii s x h)) hu
  · obtain ⟨r, hr⟩ := g.total s
    show format_visit_str parse s = _ ↔ _
    rw [format_visit_str_eq hr, hr]
    cases r <;> simp [Except.mapError]
  · cases i with
    | str s => obtain ⟨r, hr⟩ := g.total s; exact ⟨_, format_visit_str_eq hr⟩
    | bytes s =>
      obtain ⟨r, hr⟩ := g.total s
      show ∃ r, (if utf8Valid s then format_visit_str parse s else fail .invalidValue) = .ok r
      rw [format_visit_str_eq hr]
      split
      · exact ⟨_, rfl⟩
      · exact ⟨_, rfl⟩
    | _ => exact ⟨_, rfl⟩
  · cases i with
    | str s => exact ⟨s, Or.inl rfl⟩
    | bytes s => exact ⟨s, Or.inr rfl⟩
    | _ => exfalso; simp [Visitor.call, FormatVisitor, orInvalidType, fail] at h

end Serde
end Ethnum
