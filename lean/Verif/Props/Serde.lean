import Verif.Proofs.Serde

/-
C37: the text formats of serde.
-/

namespace Ethnum
open Serde

theorem lowerHex_b : Radix.lowerHex.b = 16 := rfl

theorem hex_ascii (n : Nat) (sign : List Char) (hs : sign = [] ∨ sign = ['-']) :
    IsAscii (sign ++ ['0', 'x'] ++ Nat.toDigits 16 n) := by
  have h2 : IsAscii ['0', 'x'] := by unfold IsAscii; decide
  have h3 : IsAscii ['-'] := by unfold IsAscii; decide
  refine IsAscii.append (IsAscii.append ?_ h2) (toDigits_ascii 16 n (by omega) (by omega))
  rcases hs with rfl | rfl
  · intro ch hc; cases hc
  · exact h3

theorem hex_length {n k : Nat} (h : n < 16 ^ k) (hk : 0 < k) : (Nat.toDigits 16 n).length ≤ k :=
  (Nat.length_toDigits_le_iff (by omega) hk).2 h

theorem dec_length {n k : Nat} (h : n < 10 ^ k) (hk : 0 < k) : (Nat.toDigits 10 n).length ≤ k :=
  (Nat.length_toDigits_le_iff (by omega) hk).2 h

/-- C37: the text that is serialized, however the formatting machinery cuts it into writes. The default format (also
of `prefixed` and `permissive`): `0x` and the lower case digits, after a `-` for negative numbers. `decimal`: the
number in decimal. The fixed buffer always has room. -/
theorem C37_serialize (c : Cfg) (k : Chunking) (x : U256) (s : I256) :
    x.serialize c k = .ok (.str (str "0x" ++ (Nat.toDigits 16 (x.toNat c)).map asc))
    ∧ s.serialize c k = .ok (.str ((if s.toInt c < 0 then str "-0x" else str "0x")
        ++ (Nat.toDigits 16 (s.toInt c).natAbs).map asc))
    ∧ x.serialize_decimal c k = .ok (.str (str (toString (x.toNat c))))
    ∧ s.serialize_decimal c k = .ok (.str (str (toString (s.toInt c)))) := by
  have hx := U256.toNat_lt c x
  have h1 := I256.le_toInt c s
  have h2 := I256.toInt_lt c s
  refine ⟨?_, ?_, ?_, ?_⟩
  · unfold U256.serialize
    rw [C33_u256_radix, ok_bind]
    show serialize_text c k 67 ([] ++ ['0', 'x'] ++ Nat.toDigits 16 (x.toNat c)) = _
    rw [serialize_text_eq c k (by decide) (by decide) (hex_ascii _ _ (Or.inl rfl))]
    · rw [List.map_append]; rfl
    · have := hex_length (n := x.toNat c) (k := 64) (by omega) (by omega)
      simp only [List.length_append, List.length_cons, List.length_nil]; omega
  · unfold I256.serialize
    rw [C33_i256_radix, ok_bind]
    by_cases hn : s.toInt c < 0
    · rw [if_pos ⟨hn, by decide⟩, if_pos hn]
      show serialize_text c k 67 (['-'] ++ ['0', 'x'] ++ Nat.toDigits 16 (s.toInt c).natAbs) = _
      rw [serialize_text_eq c k (by decide) (by decide) (hex_ascii _ _ (Or.inr rfl))]
      · rw [List.map_append]; rfl
      · have := hex_length (n := (s.toInt c).natAbs) (k := 64) (by omega) (by omega)
        simp only [List.length_append, List.length_cons, List.length_nil]; omega
    · rw [if_neg (fun h => hn h.1), if_neg hn]
      have e : (s.toInt c % 2 ^ 256).toNat = (s.toInt c).natAbs := by omega
      rw [e]
      show serialize_text c k 67 ([] ++ ['0', 'x'] ++ Nat.toDigits 16 (s.toInt c).natAbs) = _
      rw [serialize_text_eq c k (by decide) (by decide) (hex_ascii _ _ (Or.inl rfl))]
      · rw [List.map_append]; rfl
      · have := hex_length (n := (s.toInt c).natAbs) (k := 64) (by omega) (by omega)
        simp only [List.length_append, List.length_cons, List.length_nil]; omega
  · unfold U256.serialize_decimal
    rw [(C32_display_plain c x s).1, ok_bind, Nat.toString_eq_repr, Nat.toList_repr,
      serialize_text_eq c k (by decide) (by decide) (toDigits_ascii 10 _ (by omega) (by omega))]
    · unfold str; rw [Nat.toList_repr]; rfl
    · exact dec_length (lt_of_lt_of_le hx (by norm_num)) (by omega)
  · unfold I256.serialize_decimal
    rw [(C32_display_plain c x s).2, ok_bind]
    have hl : (toString (s.toInt c)).toList.length ≤ 78 ∧ IsAscii (toString (s.toInt c)).toList := by
      cases hz : s.toInt c with
      | ofNat n =>
        rw [hz] at h2
        show (toString n).toList.length ≤ 78 ∧ IsAscii (toString n).toList
        rw [Nat.toString_eq_repr, Nat.toList_repr]
        refine ⟨dec_length (lt_of_lt_of_le (b := 2 ^ 256) ?_ (by norm_num)) (by omega), toDigits_ascii 10 _ (by omega) (by omega)⟩
        have : (Int.ofNat n) = (n : Int) := rfl
        omega
      | negSucc n =>
        rw [hz] at h1
        show ("-" ++ toString (n + 1)).toList.length ≤ 78 ∧ IsAscii ("-" ++ toString (n + 1)).toList
        rw [String.toList_append, Nat.toString_eq_repr, Nat.toList_repr]
        have hn : n + 1 < 10 ^ 77 := by
          have e : Int.negSucc n = -(n + 1 : Nat) := rfl
          have : n + 1 ≤ 2 ^ 255 := by omega
          exact lt_of_le_of_lt this (by norm_num)
        constructor
        · rw [List.length_append]
          have := dec_length hn (by omega)
          have e : "-".toList.length = 1 := rfl
          omega
        · exact IsAscii.append (by unfold IsAscii; decide) (toDigits_ascii 10 _ (by omega) (by omega))
    rw [serialize_text_eq c k (by decide) (by decide) hl.2 hl.1]; rfl

example : (I256.ofInt dbg (-42)).serialize dbg .bytewise = .ok (.str (str "-0x2a"))
    ∧ (I256.MIN rel).serialize rel .whole
        = .ok (.str (str "-0x8000000000000000000000000000000000000000000000000000000000000000"))
    ∧ (I256.MIN rel).serialize_decimal rel .bytewise
        = .ok (.str (str "-57896044618658097711785492504343953926634992332820282019728792003956564819968"))
    ∧ U256.MAX.serialize_decimal dbg .whole
        = .ok (.str (str "115792089237316195423570985008687907853269984665640564039457584007913129639935")) := by
  decide +kernel

/-- C37: each text format accepts exactly what its parser accepts, with the same value, delivered as a string or as
the bytes of one, and rejects every other call. -/
theorem C37_accepts (c : Cfg) :
    TextFormat (U256.deserialize c) (U256.from_str_hex c)
    ∧ TextFormat (I256.deserialize c) (I256.from_str_hex c)
    ∧ TextFormat (U256.deserialize_decimal c) (fun s => U256.from_str_radix c s 10)
    ∧ TextFormat (I256.deserialize_decimal c) (fun s => I256.from_str_radix c s 10)
    ∧ TextFormat (U256.deserialize_prefixed c) (U256.from_str_prefixed c)
    ∧ TextFormat (I256.deserialize_prefixed c) (I256.from_str_prefixed c) :=
  ⟨format_visitor (good_u256_hex c), format_visitor (good_i256_hex c), format_visitor (good_u256_dec c),
    format_visitor (good_i256_dec c), format_visitor (good_u256_prefixed c), format_visitor (good_i256_prefixed c)⟩

example : U256.deserialize dbg (.str (str "0xfF")) = .ok (.ok (U256.ofNat dbg 255))
    ∧ I256.deserialize rel (.bytes (str "-0x10")) = .ok (.ok (I256.ofInt rel (-16)))
    ∧ U256.deserialize dbg (.str (str "255")) = .ok (.error (.parse .invalidDigit))
    ∧ U256.deserialize_prefixed dbg (.str (str "255")) = .ok (.ok (U256.ofNat dbg 255))
    ∧ U256.deserialize_decimal dbg (.bytes [0xc3, 0x28]) = .ok (.error .invalidValue)
    ∧ U256.deserialize_decimal dbg (.bytes [0xc3, 0xa9]) = .ok (.error (.parse .invalidDigit))
    ∧ I256.deserialize_decimal rel (.u8 5) = .ok (.error .invalidType) := by decide +kernel

/-- C37: whatever is serialized, as a string or handed over as its bytes, deserializes to the value it came from, in the
same format; the default format is also read by `prefixed`, whose serializer it is. -/
theorem C37_round_trip (c : Cfg) (k : Chunking) (x : U256) (s : I256) :
    (∃ t, x.serialize c k = .ok (.str t) ∧ ∀ i, i = .str t ∨ i = .bytes t →
      U256.deserialize c i = .ok (.ok x) ∧ U256.deserialize_prefixed c i = .ok (.ok x))
    ∧ (∃ t, s.serialize c k = .ok (.str t) ∧ ∀ i, i = .str t ∨ i = .bytes t →
      I256.deserialize c i = .ok (.ok s) ∧ I256.deserialize_prefixed c i = .ok (.ok s))
    ∧ (∃ t, x.serialize_decimal c k = .ok (.str t) ∧ ∀ i, i = .str t ∨ i = .bytes t →
      U256.deserialize_decimal c i = .ok (.ok x))
    ∧ (∃ t, s.serialize_decimal c k = .ok (.str t) ∧ ∀ i, i = .str t ∨ i = .bytes t →
      I256.deserialize_decimal c i = .ok (.ok s)) := by
  obtain ⟨s1, s2, s3, s4⟩ := C37_serialize c k x s
  obtain ⟨a1, a2, a3, a4, a5, a6⟩ := C37_accepts c
  have text : ∀ {T : Type} {de : Input → Res (Outcome T)} {parse : List U8 → Res (ParseResult T)} (_ : TextFormat de parse)
      {t : List U8} {x : T} (_ : parse t = .ok (.ok x)) (i : Input), i = .str t ∨ i = .bytes t → de i = .ok (.ok x) := by
    rintro T de parse ⟨h1, h2, _⟩ t x hp i (rfl | rfl)
    · exact (h1 _ _).2 hp
    · exact (h2 _ _).2 hp
  refine ⟨⟨_, s1, fun i hi => ?_⟩, ⟨_, s2, fun i hi => ?_⟩, ⟨_, s3, text a3 ?_⟩, ⟨_, s4, text a4 ?_⟩⟩
  · obtain ⟨t, h1, _, h2, h3⟩ := C34_u256_radix c .lowerHex x hexSpec (Or.inl rfl)
    rw [C33_u256_radix] at h1
    injection h1 with h1
    have e : t.map asc = str "0x" ++ (Nat.toDigits 16 (x.toNat c)).map asc := by rw [← h1]; rfl
    rw [e] at h2 h3
    exact ⟨text a1 (h3 (by decide) rfl) i hi, text a5 (h2 (by decide)) i hi⟩
  · obtain ⟨t, h1, _, h2, h3⟩ := C34_i256_radix c .lowerHex s minusHexSpec (Or.inl rfl) (Or.inl (by decide))
    rw [C33_i256_radix] at h1
    injection h1 with h1
    have e : t.map asc = (if s.toInt c < 0 then str "-0x" else str "0x")
        ++ (Nat.toDigits 16 (s.toInt c).natAbs).map asc := by
      rw [← h1]
      have i1 := I256.le_toInt c s
      have i2 := I256.toInt_lt c s
      by_cases hn : s.toInt c < 0
      · rw [if_pos ⟨hn, by decide⟩, if_pos hn]; rfl
      · rw [if_neg (fun h => hn h.1), if_neg hn]
        have e : (s.toInt c % 2 ^ 256).toNat = (s.toInt c).natAbs := by omega
        rw [e]; rfl
    rw [e] at h2 h3
    exact ⟨text a2 (h3 (by decide) rfl) i hi, text a6 (h2 (by decide)) i hi⟩
  · obtain ⟨t, h1, _, h2, _⟩ := (C34_decimal c x s .default (Or.inl rfl)).1
    rw [(C32_display_plain c x s).1] at h1
    injection h1 with h1
    rw [← h1] at h2; exact h2
  · obtain ⟨t, h1, _, h2, _⟩ := (C34_decimal c x s .default (Or.inl rfl)).2
    rw [(C32_display_plain c x s).2] at h1
    injection h1 with h1
    rw [← h1] at h2; exact h2

end Ethnum
