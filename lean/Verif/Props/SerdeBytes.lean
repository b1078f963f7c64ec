import Verif.Proofs.SerdeBytes

/-
C39 and C40: the byte formats of serde.
-/

namespace Ethnum
open Serde

theorem U256.bytesOf_spec (c : Cfg) (o : Order) :
    (∀ x : U256, (U256.bytesOf c o).to_bytes x = o.arrange (leBytes 32 (x.toNat c)))
    ∧ (∀ l : List U8, l.length = 32 → ((U256.bytesOf c o).from_bytes l).toNat c = o.value l) := by
  cases o with
  | le => exact ⟨fun x => (C22_to_bytes c x I256.ZERO).1, fun l h => (C22_from_bytes c l h).1⟩
  | be => exact ⟨fun x => (C22_to_bytes c x I256.ZERO).2.1, fun l h => (C22_from_bytes c l h).2.1⟩

theorem I256.bytesOf_spec (c : Cfg) (o : Order) :
    (∀ x : I256, (I256.bytesOf c o).to_bytes x = o.arrange (leBytes 32 (x.toNat c)))
    ∧ (∀ l : List U8, l.length = 32 → ((I256.bytesOf c o).from_bytes l).toInt c = o.signedValue l) := by
  have hv : ∀ x : I256, (x.toInt c % 2 ^ 256).toNat = x.toNat c := fun x => by
    have := I256.toNat_toInt c x; have h2 := U256.toNat_lt c x.as_u256
    rw [I256.toNat_as_u256] at h2
    omega
  have h256 : (256 : Nat) ^ 32 = 2 ^ 256 := by decide
  have h256' : (256 : Int) ^ 32 = 2 ^ 256 := by decide
  have hs : ∀ (o : Order) (l : List U8), l.length = 32 →
      o.signedValue l = if o.value l < 2 ^ 255 then (o.value l : Int) else o.value l - 2 ^ 256 := fun o l h => by
    unfold Order.signedValue
    rw [h, h256, h256']
    by_cases hc : o.value l < 2 ^ 255
    · rw [if_pos hc, if_neg (by omega)]
    · rw [if_neg hc, if_pos (by omega)]
  cases o with
  | le =>
    refine ⟨fun x => ?_, fun l h => ?_⟩
    · rw [← hv x]; exact (C22_to_bytes c U256.ZERO x).2.2.2.1
    · rw [hs .le l h]; exact (C22_from_bytes c l h).2.2.2.1
  | be =>
    refine ⟨fun x => ?_, fun l h => ?_⟩
    · rw [← hv x]; exact (C22_to_bytes c U256.ZERO x).2.2.2.2.1
    · rw [hs .be l h]; exact (C22_from_bytes c l h).2.2.2.2.1

/-! ### C39 -/

/-- C39: the 32 bytes of the value (two's complement for `I256`), least significant first for `le` and last for `be`.
`bytes::ne` is one of the two, according to the target. -/
theorem C39_serialize (c : Cfg) (o : Order) (x : U256) (s : I256) :
    x.serialize_bytes c o = .ok (.bytes (o.arrange (leBytes 32 (x.toNat c))))
    ∧ s.serialize_bytes c o = .ok (.bytes (o.arrange (leBytes 32 (s.toInt c % 2 ^ 256).toNat))) := by
  have hv : (s.toInt c % 2 ^ 256).toNat = s.toNat c := by
    have := I256.toNat_toInt c s; have h2 := U256.toNat_lt c s.as_u256
    rw [I256.toNat_as_u256] at h2
    omega
  refine ⟨?_, ?_⟩
  · unfold U256.serialize_bytes; rw [(U256.bytesOf_spec c o).1]
  · unfold I256.serialize_bytes; rw [(I256.bytesOf_spec c o).1, hv]

example : (U256.ofNat dbg 0x0102).serialize_bytes dbg .be = .ok (.bytes (List.replicate 30 0 ++ [1, 2]))
    ∧ (I256.ofInt rel (-2)).serialize_bytes rel .le = .ok (.bytes (0xfe :: List.replicate 31 0xff)) := by decide +kernel

theorem bytes_call {T : Type} (m : Bytes T) (i : Input) :
    (∃ b : List U8, b.length = 32 ∧ i.Delivers b ∧ (BytesVisitor m).call i = .ok (.ok (m.from_bytes b)))
    ∨ (∃ e, (BytesVisitor m).call i = .ok (.error e)
        ∧ ∀ b : List U8, i.Delivers b → b.length ≠ 32 ∧ ∃ n, e = .invalidLength n) := by
  have no : ∀ i : Input, (∀ b, ¬ i.Delivers b) → (BytesVisitor m).call i = .ok (.error .invalidType) →
      (∃ e, (BytesVisitor m).call i = .ok (.error e)
        ∧ ∀ b : List U8, i.Delivers b → b.length ≠ 32 ∧ ∃ n, e = .invalidLength n) :=
    fun i h h' => ⟨_, h', fun b hb => absurd hb (h b)⟩
  cases i with
  | bytes v =>
    by_cases hv : v.length = 32
    · exact Or.inl ⟨v, hv, Or.inl rfl, if_pos hv⟩
    · refine Or.inr ⟨.invalidLength v.length, if_neg hv, fun b hb => ?_⟩
      rcases hb with hb | ⟨_, hb, _⟩
      · injection hb with hb; subst hb; exact ⟨hv, _, rfl⟩
      · cases hb
  | seq hint l =>
    rcases bytes_visit_seq_cases m hint l with ⟨b, h1, h2, h3, h4⟩ | ⟨e, h1, h2⟩
    · exact Or.inl ⟨b, h1, Or.inr ⟨hint, by rw [h2], by rw [h1]; exact h3⟩, h4⟩
    · refine Or.inr ⟨e, h1, fun b hb => ?_⟩
      rcases hb with hb | ⟨hint', hb, hh⟩
      · cases hb
      · injection hb with e1 e2; subst e1; exact h2 b e2 hh
  | _ => exact Or.inr (no _ (by rintro b (h | ⟨_, h, _⟩) <;> cases h) rfl)

/-- C39: the inputs that are accepted are those that deliver 32 bytes, as a slice or as a sequence, and the result is
the number they write. No input makes the call fault. -/
theorem C39_accepts (c : Cfg) (o : Order) (i : Input) :
    (∀ x : U256, U256.deserialize_bytes c o i = .ok (.ok x)
      ↔ ∃ b : List U8, b.length = 32 ∧ i.Delivers b ∧ o.value b = x.toNat c)
    ∧ (∀ s : I256, I256.deserialize_bytes c o i = .ok (.ok s)
      ↔ ∃ b : List U8, b.length = 32 ∧ i.Delivers b ∧ o.signedValue b = s.toInt c)
    ∧ (∃ r, U256.deserialize_bytes c o i = .ok r) ∧ (∃ r, I256.deserialize_bytes c o i = .ok r) := by
  have delivers_unique : ∀ {b b' : List U8}, i.Delivers b → i.Delivers b' → b = b' := by
    rintro b b' (rfl | ⟨h, rfl, _⟩) (h2 | ⟨h', h2, _⟩)
    · injection h2
    · cases h2
    · cases h2
    · injection h2 with _ h2
      exact List.map_injective_iff.2 (Option.some_injective _) h2
  refine ⟨fun x => ?_, fun s => ?_, ?_, ?_⟩
  · unfold U256.deserialize_bytes
    rcases bytes_call (U256.bytesOf c o) i with ⟨b, h1, h2, h3⟩ | ⟨e, h1, h2⟩
    · rw [h3]
      constructor
      · intro h; injection h with h; injection h with h
        exact ⟨b, h1, h2, by rw [← h, (U256.bytesOf_spec c o).2 b h1]⟩
      · rintro ⟨b', k1, k2, k3⟩
        rw [delivers_unique h2 k2]
        congr 2
        apply U256.toNat_inj c
        rw [(U256.bytesOf_spec c o).2 b' k1, k3]
    · rw [h1]
      constructor
      · intro h; injection h with h; injection h
      · rintro ⟨b', k1, k2, k3⟩; exact absurd k1 (h2 b' k2).1
  · unfold I256.deserialize_bytes
    rcases bytes_call (I256.bytesOf c o) i with ⟨b, h1, h2, h3⟩ | ⟨e, h1, h2⟩
    · rw [h3]
      constructor
      · intro h; injection h with h; injection h with h
        exact ⟨b, h1, h2, by rw [← h, (I256.bytesOf_spec c o).2 b h1]⟩
      · rintro ⟨b', k1, k2, k3⟩
        rw [delivers_unique h2 k2]
        congr 2
        apply I256.toInt_inj c
        rw [(I256.bytesOf_spec c o).2 b' k1, k3]
    · rw [h1]
      constructor
      · intro h; injection h with h; injection h
      · rintro ⟨b', k1, k2, k3⟩; exact absurd k1 (h2 b' k2).1
  · unfold U256.deserialize_bytes
    rcases bytes_call (U256.bytesOf c o) i with ⟨b, h1, h2, h3⟩ | ⟨e, h1, h2⟩
    · exact ⟨_, h3⟩
    · exact ⟨_, h1⟩
  · unfold I256.deserialize_bytes
    rcases bytes_call (I256.bytesOf c o) i with ⟨b, h1, h2, h3⟩ | ⟨e, h1, h2⟩
    · exact ⟨_, h3⟩
    · exact ⟨_, h1⟩

example : U256.deserialize_bytes dbg .be (.seq none ((List.replicate 30 0 ++ [1, 2]).map some)) = .ok (.ok (U256.ofNat dbg 0x0102))
    ∧ Order.be.value (List.replicate 30 0 ++ [1, 2]) = 0x0102
    ∧ U256.deserialize_bytes dbg .be (.seq (some 31) ((List.replicate 30 0 ++ [1, 2]).map some)) = .ok (.error (.invalidLength 31))
    ∧ U256.deserialize_bytes dbg .le (.seq none (none :: List.replicate 31 (some 0))) = .ok (.error .input)
    ∧ I256.deserialize_bytes rel .le (.bytes (List.replicate 32 0xff)) = .ok (.ok (I256.MINUS_ONE rel)) := by decide +kernel

/-- C39: whatever is serialized, delivered as a slice or as a sequence, deserializes to the value it came from. -/
theorem C39_round_trip (c : Cfg) (o : Order) (x : U256) (s : I256) (i : Input) :
    (∃ b, x.serialize_bytes c o = .ok (.bytes b) ∧ (i.Delivers b → U256.deserialize_bytes c o i = .ok (.ok x)))
    ∧ (∃ b, s.serialize_bytes c o = .ok (.bytes b) ∧ (i.Delivers b → I256.deserialize_bytes c o i = .ok (.ok s))) := by
  have h256 : (2 : Nat) ^ 256 = 256 ^ 32 := by decide
  have hval : ∀ n, o.value (o.arrange (leBytes 32 n)) = n % 2 ^ 256 := fun n => by
    unfold Order.value; rw [Order.arrange_arrange, leValue_leBytes, h256]
  have hlen : ∀ n, (o.arrange (leBytes 32 n)).length = 32 := fun n => by rw [Order.length_arrange, length_leBytes]
  refine ⟨⟨_, (C39_serialize c o x s).1, fun h => ?_⟩, ⟨_, (C39_serialize c o x s).2, fun h => ?_⟩⟩
  · rw [(C39_accepts c o i).1]
    exact ⟨_, hlen _, h, by rw [hval, Nat.mod_eq_of_lt (U256.toNat_lt c x)]⟩
  · rw [(C39_accepts c o i).2.1]
    refine ⟨_, hlen _, h, ?_⟩
    have h1 := I256.le_toInt c s
    have h2 := I256.toInt_lt c s
    have e256 : (256 : Nat) ^ 32 = 2 ^ 256 := by decide
    have e256' : (256 : Int) ^ 32 = 2 ^ 256 := by decide
    unfold Order.signedValue
    rw [hlen, hval, e256, e256']
    split <;> omega

example : (Input.seq (some 32) ((leBytes 32 77).map some)).Delivers (leBytes 32 77)
    ∧ (U256.ofNat dbg 77).serialize_bytes dbg .le = .ok (.bytes (leBytes 32 77))
    ∧ U256.deserialize_bytes dbg .le (.seq (some 32) ((leBytes 32 77).map some)) = .ok (.ok (U256.ofNat dbg 77)) :=
  ⟨Or.inr ⟨_, rfl, Or.inr rfl⟩, by decide +kernel⟩

/-- C39: any other number of bytes is rejected with `invalid_length`. -/
theorem C39_wrong_length (c : Cfg) (o : Order) (i : Input) (b : List U8) (hb : i.Delivers b) (hl : b.length ≠ 32) :
    (∃ n, U256.deserialize_bytes c o i = .ok (.error (.invalidLength n)))
    ∧ (∃ n, I256.deserialize_bytes c o i = .ok (.error (.invalidLength n))) := by
  have key : ∀ {T : Type} (m : Bytes T), ∃ n, (BytesVisitor m).call i = .ok (.error (.invalidLength n)) := fun m => by
    rcases bytes_call m i with ⟨b', h1, h2, h3⟩ | ⟨e, h1, h2⟩
    · exfalso
      apply hl
      rcases hb with rfl | ⟨h, rfl, _⟩ <;> rcases h2 with h2 | ⟨h', h2, _⟩
      · injection h2 with h2; rw [h2]; exact h1
      · cases h2
      · cases h2
      · injection h2 with _ h2
        have := congrArg List.length h2
        simp only [List.length_map] at this
        omega
    · obtain ⟨_, n, rfl⟩ := h2 b hb
      exact ⟨n, h1⟩
  exact ⟨key _, key _⟩

example : (Input.bytes [1, 2, 3]).Delivers [1, 2, 3]
    ∧ U256.deserialize_bytes dbg .le (.bytes [1, 2, 3]) = .ok (.error (.invalidLength 3)) := ⟨Or.inl rfl, by decide⟩

end Ethnum
