import Verif.Props.SerdeBytes

/-
Lemmas about the compressed byte formats.
-/

namespace Ethnum
open Serde

theorem pow256 (n : Nat) : 256 ^ n = 2 ^ (8 * n) := by rw [Nat.pow_mul]

theorem pow256_mul {n : Nat} (h : n ≤ 32) : 256 ^ n * 256 ^ (32 - n) = 2 ^ 256 := by
  rw [← Nat.pow_add, show n + (32 - n) = 32 by omega]; decide

/-- `n` is the least number of bytes that hold `N`. -/
theorem length_unsigned {N r : Nat} (h : IsLeadingRun false N r) (hN : N < 2 ^ 256) :
    N < 256 ^ (32 - r / 8) ∧ ∀ m, N < 256 ^ m → 32 - r / 8 ≤ m := by
  obtain ⟨h1, h2⟩ := leadingRun_bounds h hN
  have hr := h.1
  refine ⟨Nat.lt_of_lt_of_le h1 ?_, fun m hm => ?_⟩
  · rw [pow256]; exact Nat.pow_le_pow_right (by omega) (by omega)
  · by_cases hr' : r < 256
    · have := Nat.lt_of_le_of_lt (h2 hr') hm
      rw [pow256] at this
      have := (Nat.pow_lt_pow_iff_right (by omega)).1 this
      omega
    · omega

/-- `n` is the least positive number of bytes that hold `-N - 1` in two's complement. -/
theorem length_negative {N r : Nat} (h : IsLeadingRun false N r) (hN : N < 2 ^ 255) :
    1 ≤ r ∧ 2 * (N + 1) ≤ 256 ^ (32 - (r - 1) / 8) ∧ ∀ m, 1 ≤ m → 2 * (N + 1) ≤ 256 ^ m → 32 - (r - 1) / 8 ≤ m := by
  obtain ⟨h1, h2⟩ := leadingRun_bounds h (by omega)
  have hr := h.1
  have r1 : 1 ≤ r := by
    rcases Nat.eq_zero_or_pos r with rfl | h
    · have := h2 (by omega); omega
    · exact h
  refine ⟨r1, ?_, fun m hm1 hm => ?_⟩
  · have : 2 * (N + 1) ≤ 2 ^ (257 - r) := by
      rw [show 257 - r = (256 - r) + 1 by omega, Nat.pow_succ]; omega
    refine Nat.le_trans this ?_
    rw [pow256]; exact Nat.pow_le_pow_right (by omega) (by omega)
  · by_cases hr' : r < 256
    · have : 2 ^ (256 - r) < 256 ^ m := by
        have := h2 hr'
        rw [show 256 - r = (255 - r) + 1 by omega, Nat.pow_succ]; omega
      rw [pow256] at this
      have := (Nat.pow_lt_pow_iff_right (by omega)).1 this
      omega
    · omega

theorem serialize_compressed_eq (c : Cfg) {T : Type} (o : Order) (m : Bytes T) (k : CompressedBytes T) (x : T) (N : Nat) (r : U32)
    (hb : m.to_bytes x = o.arrange (leBytes 32 N)) (hr : k.leading_bits x = .ok r) (h : r.toNat ≤ 256) :
    Serde.serialize_compressed c o m k x = .ok (.bytes (o.arrange (leBytes (32 - r.toNat / 8) N))) := by
  unfold Serde.serialize_compressed
  rw [hr, ok_bind, hb]
  dsimp only
  rw [keep_eq c o N _ (by omega), ok_bind]
  rfl

theorem visit_bytes_eq (c : Cfg) {T : Type} (o : Order) (m : Bytes T) (k : CompressedBytes T) (v : List U8) (h : v.length ≤ 32) :
    compressed_visit_bytes c o m k v
      = .ok (.ok (m.from_bytes (o.arrange (o.arrange v ++ List.replicate (32 - v.length) (k.extend (v.getLast?.getD 0)))))) := by
  unfold compressed_visit_bytes
  rw [if_neg (by omega)]
  dsimp only
  rw [place_eq c o _ v h, ok_bind]
  rfl

theorem visit_bytes_long (c : Cfg) {T : Type} (o : Order) (m : Bytes T) (k : CompressedBytes T) (v : List U8) (h : 32 < v.length) :
    compressed_visit_bytes c o m k v = .ok (.error (.invalidLength v.length)) := by
  unfold compressed_visit_bytes; rw [if_pos h]; rfl

theorem length_padded (o : Order) (v : List U8) (e : U8) (h : v.length ≤ 32) :
    (o.arrange (o.arrange v ++ List.replicate (32 - v.length) e)).length = 32 := by
  rw [Order.length_arrange, List.length_append, Order.length_arrange, List.length_replicate]; omega

theorem value_padded (o : Order) (v : List U8) (e : U8) :
    o.value (o.arrange (o.arrange v ++ List.replicate (32 - v.length) e))
      = o.value v + 256 ^ v.length * leValue (List.replicate (32 - v.length) e) := by
  unfold Order.value
  rw [Order.arrange_arrange, leValue_append, Order.length_arrange]

theorem U256.visit_bytes (c : Cfg) (o : Order) (v : List U8) (h : v.length ≤ 32) :
    ∃ x : U256, U256.deserialize_compressed c o (.bytes v) = .ok (.ok x) ∧ x.toNat c = o.value v := by
  refine ⟨_, visit_bytes_eq c o _ _ v h, ?_⟩
  rw [(U256.bytesOf_spec c o).2 _ (length_padded o v _ h), value_padded]
  show _ + _ * leValue (List.replicate _ 0) = _
  rw [leValue_zeros, Nat.mul_zero, Nat.add_zero]

/-- The extension byte of the signed decoder. -/
theorem I256.extend_eq (b : U8) : b.sshiftRight 7 = if 128 ≤ b.toNat then 0xff else 0 := by
  revert b; decide +kernel

/-- The number the bytes `v`, preceded by copies of the sign of their last one, stand for. -/
theorem I256.visit_bytes (c : Cfg) (o : Order) (v : List U8) (h : v.length ≤ 32) :
    ∃ x : I256, I256.deserialize_compressed c o (.bytes v) = .ok (.ok x)
      ∧ x.toInt c = if v.length = 32 then o.signedValue v
          else if 128 ≤ (v.getLast?.getD 0).toNat then (o.value v : Int) - 256 ^ v.length else o.value v := by
  refine ⟨_, visit_bytes_eq c o _ _ v h, ?_⟩
  have hl := length_padded o v ((I256.compressedOf c).extend (v.getLast?.getD 0)) h
  rw [(I256.bytesOf_spec c o).2 _ hl]
  have hV := o.value_lt v
  by_cases h32 : v.length = 32
  · rw [if_pos h32]
    congr 1
    rw [h32, List.replicate_zero, List.append_nil, Order.arrange_arrange]
  · rw [if_neg h32]
    have hval := value_padded o v ((I256.compressedOf c).extend (v.getLast?.getD 0))
    have e1 : (256 : Nat) ^ 32 = 2 ^ 256 := by decide
    have e2 : (256 : Int) ^ 32 = 2 ^ 256 := by decide
    have hP : 256 ^ v.length ≤ 256 ^ 31 := Nat.pow_le_pow_right (by omega) (by omega)
    have e3 : (256 : Nat) ^ 31 * 256 = 2 ^ 256 := by decide
    have cast : ((256 ^ v.length : Nat) : Int) = 256 ^ v.length := by push_cast; rfl
    unfold Order.signedValue
    rw [hl, hval, e1, e2]
    have he : (I256.compressedOf c).extend (v.getLast?.getD 0) = if 128 ≤ (v.getLast?.getD 0).toNat then 0xff else 0 :=
      I256.extend_eq _
    rw [he, ← cast]
    by_cases hb : 128 ≤ (v.getLast?.getD 0).toNat
    · rw [if_pos hb, if_pos hb]
      have hones := leValue_ones (32 - v.length)
      have hmul := pow256_mul h
      have : 256 ^ v.length * leValue (List.replicate (32 - v.length) 0xff) + 256 ^ v.length = 2 ^ 256 := by
        rw [← hmul, ← hones, Nat.mul_add, Nat.mul_one]
      generalize 256 ^ v.length * leValue (List.replicate (32 - v.length) 0xff) = A at *
      generalize 256 ^ v.length = P at *
      split <;> omega
    · rw [if_neg hb, if_neg hb, leValue_zeros, Nat.mul_zero, Nat.add_zero]
      generalize 256 ^ v.length = P at *
      rw [if_neg (by omega)]

theorem leValue_last (v : List U8) : 128 ≤ (v.getLast?.getD 0).toNat ↔ 256 ^ v.length ≤ 2 * leValue v := by
  rcases List.eq_nil_or_concat v with rfl | ⟨l, b, rfl⟩
  · decide
  · have hl := leValue_lt l
    rw [List.concat_eq_append, List.getLast?_concat, Option.getD_some, leValue_append, List.length_append, List.length_singleton, Nat.pow_succ]
    have hb : leValue [b] = b.toNat := by simp [leValue]
    rw [hb]
    generalize leValue l = L at *
    generalize 256 ^ l.length = P at *
    constructor
    · intro h
      have : P * 128 ≤ P * b.toNat := Nat.mul_le_mul_left _ h
      omega
    · intro h
      by_contra hc
      have : P * b.toNat ≤ P * 127 := Nat.mul_le_mul_left _ (by omega)
      omega

theorem beValue_last (v : List U8) : (v.getLast?.getD 0).toNat = Order.be.value v % 256 := by
  rcases List.eq_nil_or_concat v with rfl | ⟨l, b, rfl⟩
  · decide
  · rw [List.concat_eq_append, List.getLast?_concat, Option.getD_some]
    show _ = leValue (l ++ [b]).reverse % 256
    rw [List.reverse_append, List.reverse_singleton, List.singleton_append]
    unfold leValue
    have := b.isLt
    omega

theorem I256.visit_le (c : Cfg) (v : List U8) (h : v.length ≤ 32) :
    ∃ x : I256, I256.deserialize_compressed c .le (.bytes v) = .ok (.ok x) ∧ x.toInt c = Order.le.signedValue v := by
  obtain ⟨x, h1, h2⟩ := I256.visit_bytes c .le v h
  refine ⟨x, h1, h2.trans ?_⟩
  by_cases h32 : v.length = 32
  · rw [if_pos h32]
  · rw [if_neg h32]
    unfold Order.signedValue
    by_cases hb : 128 ≤ (v.getLast?.getD 0).toNat
    · rw [if_pos hb, if_pos (show 256 ^ v.length ≤ 2 * Order.le.value v from (leValue_last v).1 hb)]
    · rw [if_neg hb, if_neg (show ¬ 256 ^ v.length ≤ 2 * Order.le.value v from fun hc => hb ((leValue_last v).2 hc))]

theorem I256.visit_be (c : Cfg) (v : List U8) (h : v.length ≤ 32) :
    ∃ x : I256, I256.deserialize_compressed c .be (.bytes v) = .ok (.ok x)
      ∧ x.toInt c = if v.length = 32 then Order.be.signedValue v
          else if 128 ≤ Order.be.value v % 256 then (Order.be.value v : Int) - 256 ^ v.length else Order.be.value v := by
  obtain ⟨x, h1, h2⟩ := I256.visit_bytes c .be v h
  rw [beValue_last] at h2
  exact ⟨x, h1, h2⟩

/-- Everything `deserialize` can be handed, in terms of `visit_bytes`. -/
theorem compressed_call (c : Cfg) {T : Type} (o : Order) (m : Bytes T) (k : CompressedBytes T) (i : Input) :
    (∃ b : List U8, b.length ≤ 32 ∧ (i = .bytes b ∨ ∃ hint, i = .seq hint (b.map some) ∧ ∀ n, hint = some n → n ≤ 32)
        ∧ (CompressedBytesVisitor c o m k).call i = compressed_visit_bytes c o m k b)
    ∨ (∃ e, (CompressedBytesVisitor c o m k).call i = .ok (.error e)
        ∧ ∀ b : List U8, i.Delivers b → 32 < b.length ∧ ∃ n, e = .invalidLength n) := by
  have no : ∀ i : Input, (∀ b, ¬ i.Delivers b) → (CompressedBytesVisitor c o m k).call i = .ok (.error .invalidType) →
      (∃ e, (CompressedBytesVisitor c o m k).call i = .ok (.error e)
        ∧ ∀ b : List U8, i.Delivers b → 32 < b.length ∧ ∃ n, e = .invalidLength n) :=
    fun i h h' => ⟨_, h', fun b hb => absurd hb (h b)⟩
  cases i with
  | bytes v =>
    by_cases hv : v.length ≤ 32
    · exact Or.inl ⟨v, hv, Or.inl rfl, rfl⟩
    · refine Or.inr ⟨.invalidLength v.length, visit_bytes_long c o m k v (by omega), fun b hb => ?_⟩
      rcases hb with hb | ⟨_, hb, _⟩
      · injection hb with hb; subst hb; exact ⟨by omega, _, rfl⟩
      · cases hb
  | seq hint l =>
    rcases compressed_visit_seq_cases c o m k hint l with ⟨b, h1, h2, h3, h4⟩ | ⟨e, h1, h2⟩
    · exact Or.inl ⟨b, h1, Or.inr ⟨hint, by rw [h2], h3⟩, h4⟩
    · refine Or.inr ⟨e, h1, fun b hb => ?_⟩
      rcases hb with hb | ⟨hint', hb, hh⟩
      · cases hb
      · injection hb with e1 e2; subst e1; exact h2 b e2 hh
  | _ => exact Or.inr (no _ (by rintro b (h | ⟨_, h, _⟩) <;> cases h) rfl)

theorem Serde.Input.delivers_unique {i : Input} {b b' : List U8} (h : i.Delivers b)
    (h' : i = .bytes b' ∨ ∃ hint, i = .seq hint (b'.map some)) : b = b' := by
  rcases h with rfl | ⟨h, rfl, _⟩ <;> rcases h' with h2 | ⟨h', h2⟩
  · injection h2
  · cases h2
  · cases h2
  · injection h2 with _ h2
    exact List.map_injective_iff.2 (Option.some_injective _) h2

/-- A sequence of at most 32 bytes decodes as the slice does. -/
theorem compressed_delivers (c : Cfg) {T : Type} (o : Order) (m : Bytes T) (k : CompressedBytes T) (i : Input) (b : List U8)
    (h : i.Delivers b) (hl : b.length ≤ 32) :
    (CompressedBytesVisitor c o m k).call i = (CompressedBytesVisitor c o m k).call (.bytes b) := by
  rcases compressed_call c o m k i with ⟨b', h1, h2, h3⟩ | ⟨e, h1, h2⟩
  · have : b = b' := Serde.Input.delivers_unique h (by
      rcases h2 with h2 | ⟨n, h2, _⟩
      · exact Or.inl h2
      · exact Or.inr ⟨n, h2⟩)
    rw [h3, this]; rfl
  · exact absurd (h2 b h).1 (by omega)

theorem compressed_accepts (c : Cfg) {T : Type} (o : Order) (m : Bytes T) (k : CompressedBytes T) (i : Input) (b : List U8)
    (hl : b.length ≤ 32) (h : i = .bytes b ∨ ∃ hint, i = .seq hint (b.map some) ∧ ∀ n, hint = some n → n ≤ 32) :
    (CompressedBytesVisitor c o m k).call i = (CompressedBytesVisitor c o m k).call (.bytes b) := by
  rcases h with rfl | ⟨hint, rfl, l2⟩
  · rfl
  · rw [← compressed_delivers c o m k (.seq none (b.map some)) b (Or.inr ⟨none, rfl, Or.inl rfl⟩) hl]
    show compressed_visit_seq c o m k hint (b.map some) = compressed_visit_seq c o m k none (b.map some)
    have : hintOver32 hint = none := by
      cases hint with
      | none => rfl
      | some n => have := l2 n rfl; unfold hintOver32; dsimp only; rw [if_neg (by omega)]
    unfold compressed_visit_seq
    rw [this]; rfl

end Ethnum
