import Verif.Proofs.SerdeCompressed

/-
C40: the compressed byte formats of serde.
-/

namespace Ethnum
open Serde

/-- C40: `U256` serializes to its low `n` bytes, `n` the least number of bytes that hold it. -/
theorem C40_u256_serialize (c : Cfg) (o : Order) (x : U256) :
    ∃ n, x.serialize_compressed c o = .ok (.bytes (o.arrange (leBytes n (x.toNat c))))
      ∧ x.toNat c < 256 ^ n ∧ ∀ m, x.toNat c < 256 ^ m → n ≤ m := by
  obtain ⟨r, h1, h2⟩ := (C14_u256_runs c x).1
  exact ⟨32 - r.toNat / 8, serialize_compressed_eq c o _ _ x _ r ((U256.bytesOf_spec c o).1 x) h1 h2.1,
    length_unsigned h2 (U256.toNat_lt c x)⟩

example : (U256.ofNat dbg 0x10203).serialize_compressed dbg .be = .ok (.bytes [1, 2, 3])
    ∧ (U256.ofNat rel 0x10203).serialize_compressed rel .le = .ok (.bytes [3, 2, 1])
    ∧ U256.ZERO.serialize_compressed dbg .be = .ok (.bytes []) := by decide +kernel

/-- C40: the inputs accepted for a `U256` are those of at most 32 bytes, a slice or a sequence that does not announce
more, and the result is the number they write. No input makes the call fault. -/
theorem C40_u256_accepts (c : Cfg) (o : Order) (i : Input) :
    (∀ x : U256, U256.deserialize_compressed c o i = .ok (.ok x)
      ↔ ∃ b : List U8, b.length ≤ 32 ∧ (i = .bytes b ∨ ∃ hint, i = .seq hint (b.map some) ∧ ∀ n, hint = some n → n ≤ 32)
          ∧ o.value b = x.toNat c)
    ∧ ∃ r, U256.deserialize_compressed c o i = .ok r := by
  rcases compressed_call c o (U256.bytesOf c o) (U256.compressedOf c) i with ⟨b, h1, h2, h3⟩ | ⟨e, h1, h2⟩
  · obtain ⟨y, k1, k2⟩ := U256.visit_bytes c o b h1
    have h4 : U256.deserialize_compressed c o i = .ok (.ok y) := h3.trans k1
    refine ⟨fun x => ?_, _, h4⟩
    rw [h4]
    constructor
    · intro h
      injection h with h
      injection h with h
      exact ⟨b, h1, h2, by rw [← h, k2]⟩
    · rintro ⟨b', l1, l2, l3⟩
      have : b = b' := by
        rcases h2 with rfl | ⟨_, rfl, _⟩ <;> rcases l2 with l2 | ⟨_, l2, _⟩
        · injection l2
        · cases l2
        · cases l2
        · injection l2 with _ l2
          exact List.map_injective_iff.2 (Option.some_injective _) l2
      congr 2
      apply U256.toNat_inj c
      rw [k2, this, l3]
  · refine ⟨fun x => ?_, _, h1⟩
    have h1' : U256.deserialize_compressed c o i = .ok (.error e) := h1
    rw [h1']
    constructor
    · intro h; injection h with h; cases h
    · rintro ⟨b, l1, rfl | ⟨hint, rfl, l2⟩, _⟩
      · exact absurd (h2 b (Or.inl rfl)).1 (by omega)
      · exfalso
        have hn := (compressed_delivers c o (U256.bytesOf c o) (U256.compressedOf c) (.seq none (b.map some)) b
          (Or.inr ⟨none, rfl, Or.inl rfl⟩) l1)
        obtain ⟨y, k1, _⟩ := U256.visit_bytes c o b l1
        have hs : (CompressedBytesVisitor c o (U256.bytesOf c o) (U256.compressedOf c)).call (.seq hint (b.map some))
            = (CompressedBytesVisitor c o (U256.bytesOf c o) (U256.compressedOf c)).call (.seq none (b.map some)) := by
          show compressed_visit_seq c o (U256.bytesOf c o) (U256.compressedOf c) hint (b.map some)
            = compressed_visit_seq c o (U256.bytesOf c o) (U256.compressedOf c) none (b.map some)
          have : hintOver32 hint = none := by
            cases hint with
            | none => rfl
            | some n => have := l2 n rfl; unfold hintOver32; dsimp only; rw [if_neg (by omega)]
          unfold compressed_visit_seq
          rw [this]; rfl
        have := h1.symm.trans (hs.trans (hn.trans k1))
        injection this with this
        cases this

example : U256.deserialize_compressed dbg .be (.bytes [1, 2, 3]) = .ok (.ok (U256.ofNat dbg 0x10203))
    ∧ U256.deserialize_compressed rel .le (.seq none [some 3, some 2, some 1]) = .ok (.ok (U256.ofNat rel 0x10203))
    ∧ U256.deserialize_compressed rel .le (.seq none [some 3, none, some 1]) = .ok (.error .input)
    ∧ Order.be.value [1, 2, 3] = 0x10203 := by decide +kernel

/-- C40: for a `U256`, what was serialized is recovered, however it is delivered, and no shorter input gives that value. -/
theorem C40_u256_round_trip (c : Cfg) (o : Order) (x : U256) :
    ∃ b, x.serialize_compressed c o = .ok (.bytes b)
      ∧ (∀ i : Input, i.Delivers b → U256.deserialize_compressed c o i = .ok (.ok x))
      ∧ (∀ (i : Input) (b' : List U8), i.Delivers b' → U256.deserialize_compressed c o i = .ok (.ok x) → b.length ≤ b'.length) := by
  obtain ⟨n, h1, h2, h3⟩ := C40_u256_serialize c o x
  have hn : n ≤ 32 := h3 32 (Nat.lt_of_lt_of_le (U256.toNat_lt c x) (by decide))
  have hl : (o.arrange (leBytes n (x.toNat c))).length = n := by rw [Order.length_arrange, length_leBytes]
  have hv : o.value (o.arrange (leBytes n (x.toNat c))) = x.toNat c := by
    unfold Order.value; rw [Order.arrange_arrange, leValue_leBytes, Nat.mod_eq_of_lt h2]
  refine ⟨_, h1, fun i hi => ?_, fun i b' hi hx => ?_⟩
  · have := compressed_delivers c o (U256.bytesOf c o) (U256.compressedOf c) i _ hi (by omega)
    refine Eq.trans this ?_
    exact ((C40_u256_accepts c o _).1 x).2 ⟨_, by omega, Or.inl rfl, hv⟩
  · obtain ⟨b, l1, l2, l3⟩ := ((C40_u256_accepts c o i).1 x).1 hx
    have : b' = b := Serde.Input.delivers_unique hi (by
      rcases l2 with h | ⟨n, h, _⟩
      · exact Or.inl h
      · exact Or.inr ⟨n, h⟩)
    subst this
    rw [hl]
    apply h3
    rw [← l3]
    exact o.value_lt b'

/-- C40: more than 32 bytes are rejected with `invalid_length`, for both types, however they are delivered. -/
theorem C40_too_long (c : Cfg) (o : Order) (i : Input) (b : List U8) (hb : i.Delivers b) (hl : 32 < b.length) :
    (∃ n, U256.deserialize_compressed c o i = .ok (.error (.invalidLength n)))
    ∧ (∃ n, I256.deserialize_compressed c o i = .ok (.error (.invalidLength n))) := by
  have key : ∀ {T : Type} (m : Bytes T) (k : CompressedBytes T),
      ∃ n, (CompressedBytesVisitor c o m k).call i = .ok (.error (.invalidLength n)) := fun m k => by
    rcases compressed_call c o m k i with ⟨b', h1, h2, h3⟩ | ⟨e, h1, h2⟩
    · exfalso
      have : b = b' := Serde.Input.delivers_unique hb (by
        rcases h2 with h | ⟨n, h, _⟩
        · exact Or.inl h
        · exact Or.inr ⟨n, h⟩)
      subst this; omega
    · obtain ⟨_, n, rfl⟩ := h2 b hb
      exact ⟨n, h1⟩
  exact ⟨key _ _, key _ _⟩

example : (Input.seq none (List.replicate 33 (some 0))).Delivers (List.replicate 33 0)
    ∧ U256.deserialize_compressed dbg .be (.seq none (List.replicate 33 (some 0))) = .ok (.error (.invalidLength 33)) :=
  ⟨Or.inr ⟨none, rfl, Or.inl rfl⟩, by decide +kernel⟩

/-- C40: a sequence of bytes is decoded as the same bytes in a slice are, and no input makes the `I256` call fault. -/
theorem C40_i256_delivery (c : Cfg) (o : Order) (i : Input) :
    (∀ b : List U8, i.Delivers b → b.length ≤ 32 → I256.deserialize_compressed c o i = I256.deserialize_compressed c o (.bytes b))
    ∧ ∃ r, I256.deserialize_compressed c o i = .ok r := by
  refine ⟨fun b hb hl => compressed_delivers c o _ _ i b hb hl, ?_⟩
  rcases compressed_call c o (I256.bytesOf c o) (I256.compressedOf c) i with ⟨b, h1, h2, h3⟩ | ⟨e, h1, h2⟩
  · obtain ⟨x, k1, _⟩ := I256.visit_bytes c o b h1
    exact ⟨_, h3.trans k1⟩
  · exact ⟨_, h1⟩

example : (Input.seq (some 2) [some 1, some 2]).Delivers [1, 2]
    ∧ I256.deserialize_compressed dbg .le (.seq (some 2) [some 1, some 2]) = .ok (.ok (I256.ofInt dbg 0x201)) :=
  ⟨Or.inr ⟨_, rfl, Or.inr rfl⟩, by decide +kernel⟩

/-- C40: a non-negative `I256` serializes to the least number of bytes that hold it *as an unsigned number*, a negative
one to the least positive number of bytes that hold it in two's complement. -/
theorem C40_i256_serialize (c : Cfg) (o : Order) (x : I256) :
    ∃ n, x.serialize_compressed c o = .ok (.bytes (o.arrange (leBytes n (x.toInt c % 2 ^ 256).toNat)))
      ∧ n ≤ 32
      ∧ (0 ≤ x.toInt c → x.toInt c < 256 ^ n ∧ ∀ m : Nat, x.toInt c < 256 ^ m → n ≤ m)
      ∧ (x.toInt c < 0 → 1 ≤ n ∧ -256 ^ n ≤ 2 * x.toInt c ∧ ∀ m : Nat, 1 ≤ m → -256 ^ m ≤ 2 * x.toInt c → n ≤ m) := by
  have hv : (x.toInt c % 2 ^ 256).toNat = x.toNat c := by
    have := I256.toNat_toInt c x; have h2 := U256.toNat_lt c x.as_u256
    rw [I256.toNat_as_u256] at h2
    omega
  have cast : ∀ n : Nat, ((256 ^ n : Nat) : Int) = 256 ^ n := fun n => by push_cast; rfl
  have hlo := I256.le_toInt c x
  have hhi := I256.toInt_lt c x
  rw [hv]
  by_cases hneg : x.toInt c < 0
  · obtain ⟨r, h1, h2⟩ := (C14_i256_runs c x.not).1
    rw [I256.toNat_not] at h2
    have hN : (x.toNat c : Int) = x.toInt c + 2 ^ 256 := by
      have := I256.toNat_toInt c x; have h2 := U256.toNat_lt c x.as_u256
      rw [I256.toNat_as_u256] at h2
      omega
    obtain ⟨k1, k2, k3⟩ := length_negative h2 (by omega)
    have hlen : (2 : Int) * ((2 ^ 256 - 1 - x.toNat c : Nat) + 1) = - (2 * x.toInt c) := by omega
    have hr := h2.1
    have hbits : (I256.compressedOf c).leading_bits x = .ok (r - 1) := by
      show I256.leading_bits c x = _
      unfold I256.leading_bits
      rw [if_pos (by rw [I256.is_negative_eq]; exact decide_eq_true hneg)]
      show (x.not.leading_zeros c >>= fun r => subC c r 1) = _
      rw [h1, ok_bind]
      rw [subC_ok c (show BitVec.toNat 1 ≤ r.toNat from k1)]
    have hsub : (r - 1).toNat = r.toNat - 1 := by
      have : r.toNat < 2 ^ 32 := r.isLt
      rw [BitVec.toNat_sub]
      show (2 ^ 32 - 1 + r.toNat) % 2 ^ 32 = _
      omega
    have hser := serialize_compressed_eq c o _ (I256.compressedOf c) x _ _ ((I256.bytesOf_spec c o).1 x) hbits (by omega)
    rw [hsub] at hser
    refine ⟨32 - (r.toNat - 1) / 8, hser, by omega, fun h => absurd hneg (by omega), fun _ => ⟨by omega, ?_, fun m hm1 hm => ?_⟩⟩
    · rw [← cast]; omega
    · rw [← cast] at hm
      exact k3 m hm1 (by omega)
  · obtain ⟨r, h1, h2⟩ := (C14_i256_runs c x).1
    have hN : (x.toNat c : Int) = x.toInt c := by
      have := I256.toNat_toInt c x; have h2 := U256.toNat_lt c x.as_u256
      rw [I256.toNat_as_u256] at h2
      omega
    have hbits : (I256.compressedOf c).leading_bits x = .ok r := by
      show I256.leading_bits c x = _
      unfold I256.leading_bits
      rw [if_neg (by rw [I256.is_negative_eq, decide_eq_false hneg]; decide), h1]
    obtain ⟨k1, k2⟩ := length_unsigned h2 (by omega)
    refine ⟨32 - r.toNat / 8, serialize_compressed_eq c o _ _ x _ r ((I256.bytesOf_spec c o).1 x) hbits h2.1, by omega,
      fun _ => ⟨?_, fun m hm => ?_⟩, fun h => absurd h hneg⟩
    · rw [← cast]; omega
    · rw [← cast] at hm
      exact k2 m (by omega)

example : (I256.ofInt dbg (-2)).serialize_compressed dbg .be = .ok (.bytes [0xfe])
    ∧ (I256.ofInt dbg (-129)).serialize_compressed dbg .be = .ok (.bytes [0xff, 0x7f])
    ∧ (I256.ofInt rel 0x1234).serialize_compressed rel .le = .ok (.bytes [0x34, 0x12])
    ∧ (I256.ofInt rel 0xff).serialize_compressed rel .le = .ok (.bytes [0xff]) := by decide +kernel

/-- C40: the little-endian decoder of `I256` reads at most 32 bytes as a two's complement number. -/
theorem C40_i256_le_decode (c : Cfg) (b : List U8) (h : b.length ≤ 32) :
    ∃ x : I256, I256.deserialize_compressed c .le (.bytes b) = .ok (.ok x) ∧ x.toInt c = Order.le.signedValue b :=
  I256.visit_le c b h

example : I256.deserialize_compressed dbg .le (.bytes [0x7f, 0xff]) = .ok (.ok (I256.ofInt dbg (-129)))
    ∧ Order.le.signedValue [0x7f, 0xff] = -129 := by decide +kernel

/-- C40: the big-endian decoder of `I256` takes the sign of fewer than 32 bytes from the *last*, least significant, one. -/
theorem C40_i256_be_decode (c : Cfg) (b : List U8) (h : b.length ≤ 32) :
    ∃ x : I256, I256.deserialize_compressed c .be (.bytes b) = .ok (.ok x)
      ∧ x.toInt c = if b.length = 32 then Order.be.signedValue b
          else if 128 ≤ Order.be.value b % 256 then (Order.be.value b : Int) - 256 ^ b.length else Order.be.value b :=
  I256.visit_be c b h

example : I256.deserialize_compressed dbg .be (.bytes [0x00, 0xff]) = .ok (.ok (I256.ofInt dbg (255 - 65536)))
    ∧ I256.deserialize_compressed dbg .be (.bytes [0xff, 0x7f]) = .ok (.ok (I256.ofInt dbg 0xff7f)) := by decide +kernel

/-- C40: the inputs accepted for an `I256` are those of at most 32 bytes, a slice or a sequence that does not announce
more; the number is the one they write in two's complement, except that the big-endian format takes the sign of fewer
than 32 bytes from the last byte, the least significant one. -/
theorem C40_i256_accepts (c : Cfg) (o : Order) (i : Input) (x : I256) :
    I256.deserialize_compressed c o i = .ok (.ok x)
      ↔ ∃ b : List U8, b.length ≤ 32 ∧ (i = .bytes b ∨ ∃ hint, i = .seq hint (b.map some) ∧ ∀ n, hint = some n → n ≤ 32)
          ∧ x.toInt c = (match o with
            | .le => Order.le.signedValue b
            | .be => if b.length = 32 then Order.be.signedValue b
                else if 128 ≤ Order.be.value b % 256 then (Order.be.value b : Int) - 256 ^ b.length
                else Order.be.value b) := by
  have dec : ∀ b : List U8, b.length ≤ 32 → ∃ x : I256, I256.deserialize_compressed c o (.bytes b) = .ok (.ok x)
      ∧ x.toInt c = (match o with
            | .le => Order.le.signedValue b
            | .be => if b.length = 32 then Order.be.signedValue b
                else if 128 ≤ Order.be.value b % 256 then (Order.be.value b : Int) - 256 ^ b.length
                else Order.be.value b) := fun b hb => by
    cases o
    · exact C40_i256_le_decode c b hb
    · exact C40_i256_be_decode c b hb
  rcases compressed_call c o (I256.bytesOf c o) (I256.compressedOf c) i with ⟨b, h1, h2, h3⟩ | ⟨e, h1, h2⟩
  · obtain ⟨y, k1, k2⟩ := dec b h1
    have h4 : I256.deserialize_compressed c o i = .ok (.ok y) := h3.trans k1
    rw [h4]
    constructor
    · intro h
      injection h with h
      injection h with h
      exact ⟨b, h1, h2, by rw [← h, k2]⟩
    · rintro ⟨b', l1, l2, l3⟩
      have : b = b' := by
        rcases h2 with rfl | ⟨_, rfl, _⟩ <;> rcases l2 with l2 | ⟨_, l2, _⟩
        · injection l2
        · cases l2
        · cases l2
        · injection l2 with _ l2
          exact List.map_injective_iff.2 (Option.some_injective _) l2
      subst this
      congr 2
      apply I256.toInt_inj c
      rw [k2, l3]
  · have h1' : I256.deserialize_compressed c o i = .ok (.error e) := h1
    rw [h1']
    constructor
    · intro h; injection h with h; cases h
    · rintro ⟨b, l1, l2, _⟩
      have h6 := compressed_accepts c o (I256.bytesOf c o) (I256.compressedOf c) i b l1 l2
      obtain ⟨y, k1, _⟩ := dec b l1
      have h7 : I256.deserialize_compressed c o i = .ok (.ok y) := h6.trans k1
      rw [h1'] at h7
      injection h7 with h7
      cases h7

example : I256.deserialize_compressed dbg .le (.seq (some 0) [some 1, some 0x80])
      = .ok (.ok (I256.ofInt dbg (0x8001 - 65536)))
    ∧ I256.deserialize_compressed dbg .le (.seq (some 33) [some 1]) = .ok (.error (.invalidLength 33))
    ∧ I256.deserialize_compressed dbg .le (.u8 1) = .ok (.error .invalidType) := by decide +kernel

/-- The value of what an `I256` serializes to. -/
theorem I256.value_serialized (c : Cfg) (o : Order) (x : I256) (n : Nat) (hn : n ≤ 32)
    (h0 : 0 ≤ x.toInt c → x.toInt c < 256 ^ n) (h1 : x.toInt c < 0 → -256 ^ n ≤ 2 * x.toInt c) :
    (o.value (o.arrange (leBytes n (x.toInt c % 2 ^ 256).toNat)) : Int)
      = if x.toInt c < 0 then x.toInt c + 256 ^ n else x.toInt c := by
  unfold Order.value
  rw [Order.arrange_arrange, leValue_leBytes]
  have hm := pow256_mul hn
  have hlo := I256.le_toInt c x
  have hhi := I256.toInt_lt c x
  have cast : ((256 ^ n : Nat) : Int) = 256 ^ n := by push_cast; rfl
  have hP : 0 < 256 ^ n := Nat.pow_pos (by omega)
  rw [← cast] at h0 h1 ⊢
  have hmod : ((((x.toInt c % 2 ^ 256).toNat % 256 ^ n : Nat)) : Int) = x.toInt c % (256 ^ n : Nat) := by
    rw [Int.natCast_emod, Int.toNat_of_nonneg (Int.emod_nonneg _ (by decide))]
    apply Int.emod_emod_of_dvd
    exact ⟨(256 ^ (32 - n) : Nat), by rw [← Int.natCast_mul, hm]; rfl⟩
  rw [hmod]
  generalize 256 ^ n = P at *
  by_cases hneg : x.toInt c < 0
  · have := h1 hneg
    rw [if_pos hneg, ← Int.add_emod_right]
    exact Int.emod_eq_of_lt (by omega) (by omega)
  · rw [if_neg hneg]
    exact Int.emod_eq_of_lt (by omega) (h0 (by omega))

theorem signedValue_eq (o : Order) (b : List U8) {n : Nat} (h : b.length = n) :
    o.signedValue b = if (256 : Int) ^ n ≤ 2 * o.value b then (o.value b : Int) - 256 ^ n else o.value b := by
  unfold Order.signedValue
  rw [h]
  have cast : ((256 ^ n : Nat) : Int) = 256 ^ n := by push_cast; rfl
  rw [← cast]
  by_cases hc : 256 ^ n ≤ 2 * o.value b
  · rw [if_pos hc, if_pos (by exact_mod_cast hc)]
  · rw [if_neg hc, if_neg (by exact_mod_cast hc)]

/-- C40, the little-endian format of `I256`. The full claim, that every value is recovered, is false
(`C40_i256_not_recovered`); here is exactly when it is: the value is not one whose topmost bit, in the fewest bytes
that hold it, is set although it is positive. What is produced is never longer than any input that gives the value. -/
theorem C40_i256_le_partial (c : Cfg) (x : I256) :
    ∃ b, x.serialize_compressed c .le = .ok (.bytes b)
      ∧ (I256.deserialize_compressed c .le (.bytes b) = .ok (.ok x)
          ↔ ¬ ∃ n : Nat, 256 ^ n ≤ 2 * x.toInt c ∧ x.toInt c < 256 ^ n)
      ∧ (∀ b' : List U8, b'.length ≤ 32 → I256.deserialize_compressed c .le (.bytes b') = .ok (.ok x) → b.length ≤ b'.length) := by
  obtain ⟨n, h1, hn, h2, h3⟩ := C40_i256_serialize c .le x
  have hl : (Order.le.arrange (leBytes n (x.toInt c % 2 ^ 256).toNat)).length = n := by rw [Order.length_arrange, length_leBytes]
  have hval := I256.value_serialized c .le x n hn (fun h => (h2 h).1) (fun h => (h3 h).2.1)
  have cast : ∀ n : Nat, ((256 ^ n : Nat) : Int) = 256 ^ n := fun n => by push_cast; rfl
  refine ⟨_, h1, ?_, fun b' hb' hx => ?_⟩
  · obtain ⟨y, k1, k2⟩ := I256.visit_le c (Order.le.arrange (leBytes n (x.toInt c % 2 ^ 256).toNat)) (by omega)
    rw [k1]
    have hyx : (Except.ok (Except.ok y) : Res (Outcome I256)) = .ok (.ok x) ↔ y.toInt c = x.toInt c := by
      constructor
      · intro h; injection h with h; injection h with h; rw [h]
      · intro h; rw [I256.toInt_inj c h]
    rw [hyx, k2, signedValue_eq _ _ hl, hval]
    have hP : 0 < 256 ^ n := Nat.pow_pos (by omega)
    by_cases hneg : x.toInt c < 0
    · rw [if_pos hneg]
      obtain ⟨_, g, _⟩ := h3 hneg
      have hno : ¬ ∃ n : Nat, 256 ^ n ≤ 2 * x.toInt c ∧ x.toInt c < 256 ^ n := by
        rintro ⟨m, hm, _⟩
        have : 0 < 256 ^ m := Nat.pow_pos (by omega)
        rw [← cast] at hm; omega
      rw [← cast] at g ⊢
      rw [if_pos (by omega)]
      exact ⟨fun _ => hno, fun _ => by omega⟩
    · rw [if_neg hneg]
      obtain ⟨g1, g2⟩ := h2 (by omega)
      by_cases hc : (256 : Int) ^ n ≤ 2 * x.toInt c
      · rw [if_pos hc]
        constructor
        · intro h; rw [← cast] at h; omega
        · intro h; exact absurd ⟨n, hc, g1⟩ h
      · rw [if_neg hc]
        refine ⟨fun _ => ?_, fun _ => rfl⟩
        rintro ⟨m, m1, m2⟩
        have hnm := g2 m m2
        rcases Nat.eq_or_lt_of_le hnm with rfl | hlt
        · exact hc m1
        · have : 256 ^ (n + 1) ≤ 256 ^ m := Nat.pow_le_pow_right (by omega) hlt
          rw [Nat.pow_succ] at this
          rw [← cast] at m1 g1
          omega
  · obtain ⟨y, k1, k2⟩ := I256.visit_le c b' hb'
    rw [hx] at k1
    injection k1 with k1
    injection k1 with k1
    rw [← k1, signedValue_eq _ _ rfl] at k2
    rw [hl]
    have hlt := Order.le.value_lt b'
    have hlt' : (Order.le.value b' : Int) < 256 ^ b'.length := by rw [← cast]; exact_mod_cast hlt
    by_cases hneg : x.toInt c < 0
    · obtain ⟨_, _, g⟩ := h3 hneg
      split at k2
      · rename_i hge
        apply g
        · rcases Nat.eq_zero_or_pos b'.length with h0 | h0
          · rw [h0, pow_zero] at hlt' hge; omega
          · exact h0
        · omega
      · omega
    · obtain ⟨_, g⟩ := h2 (by omega)
      apply g
      split at k2 <;> omega

example : (I256.ofInt dbg 0x7fff).serialize_compressed dbg .le = .ok (.bytes [0xff, 0x7f])
    ∧ I256.deserialize_compressed dbg .le (.bytes [0xff, 0x7f]) = .ok (.ok (I256.ofInt dbg 0x7fff))
    ∧ I256.deserialize_compressed dbg .le (.bytes [0xff, 0x7f, 0]) = .ok (.ok (I256.ofInt dbg 0x7fff)) := by decide +kernel
example : ¬ ∃ n : Nat, 256 ^ n ≤ 2 * (0x7fff : Int) ∧ (0x7fff : Int) < 256 ^ n := by
  rintro ⟨n, h1, h2⟩
  have cast : ((256 ^ n : Nat) : Int) = 256 ^ n := by push_cast; rfl
  rw [← cast] at h1 h2
  rcases Nat.lt_or_ge n 2 with h | h
  · have : 256 ^ n ≤ 256 ^ 1 := Nat.pow_le_pow_right (by omega) (by omega)
    omega
  · have : 256 ^ 2 ≤ 256 ^ n := Nat.pow_le_pow_right (by omega) h
    omega

/-- C40, the big-endian format of `I256`. The full claim is false (`C40_i256_not_recovered`); here is exactly when the
value is recovered: the top bit of its lowest byte happens to be its sign, or it takes all 32 bytes. -/
theorem C40_i256_be_partial (c : Cfg) (x : I256) :
    ∃ b, x.serialize_compressed c .be = .ok (.bytes b)
      ∧ (I256.deserialize_compressed c .be (.bytes b) = .ok (.ok x)
          ↔ (x.toInt c < 0 ↔ 128 ≤ x.toInt c % 256) ∨ 256 ^ 31 ≤ x.toInt c ∨ 2 * x.toInt c < -256 ^ 31) := by
  obtain ⟨n, h1, hn, h2, h3⟩ := C40_i256_serialize c .be x
  have hl : (Order.be.arrange (leBytes n (x.toInt c % 2 ^ 256).toNat)).length = n := by rw [Order.length_arrange, length_leBytes]
  have hval := I256.value_serialized c .be x n hn (fun h => (h2 h).1) (fun h => (h3 h).2.1)
  have cast : ∀ n : Nat, ((256 ^ n : Nat) : Int) = 256 ^ n := fun n => by push_cast; rfl
  have hlo := I256.le_toInt c x
  have hhi := I256.toInt_lt c x
  have hP : 0 < 256 ^ n := Nat.pow_pos (by omega)
  refine ⟨_, h1, ?_⟩
  obtain ⟨y, k1, k2⟩ := I256.visit_be c (Order.be.arrange (leBytes n (x.toInt c % 2 ^ 256).toNat)) (by omega)
  rw [k1]
  have hyx : (Except.ok (Except.ok y) : Res (Outcome I256)) = .ok (.ok x) ↔ y.toInt c = x.toInt c := by
    constructor
    · intro h; injection h with h; injection h with h; rw [h]
    · intro h; rw [I256.toInt_inj c h]
  rw [hyx, k2, signedValue_eq _ _ hl, hl]
  generalize Order.be.value (Order.be.arrange (leBytes n (x.toInt c % 2 ^ 256).toNat)) = V at *
  by_cases h32 : n = 32
  · subst h32
    rw [if_pos rfl]
    have hright : 256 ^ 31 ≤ x.toInt c ∨ 2 * x.toInt c < -256 ^ 31 := by
      by_cases hneg : x.toInt c < 0
      · right
        by_contra hc
        exact absurd ((h3 hneg).2.2 31 (by decide) (by omega)) (by omega)
      · left
        by_contra hc
        exact absurd ((h2 (by omega)).2 31 (by omega)) (by omega)
    have e : (256 : Int) ^ 32 = 2 ^ 256 := by decide
    rw [e] at hval ⊢
    refine ⟨fun _ => Or.inr hright, fun _ => ?_⟩
    rw [hval]
    split <;> split <;> omega
  · rw [if_neg h32]
    have hno : ¬ (256 ^ 31 ≤ x.toInt c ∨ 2 * x.toInt c < -256 ^ 31) := by
      have h31 : 256 ^ n ≤ 256 ^ 31 := Nat.pow_le_pow_right (by omega) (by omega)
      rintro (hc | hc)
      · have := (h2 (by omega)).1
        rw [← cast] at this; omega
      · have := (h3 (by omega)).2.1
        rw [← cast] at this; omega
    have hmod : ((V : Int)) % 256 = x.toInt c % 256 := by
      rw [hval]
      by_cases hneg : x.toInt c < 0
      · rw [if_pos hneg]
        obtain ⟨g, _, _⟩ := h3 hneg
        obtain ⟨j, rfl⟩ : ∃ j, n = j + 1 := ⟨n - 1, by omega⟩
        rw [pow_succ]
        exact Int.add_mul_emod_self_right ..
      · rw [if_neg hneg]
    have hmod' : 128 ≤ V % 256 ↔ 128 ≤ x.toInt c % 256 := by omega
    rw [or_iff_left hno]
    rw [← cast] at hval ⊢
    generalize 256 ^ n = P at *
    by_cases hb : 128 ≤ V % 256
    · rw [if_pos hb]
      have := hmod'.1 hb
      by_cases hneg : x.toInt c < 0
      · rw [if_pos hneg] at hval
        exact ⟨fun _ => ⟨fun _ => this, fun _ => hneg⟩, fun _ => by omega⟩
      · rw [if_neg hneg] at hval
        exact ⟨fun h => by omega, fun h => absurd (h.2 this) hneg⟩
    · rw [if_neg hb]
      have : ¬ 128 ≤ x.toInt c % 256 := fun h => hb (hmod'.2 h)
      by_cases hneg : x.toInt c < 0
      · rw [if_pos hneg] at hval
        exact ⟨fun h => by omega, fun h => absurd (h.1 hneg) this⟩
      · rw [if_neg hneg] at hval
        exact ⟨fun _ => ⟨fun h => absurd h hneg, fun h => absurd h this⟩, fun _ => by omega⟩

example : (I256.ofInt dbg 0x1234).serialize_compressed dbg .be = .ok (.bytes [0x12, 0x34])
    ∧ I256.deserialize_compressed dbg .be (.bytes [0x12, 0x34]) = .ok (.ok (I256.ofInt dbg 0x1234))
    ∧ ((0x1234 : Int) < 0 ↔ (128 : Int) ≤ 0x1234 % 256) := by decide +kernel

/-- C40: values that are not recovered. 255 comes back as −1 in both orders, and 384 as −65152 big-endian. -/
theorem C40_i256_not_recovered (c : Cfg) :
    (∃ (x : I256) (b : List U8), x.toInt c = 255 ∧ x.serialize_compressed c .le = .ok (.bytes b)
      ∧ I256.deserialize_compressed c .le (.bytes b) = .ok (.ok (I256.ofInt c (-1))))
    ∧ (∃ (x : I256) (b : List U8), x.toInt c = 255 ∧ x.serialize_compressed c .be = .ok (.bytes b)
      ∧ I256.deserialize_compressed c .be (.bytes b) = .ok (.ok (I256.ofInt c (-1))))
    ∧ (∃ (x : I256) (b : List U8), x.toInt c = 384 ∧ x.serialize_compressed c .be = .ok (.bytes b)
      ∧ I256.deserialize_compressed c .be (.bytes b) = .ok (.ok (I256.ofInt c (-65152)))) := by
  refine ⟨⟨I256.ofInt c 255, [0xff], ?_⟩, ⟨I256.ofInt c 255, [0xff], ?_⟩, ⟨I256.ofInt c 384, [0x01, 0x80], ?_⟩⟩
  all_goals
    rcases c with ⟨_ | _, _ | _, _ | _, _ | _ | _, _ | _⟩ <;> decide +kernel

/-- C40: nor is the big-endian output of `I256` the shortest: three bytes where two give the same value. -/
theorem C40_i256_be_not_shortest (c : Cfg) :
    ∃ (x : I256) (b b' : List U8), x.serialize_compressed c .be = .ok (.bytes b)
      ∧ I256.deserialize_compressed c .be (.bytes b') = .ok (.ok x) ∧ b'.length < b.length := by
  refine ⟨I256.ofInt c (128 - 65536), [0xff, 0x00, 0x80], [0x00, 0x80], ?_⟩
  rcases c with ⟨_ | _, _ | _, _ | _, _ | _ | _, _ | _⟩ <;> decide +kernel

end Ethnum
