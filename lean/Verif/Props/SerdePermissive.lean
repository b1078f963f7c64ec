import Verif.Proofs.SerdePermissive

/-
C38: the permissive format of serde.
-/

namespace Ethnum
open Serde FloatTy

theorem Serde.Input.number_bounds {i : Input} {z : Int} (h : i.number = some (z : ℚ)) (hb : ¬ i.beyondExact) : -2 ^ 127 ≤ z ∧ z < 2 ^ 128 := by
  have sgn : ∀ {n : Nat} (v : BitVec n), 0 < n → n ≤ 128 → -2 ^ 127 ≤ v.toInt ∧ v.toInt < 2 ^ 128 := by
    intro n v h0 h
    have h1 := BitVec.le_toInt v
    have h2 := BitVec.toInt_lt (x := v)
    have h3 : (2 : Int) ^ (n - 1) ≤ 2 ^ 127 := by
      exact_mod_cast Nat.pow_le_pow_right (n := 2) (by omega) (show n - 1 ≤ 127 by omega)
    omega
  have uns : ∀ {n : Nat} (v : BitVec n), n ≤ 128 → -2 ^ 127 ≤ (v.toNat : Int) ∧ (v.toNat : Int) < 2 ^ 128 := by
    intro n v h
    have h1 := v.isLt
    have h3 : (2 : Nat) ^ n ≤ 2 ^ 128 := Nat.pow_le_pow_right (by omega) h
    omega
  cases i with
  | f32 v =>
    by_cases hf : FloatTy.f32.isFinite v = true
    · simp [Input.number, hf] at h
      simp only [Input.beyondExact, not_not, h] at hb
      obtain ⟨h1, h2⟩ := hb
      have h1' : -2 ^ 24 ≤ z := by exact_mod_cast h1
      have h2' : z < 2 ^ 24 := by exact_mod_cast h2
      omega
    · simp [Input.number, hf] at h
  | f64 v =>
    by_cases hf : FloatTy.f64.isFinite v = true
    · simp [Input.number, hf] at h
      simp only [Input.beyondExact, not_not, h] at hb
      obtain ⟨h1, h2⟩ := hb
      have h1' : -2 ^ 53 ≤ z := by exact_mod_cast h1
      have h2' : z < 2 ^ 53 := by exact_mod_cast h2
      omega
    · simp [Input.number, hf] at h
  | i8 v => injection h with h; have e : z = v.toInt := by exact_mod_cast h.symm
            rw [e]; exact sgn v (by omega) (by omega)
  | i16 v => injection h with h; have e : z = v.toInt := by exact_mod_cast h.symm
             rw [e]; exact sgn v (by omega) (by omega)
  | i32 v => injection h with h; have e : z = v.toInt := by exact_mod_cast h.symm
             rw [e]; exact sgn v (by omega) (by omega)
  | i64 v => injection h with h; have e : z = v.toInt := by exact_mod_cast h.symm
             rw [e]; exact sgn v (by omega) (by omega)
  | i128 v => injection h with h; have e : z = v.toInt := by exact_mod_cast h.symm
              rw [e]; exact sgn v (by omega) (by omega)
  | u8 v => injection h with h; have e : z = v.toNat := by exact_mod_cast h.symm
            rw [e]; exact uns v (by omega)
  | u16 v => injection h with h; have e : z = v.toNat := by exact_mod_cast h.symm
             rw [e]; exact uns v (by omega)
  | u32 v => injection h with h; have e : z = v.toNat := by exact_mod_cast h.symm
             rw [e]; exact uns v (by omega)
  | u64 v => injection h with h; have e : z = v.toNat := by exact_mod_cast h.symm
             rw [e]; exact uns v (by omega)
  | u128 v => injection h with h; have e : z = v.toNat := by exact_mod_cast h.symm
              rw [e]; exact uns v (by omega)
  | _ => simp [Input.number] at h

/-- C38 for `I256`: what is accepted, and as what. A string is taken exactly as the prefixed parser takes it; any
other input must be a number, an integer, and if it is a float within the range where its type has every integer. -/
theorem C38_i256 (c : Cfg) (i : Input) (x : I256) :
    I256.deserialize_permissive c i = .ok (.ok x)
      ↔ (∃ s, i = .str s ∧ I256.from_str_prefixed c s = .ok (.ok x))
        ∨ (i.number = some (x.toInt c : ℚ) ∧ ¬ i.beyondExact) := by
  rcases permissive_number c id (I256.from_str_prefixed c) i with ⟨z, h1, h2, h3⟩ | ⟨hs, ⟨e, he⟩, hno⟩ | ⟨s, rfl⟩
  · have hb := Serde.Input.number_bounds h1 h2
    have h4 : I256.deserialize_permissive c i = .ok (.ok (I256.ofInt c z)) := h3
    have hz : (I256.ofInt c z).toInt c = z := I256.toInt_ofInt_of_in c (by unfold InI256; constructor <;> omega)
    rw [h4]
    constructor
    · intro h
      injection h with h; injection h with h
      right
      rw [← h, hz]; exact ⟨h1, h2⟩
    · rintro (⟨s, rfl, _⟩ | ⟨h, _⟩)
      · simp [Input.number] at h1
      · rw [h1] at h
        injection h with h
        have : z = x.toInt c := by exact_mod_cast h
        congr 2
        apply I256.toInt_inj c
        rw [hz, this]
  · have h4 : I256.deserialize_permissive c i = .ok (.error e) := he
    rw [h4]
    constructor
    · intro h; injection h with h; cases h
    · rintro (⟨s, h, _⟩ | ⟨h, hb⟩)
      · exact absurd h (hs s)
      · exact absurd (hno _ h) hb
  · have : I256.deserialize_permissive c (.str s) = .ok (.ok x) ↔ I256.from_str_prefixed c s = .ok (.ok x) :=
      format_str_ok (good_i256_prefixed c) s x
    rw [this]
    constructor
    · intro h; exact Or.inl ⟨s, rfl, h⟩
    · rintro (⟨s', h, h'⟩ | ⟨h, _⟩)
      · injection h with h; rw [h]; exact h'
      · simp [Input.number] at h

example : I256.deserialize_permissive dbg (.i32 (-5)) = .ok (.ok (I256.ofInt dbg (-5)))
    ∧ I256.deserialize_permissive dbg (.f32 0xc0a00000) = .ok (.ok (I256.ofInt dbg (-5)))
    ∧ I256.deserialize_permissive rel (.f64 0x433fffffffffffff) = .ok (.ok (I256.ofInt rel (2 ^ 53 - 1)))
    ∧ I256.deserialize_permissive rel (.f64 0x4340000000000000) = .ok (.error .floatRange)
    ∧ I256.deserialize_permissive rel (.f64 0x3fe0000000000000) = .ok (.error .fraction)
    ∧ I256.deserialize_permissive rel (.f64 0x7ff8000000000000) = .ok (.error .floatRange)
    ∧ I256.deserialize_permissive rel (.str (str "-0x10")) = .ok (.ok (I256.ofInt rel (-16))) := by decide +kernel

/-- C38: neither type's deserializer faults on any input, and a string that is not accepted is reported with the
error of the prefixed parser. -/
theorem C38_total (c : Cfg) (i : Input) :
    (∃ r, I256.deserialize_permissive c i = .ok r) ∧ (∃ r, U256.deserialize_permissive c i = .ok r)
    ∧ (∀ s k, i = .str s → (I256.deserialize_permissive c i = .ok (.error (.parse k)) ↔ I256.from_str_prefixed c s = .ok (.error k))
        ∧ (U256.deserialize_permissive c i = .ok (.error (.parse k)) ↔ U256.from_str_prefixed c s = .ok (.error k))) := by
  refine ⟨?_, ?_, ?_⟩
  · rcases permissive_number c id (I256.from_str_prefixed c) i with ⟨z, h1, h2, h3⟩ | ⟨hs, ⟨e, he⟩, hno⟩ | ⟨s, rfl⟩
    · exact ⟨_, h3⟩
    · exact ⟨_, he⟩
    · obtain ⟨r, hr⟩ := (good_i256_prefixed c).total s
      exact ⟨_, format_visit_str_eq hr⟩
  · rcases permissive_number c I256.as_u256 (U256.from_str_prefixed c) i with ⟨z, h1, h2, h3⟩ | ⟨hs, ⟨e, he⟩, hno⟩ | ⟨s, rfl⟩
    · exact ⟨_, h3⟩
    · exact ⟨_, he⟩
    · obtain ⟨r, hr⟩ := (good_u256_prefixed c).total s
      exact ⟨_, format_visit_str_eq hr⟩
  · rintro s k rfl
    constructor
    · obtain ⟨r, hr⟩ := (good_i256_prefixed c).total s
      have : I256.deserialize_permissive c (.str s) = _ := format_visit_str_eq hr
      rw [this, hr]
      cases r <;> simp [Except.mapError]
    · obtain ⟨r, hr⟩ := (good_u256_prefixed c).total s
      have : U256.deserialize_permissive c (.str s) = _ := format_visit_str_eq hr
      rw [this, hr]
      cases r <;> simp [Except.mapError]

example : I256.deserialize_permissive dbg (.str (str "1x")) = .ok (.error (.parse .invalidDigit))
    ∧ U256.deserialize_permissive rel .other = .ok (.error .invalidType) := by decide +kernel

/-- What the `U256` deserializer accepts, exactly: integers within range, of either sign, reduced modulo `2^256`. -/
theorem C38_u256_exact (c : Cfg) (i : Input) (x : U256) :
    U256.deserialize_permissive c i = .ok (.ok x)
      ↔ (∃ s, i = .str s ∧ U256.from_str_prefixed c s = .ok (.ok x))
        ∨ (∃ z : Int, i.number = some (z : ℚ) ∧ ¬ i.beyondExact ∧ (x.toNat c : Int) = z % 2 ^ 256) := by
  rcases permissive_number c I256.as_u256 (U256.from_str_prefixed c) i with ⟨z, h1, h2, h3⟩ | ⟨hs, ⟨e, he⟩, hno⟩ | ⟨s, rfl⟩
  · have hb := Serde.Input.number_bounds h1 h2
    have h4 : U256.deserialize_permissive c i = .ok (.ok (I256.ofInt c z).as_u256) := h3
    have hz : (I256.ofInt c z).toInt c = z := I256.toInt_ofInt_of_in c (by unfold InI256; constructor <;> omega)
    have hz' : ((I256.ofInt c z).as_u256.toNat c : Int) = z % 2 ^ 256 := by
      have h5 := I256.toNat_toInt c (I256.ofInt c z)
      have h6 := U256.toNat_lt c (I256.ofInt c z).as_u256
      rw [I256.toNat_as_u256] at h6 ⊢
      omega
    rw [h4]
    constructor
    · intro h
      injection h with h; injection h with h
      right
      exact ⟨z, h1, h2, by rw [← h]; exact hz'⟩
    · rintro (⟨s, rfl, _⟩ | ⟨z', h, _, hx⟩)
      · simp [Input.number] at h1
      · rw [h1] at h
        injection h with h
        have : z = z' := by exact_mod_cast h
        subst this
        congr 2
        apply U256.toNat_inj c
        exact_mod_cast hz'.trans hx.symm
  · have h4 : U256.deserialize_permissive c i = .ok (.error e) := he
    rw [h4]
    constructor
    · intro h; injection h with h; cases h
    · rintro (⟨s, h, _⟩ | ⟨z, h, hb, _⟩)
      · exact absurd h (hs s)
      · exact absurd (hno _ h) hb
  · have : U256.deserialize_permissive c (.str s) = .ok (.ok x) ↔ U256.from_str_prefixed c s = .ok (.ok x) :=
      format_str_ok (good_u256_prefixed c) s x
    rw [this]
    constructor
    · intro h; exact Or.inl ⟨s, rfl, h⟩
    · rintro (⟨s', h, h'⟩ | ⟨z, h, _⟩)
      · injection h with h; rw [h]; exact h'
      · simp [Input.number] at h

example : U256.deserialize_permissive dbg (.u16 500) = .ok (.ok (U256.ofNat dbg 500))
    ∧ U256.deserialize_permissive rel (.i64 (-1)) = .ok (.ok U256.MAX) := by decide +kernel

/-- C38 for `U256`. The full claim would be this statement for every input; it is false for negative numbers
(`C38_u256_negative_wraps`), which are accepted and changed, and here excluded. -/
theorem C38_u256_partial (c : Cfg) (i : Input) (x : U256) (hi : ∀ q : ℚ, i.number = some q → 0 ≤ q) :
    U256.deserialize_permissive c i = .ok (.ok x)
      ↔ (∃ s, i = .str s ∧ U256.from_str_prefixed c s = .ok (.ok x))
        ∨ (i.number = some (x.toNat c : ℚ) ∧ ¬ i.beyondExact) := by
  rw [C38_u256_exact]
  have hx := U256.toNat_lt c x
  constructor
  · rintro (h | ⟨z, h1, h2, h3⟩)
    · exact Or.inl h
    · right
      have h0 : 0 ≤ z := by exact_mod_cast hi z h1
      have := (Serde.Input.number_bounds h1 h2).2
      have e : z = x.toNat c := by omega
      subst e
      exact ⟨by exact_mod_cast h1, h2⟩
  · rintro (h | ⟨h1, h2⟩)
    · exact Or.inl h
    · exact Or.inr ⟨x.toNat c, by exact_mod_cast h1, h2, by omega⟩

example : U256.deserialize_permissive dbg (.f64 0x4059000000000000) = .ok (.ok (U256.ofNat dbg 100))
    ∧ U256.deserialize_permissive dbg (.str (str "-1")) = .ok (.error (.parse .invalidDigit)) := by decide +kernel

/-- C38: every negative integer input within range is accepted for `U256`, with a value other than its own. -/
theorem C38_u256_negative_wraps (c : Cfg) (i : Input) (z : Int) (h : i.number = some (z : ℚ)) (hb : ¬ i.beyondExact) (hz : z < 0) :
    ∃ x : U256, U256.deserialize_permissive c i = .ok (.ok x) ∧ (x.toNat c : Int) = z + 2 ^ 256 := by
  have hlo := (Serde.Input.number_bounds h hb).1
  have hm : z % 2 ^ 256 = z + 2 ^ 256 := by omega
  refine ⟨U256.ofNat c (z + 2 ^ 256).toNat, ?_, ?_⟩
  · rw [C38_u256_exact]
    refine Or.inr ⟨z, h, hb, ?_⟩
    rw [U256.toNat_ofNat_of_lt c (by omega)]; omega
  · rw [U256.toNat_ofNat_of_lt c (by omega)]; omega

example : (Input.i8 (-1)).number = some ((-1 : Int) : ℚ) ∧ ¬ (Input.i8 (-1)).beyondExact
    ∧ U256.deserialize_permissive dbg (.i8 (-1)) = .ok (.ok U256.MAX) :=
  ⟨by simp [Input.number], id, by decide +kernel⟩

end Ethnum
