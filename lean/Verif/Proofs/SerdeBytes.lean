import Verif.Proofs.Serde
import Verif.Props.Bytes
import Verif.Props.Bits

namespace Ethnum
namespace Serde

theorem Order.length_arrange (o : Order) (l : List U8) : (o.arrange l).length = l.length := by
  cases o <;> simp [arrange]

theorem Order.arrange_arrange (o : Order) (l : List U8) : o.arrange (o.arrange l) = l := by
  cases o <;> simp [arrange]

theorem Order.value_lt (o : Order) (l : List U8) : o.value l < 256 ^ l.length := by
  have := leValue_lt (o.arrange l)
  rwa [length_arrange] at this

/-! ### Reading a sequence -/

theorem storeAt_ok {buf : Buf} {i : Nat} (b : U8) (h : i < buf.length) : storeAt buf i b = .ok (buf.set i (some b)) := by
  unfold storeAt; rw [if_pos h]

theorem take_set_succ {buf : Buf} {i : Nat} (b : U8) (h : i < buf.length) :
    (buf.set i (some b)).take (i + 1) = buf.take i ++ [some b] := by
  rw [List.take_add_one, List.take_set_of_le (by omega), List.getElem?_set_self (by omega)]; rfl

theorem readExactly_ok : ∀ (b : List U8) (i : Nat) (buf : Buf) (rest : List (Option U8)), buf.length = i + b.length →
    readExactly b.length i buf (b.map some ++ rest) = done (buf.take i ++ b.map some, rest) := by
  intro b
  induction b with
  | nil =>
    intro i buf rest h
    have hb : buf.take i = buf := List.take_of_length_le (by rw [h]; simp)
    simp [readExactly, hb]
  | cons a l ih =>
    intro i buf rest h
    rw [List.length_cons] at h
    show (storeAt buf i a >>= fun buf => readExactly l.length (i + 1) buf (l.map some ++ rest)) = _
    rw [storeAt_ok a (by omega), ok_bind, ih _ _ _ (by rw [List.length_set]; omega), take_set_succ a (by omega)]
    simp

theorem readExactly_short : ∀ (b : List U8) (n i : Nat) (buf : Buf), buf.length = i + n → b.length < n →
    readExactly n i buf (b.map some) = fail (.invalidLength (i + b.length)) := by
  intro b
  induction b with
  | nil =>
    intro n i buf h hn
    obtain ⟨k, rfl⟩ : ∃ k, n = k + 1 := ⟨n - 1, by rw [List.length_nil] at hn; omega⟩
    rfl
  | cons a l ih =>
    intro n i buf h hn
    rw [List.length_cons] at hn ⊢
    obtain ⟨k, rfl⟩ : ∃ k, n = k + 1 := ⟨n - 1, by omega⟩
    show (storeAt buf i a >>= fun buf => readExactly k (i + 1) buf (l.map some)) = _
    rw [storeAt_ok a (by omega), ok_bind, ih _ _ _ (by rw [List.length_set]; omega) (by omega)]
    rw [show i + 1 + l.length = i + (l.length + 1) by omega]

theorem readExactly_cases : ∀ (n i : Nat) (buf : Buf) (l : List (Option U8)), buf.length = i + n →
    (∃ (b : List U8) (rest : List (Option U8)), b.length = n ∧ l = b.map some ++ rest) ∨ (∃ e, readExactly n i buf l = fail e) := by
  intro n
  induction n with
  | zero => intro i buf l _; exact Or.inl ⟨[], l, rfl, rfl⟩
  | succ k ih =>
    intro i buf l h
    match l with
    | [] => exact Or.inr ⟨_, rfl⟩
    | none :: _ => exact Or.inr ⟨_, rfl⟩
    | some a :: l =>
      rcases ih (i + 1) (buf.set i (some a)) l (by rw [List.length_set]; omega) with ⟨b, rest, h1, h2⟩ | ⟨e, he⟩
      · exact Or.inl ⟨a :: b, rest, by rw [List.length_cons, h1], by rw [h2]; rfl⟩
      · refine Or.inr ⟨e, ?_⟩
        show (storeAt buf i a >>= fun buf => readExactly k (i + 1) buf l) = _
        rw [storeAt_ok a (by omega), ok_bind, he]

/-- What `visit_seq` does, according to the hint and the elements. -/
theorem bytes_visit_seq_cases {T : Type} (m : Bytes T) (hint : Option Nat) (l : List (Option U8)) :
    (∃ b : List U8, b.length = 32 ∧ l = b.map some ∧ (hint = none ∨ hint = some 32) ∧ bytes_visit_seq m hint l = done (m.from_bytes b))
    ∨ (∃ e, bytes_visit_seq m hint l = fail e
        ∧ ∀ b : List U8, l = b.map some → (hint = none ∨ hint = some b.length) → b.length ≠ 32 ∧ ∃ n, e = .invalidLength n) := by
  have bad : ∀ len, len ≠ 32 → hint = some len → (∃ e, bytes_visit_seq m hint l = fail e
        ∧ ∀ b : List U8, l = b.map some → (hint = none ∨ hint = some b.length) → b.length ≠ 32 ∧ ∃ n, e = .invalidLength n) := by
    rintro len hlen rfl
    refine ⟨.invalidLength len, ?_, ?_⟩
    · unfold bytes_visit_seq hintNot32; dsimp only; rw [if_pos hlen]
    · rintro b _ (h | h)
      · cases h
      · injection h with h; exact ⟨by omega, _, rfl⟩
  have good : (hint = none ∨ hint = some 32) → hintNot32 hint = none := by rintro (rfl | rfl) <;> rfl
  by_cases hh : hint = none ∨ hint = some 32
  · have hg := good hh
    unfold bytes_visit_seq
    rw [hg]
    dsimp only
    rcases readExactly_cases 32 0 (Buf.uninit 32) l (by rw [Buf.length_uninit]) with ⟨b, rest, h1, h2⟩ | ⟨e, he⟩
    · have hr := readExactly_ok b 0 (Buf.uninit 32) rest (by rw [Buf.length_uninit]; omega)
      rw [h1, ← h2] at hr
      rw [hr]
      unfold done
      rw [ok_bind]
      dsimp only
      match hrest : rest with
      | [] =>
        left
        refine ⟨b, h1, by simpa using h2, hh, ?_⟩
        show (Buf.init (List.take 0 (Buf.uninit 32) ++ b.map some) >>= _) = _
        rw [List.take_zero, List.nil_append, init_some, ok_bind]
      | none :: r =>
        right
        refine ⟨.input, rfl, fun b' h' _ => ?_⟩
        exfalso
        rw [h2] at h'
        have : none ∈ b'.map some := by rw [← h']; simp
        simp at this
      | some x :: r =>
        right
        refine ⟨.invalidLength 33, rfl, fun b' h' _ => ⟨?_, _, rfl⟩⟩
        have := congrArg List.length h'
        rw [h2] at this
        simp at this
        omega
    · right
      rw [he]
      unfold fail
      rw [ok_bind]
      refine ⟨e, rfl, fun b h' hb => ?_⟩
      rcases Nat.lt_or_ge b.length 32 with hb | hb
      · have := readExactly_short b 32 0 (Buf.uninit 32) (by rw [Buf.length_uninit]) hb
        rw [← h', he] at this
        unfold fail at this
        injection this with this
        injection this with this
        exact ⟨by omega, _, this⟩
      · exfalso
        have := readExactly_ok (b.take 32) 0 (Buf.uninit 32) ((b.drop 32).map some) (by
          rw [Buf.length_uninit, List.length_take]; omega)
        rw [← List.map_append, List.take_append_drop, ← h', List.length_take, Nat.min_eq_left hb, he] at this
        unfold fail done at this
        injection this with this
        injection this
  · right
    cases hint with
    | none => exact absurd (Or.inl rfl) hh
    | some len => exact bad len (fun h => hh (Or.inr (by rw [h]))) rfl

theorem readUpTo_ok : ∀ (b : List U8) (i : Nat) (buf : Buf) (rest : List (Option U8)), buf.length = 32 → i + b.length ≤ 32 →
    (rest = [] ∨ i + b.length = 32) →
    readUpTo i buf (b.map some ++ rest) = done (buf.take i ++ b.map some ++ buf.drop (i + b.length), i + b.length, rest) := by
  intro b
  induction b with
  | nil =>
    intro i buf rest h1 h2 h3
    simp only [List.map_nil, List.nil_append, List.length_nil, Nat.add_zero] at h2 h3 ⊢
    unfold readUpTo
    rcases h3 with rfl | rfl
    · split <;> simp
    · rw [if_neg (by omega)]; simp
  | cons a l ih =>
    intro i buf rest h1 h2 h3
    rw [List.length_cons] at h2 h3
    unfold readUpTo
    rw [if_pos (by omega)]
    show (storeAt buf i a >>= fun buf => readUpTo (i + 1) buf (l.map some ++ rest)) = _
    rw [storeAt_ok a (by omega), ok_bind, ih _ _ _ (by rw [List.length_set]; omega) (by omega)
      (by rcases h3 with h | h; exact Or.inl h; exact Or.inr (by omega)), take_set_succ a (by omega),
      List.drop_set_of_lt (by omega)]
    simp [show i + 1 + l.length = i + (l.length + 1) by omega]

theorem readUpTo_cases : ∀ (l : List (Option U8)) (i : Nat) (buf : Buf), buf.length = 32 → i ≤ 32 →
    (∃ (b : List U8) (rest : List (Option U8)), l = b.map some ++ rest ∧ i + b.length ≤ 32 ∧ (rest = [] ∨ i + b.length = 32))
    ∨ (none ∈ l ∧ readUpTo i buf l = fail .input) := by
  intro l
  induction l with
  | nil => intro i buf _ h; exact Or.inl ⟨[], [], rfl, by simpa using h, Or.inl rfl⟩
  | cons a l ih =>
    intro i buf h1 h2
    rcases Nat.lt_or_ge i 32 with hi | hi
    · cases a with
      | none =>
        right
        refine ⟨List.mem_cons_self .., ?_⟩
        unfold readUpTo; rw [if_pos hi]
      | some a =>
        rcases ih (i + 1) (buf.set i (some a)) (by rw [List.length_set]; omega) (by omega) with ⟨b, rest, k1, k2, k3⟩ | ⟨k1, k2⟩
        · refine Or.inl ⟨a :: b, rest, by rw [k1]; rfl, by rw [List.length_cons]; omega, ?_⟩
          rcases k3 with h | h
          · exact Or.inl h
          · exact Or.inr (by rw [List.length_cons]; omega)
        · right
          refine ⟨List.mem_cons_of_mem _ k1, ?_⟩
          unfold readUpTo
          rw [if_pos hi]
          show (storeAt buf i a >>= fun buf => readUpTo (i + 1) buf l) = _
          rw [storeAt_ok a (by omega), ok_bind, k2]
    · exact Or.inl ⟨[], a :: l, rfl, by simpa using h2, Or.inr (by simp; omega)⟩

/-- What the compressed `visit_seq` does, according to the hint and the elements. -/
theorem compressed_visit_seq_cases (c : Cfg) {T : Type} (o : Order) (m : Bytes T) (k : CompressedBytes T) (hint : Option Nat)
    (l : List (Option U8)) :
    (∃ b : List U8, b.length ≤ 32 ∧ l = b.map some ∧ (∀ n, hint = some n → n ≤ 32)
        ∧ compressed_visit_seq c o m k hint l = compressed_visit_bytes c o m k b)
    ∨ (∃ e, compressed_visit_seq c o m k hint l = fail e
        ∧ ∀ b : List U8, l = b.map some → (hint = none ∨ hint = some b.length) → 32 < b.length ∧ ∃ n, e = .invalidLength n) := by
  by_cases hh : ∀ n, hint = some n → n ≤ 32
  · have hg : hintOver32 hint = none := by
      cases hint with
      | none => rfl
      | some n => have := hh n rfl; unfold hintOver32; dsimp only; rw [if_neg (by omega)]
    unfold compressed_visit_seq
    rw [hg]
    dsimp only
    rcases readUpTo_cases l 0 (Buf.uninit 32) (by rw [Buf.length_uninit]) (by omega) with ⟨b, rest, h1, h2, h3⟩ | ⟨h1, h2⟩
    · have hr := readUpTo_ok b 0 (Buf.uninit 32) rest (by rw [Buf.length_uninit]) h2 h3
      rw [← h1] at hr
      rw [hr]
      unfold done
      rw [ok_bind]
      dsimp only
      rw [Nat.zero_add] at h2 h3 ⊢
      have fin : (sliceTo (List.take 0 (Buf.uninit 32) ++ b.map some ++ List.drop b.length (Buf.uninit 32)) b.length >>= fun part =>
          Buf.init part >>= fun bytes => compressed_visit_bytes c o m k bytes) = compressed_visit_bytes c o m k b := by
        unfold sliceTo
        rw [if_pos (by simp [Buf.length_uninit]), ok_bind, List.take_zero, List.nil_append, List.take_append_of_le_length (by simp),
          List.take_of_length_le (by simp), init_some, ok_bind]
      match hrest : rest with
      | [] =>
        left
        refine ⟨b, h2, by simpa using h1, hh, ?_⟩
        rw [show (if b.length = 32 then hasNext [] else Except.ok false) = .ok false by split <;> rfl]
        exact fin
      | none :: r =>
        right
        refine ⟨.input, ?_, fun b' h' _ => ?_⟩
        · rw [if_pos (by rcases h3 with h | h; cases h; exact h)]; rfl
        · exfalso
          rw [h1] at h'
          have : none ∈ b'.map some := by rw [← h']; simp
          simp at this
      | some x :: r =>
        right
        have h32 : b.length = 32 := by rcases h3 with h | h; cases h; exact h
        refine ⟨.invalidLength 33, ?_, fun b' h' _ => ⟨?_, _, rfl⟩⟩
        · rw [if_pos h32]; rfl
        · have := congrArg List.length h'
          rw [h1] at this
          simp at this
          omega
    · right
      rw [h2]
      unfold fail
      rw [ok_bind]
      refine ⟨.input, rfl, fun b h' _ => ?_⟩
      exfalso
      rw [h'] at h1
      simp at h1
  · right
    push Not at hh
    obtain ⟨n, rfl, hn⟩ := hh
    refine ⟨.invalidLength n, ?_, ?_⟩
    · unfold compressed_visit_seq hintOver32; dsimp only; rw [if_pos hn]
    · rintro b _ (h | h)
      · cases h
      · injection h with h; exact ⟨by omega, _, rfl⟩

/-! ### Byte strings as numbers -/

theorem leValue_zeros (n : Nat) : leValue (List.replicate n 0) = 0 := by
  induction n with
  | zero => rfl
  | succ k ih => rw [List.replicate_succ]; unfold leValue; rw [ih]; rfl

theorem leValue_ones (n : Nat) : leValue (List.replicate n 0xff) + 1 = 256 ^ n := by
  induction n with
  | zero => rfl
  | succ k ih =>
    rw [List.replicate_succ]; unfold leValue
    rw [show (0xff : U8).toNat = 255 by rfl, pow_succ]; omega

theorem take_leBytes (n N : Nat) (h : n ≤ 32) : (leBytes 32 N).take n = leBytes n N := by
  rw [show 32 = n + (32 - n) by omega, leBytes_add, List.take_left' (by simp)]

/-- The array that is decoded, least significant byte first. -/
theorem place_eq (c : Cfg) (o : Order) (e : U8) (v : List U8) (h : v.length ≤ 32) :
    place c o (List.replicate 32 e) v = .ok (o.arrange (o.arrange v ++ List.replicate (32 - v.length) e)) := by
  have hs : usizeSub c 32 v.length = .ok (32 - v.length) := by unfold usizeSub; rw [if_neg (by omega)]
  cases o with
  | le =>
    unfold place sliceTo
    dsimp only
    rw [if_pos (by simpa using h), ok_bind, if_pos (by simp; omega), List.drop_replicate]; rfl
  | be =>
    unfold place sliceFrom
    dsimp only
    rw [hs, ok_bind, if_pos (by simp), ok_bind, if_pos (by simp; omega), List.take_replicate]
    simp [Order.arrange]

theorem keep_eq (c : Cfg) (o : Order) (N l : Nat) (h : l ≤ 32) :
    keep c o (o.arrange (leBytes 32 N)) l = .ok (o.arrange (leBytes (32 - l) N)) := by
  have hs : usizeSub c 32 l = .ok (32 - l) := by unfold usizeSub; rw [if_neg (by omega)]
  cases o with
  | le =>
    show (usizeSub c 32 l >>= fun e => sliceTo (leBytes 32 N) e) = .ok (leBytes (32 - l) N)
    unfold sliceTo
    rw [hs, ok_bind, if_pos (by simp), take_leBytes _ _ (by omega)]
  | be =>
    show sliceFrom (leBytes 32 N).reverse l = .ok (leBytes (32 - l) N).reverse
    unfold sliceFrom
    rw [if_pos (by simpa using h)]
    congr 1
    rw [List.drop_reverse, length_leBytes, take_leBytes _ _ (by omega)]

end Serde
end Ethnum
