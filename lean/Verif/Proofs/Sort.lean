import Verif.SpecSort
import Verif.Proofs.Fmt
import Verif.Proofs.Bytes

/-
Lemmas for C70: digits of equal length compare in dictionary order as the numbers they denote.
-/

namespace Ethnum
namespace Dict

/-- The value of digits in base `B`, most significant first. -/
def bval (B : Nat) : List Nat → Nat
  | [] => 0
  | d :: l => d * B ^ l.length + bval B l

theorem bval_lt (B : Nat) (l : List Nat) (h : ∀ d ∈ l, d < B) : bval B l < B ^ l.length := by
  induction l with
  | nil => exact Nat.one_pos
  | cons d l ih =>
    have h1 := h d (List.mem_cons_self ..)
    have h2 := ih fun d' hd => h d' (List.mem_cons_of_mem _ hd)
    rw [bval, List.length_cons, Nat.pow_succ, Nat.mul_comm (B ^ _)]
    have : (d + 1) * B ^ l.length ≤ B * B ^ l.length := Nat.mul_le_mul_right _ h1
    rw [Nat.add_mul] at this
    omega

theorem bval_append (B : Nat) (l m : List Nat) : bval B (l ++ m) = bval B l * B ^ m.length + bval B m := by
  induction l with
  | nil => rw [List.nil_append, bval, Nat.zero_mul, Nat.zero_add]
  | cons d l ih =>
    rw [List.cons_append, bval, ih, bval, List.length_append, Nat.pow_add, Nat.add_mul, Nat.mul_assoc, Nat.add_assoc]

theorem bval_zeros (B z : Nat) (l : List Nat) : bval B (List.replicate z 0 ++ l) = bval B l := by
  induction z with
  | zero => rfl
  | succ z ih => rw [List.replicate_succ, List.cons_append, bval, ih, Nat.zero_mul, Nat.zero_add]

theorem compare_lt' {a b : Nat} (h : a < b) : compare a b = .lt := Nat.compare_eq_lt.mpr h
theorem compare_gt' {a b : Nat} (h : b < a) : compare a b = .gt := Nat.compare_eq_gt.mpr h

/-- Digits of one length, written with characters that sort like the digits. -/
theorem lex_digits (B : Nat) (e : Nat → Nat) (he : ∀ a b, a < b → b < B → e a < e b) (l m : List Nat)
    (hlen : l.length = m.length) (hl : ∀ d ∈ l, d < B) (hm : ∀ d ∈ m, d < B) :
    lex (l.map e) (m.map e) = compare (bval B l) (bval B m) := by
  induction l generalizing m with
  | nil =>
    cases m with
    | nil => rfl
    | cons _ _ => simp at hlen
  | cons a l ih =>
    cases m with
    | nil => simp at hlen
    | cons b m =>
      have ha := hl a (List.mem_cons_self ..)
      have hb := hm b (List.mem_cons_self ..)
      have hlen' : l.length = m.length := by simpa using hlen
      have hl' : ∀ d ∈ l, d < B := fun d hd => hl d (List.mem_cons_of_mem _ hd)
      have hm' : ∀ d ∈ m, d < B := fun d hd => hm d (List.mem_cons_of_mem _ hd)
      have h1 := bval_lt B l hl'
      have h2 := bval_lt B m hm'
      rw [List.map_cons, List.map_cons, lex, bval, bval]
      rw [hlen'] at h1 ⊢
      rcases Nat.lt_trichotomy a b with h | h | h
      · have : (a + 1) * B ^ m.length ≤ b * B ^ m.length := Nat.mul_le_mul_right _ h
        rw [Nat.add_mul] at this
        rw [if_pos (he a b h hb), compare_lt' (by omega)]
      · subst h
        rw [if_neg (Nat.lt_irrefl _), if_neg (Nat.lt_irrefl _), ih m hlen' hl' hm']
        rcases Nat.lt_trichotomy (bval B l) (bval B m) with h | h | h
        · rw [compare_lt' h, compare_lt' (by omega)]
        · rw [h]
          exact (Nat.compare_eq_eq.mpr rfl).trans (Nat.compare_eq_eq.mpr rfl).symm
        · rw [compare_gt' h, compare_gt' (by omega)]
      · have : (b + 1) * B ^ m.length ≤ a * B ^ m.length := Nat.mul_le_mul_right _ h
        rw [Nat.add_mul] at this
        have hba := he b a h ha
        rw [if_neg (by omega), if_pos hba, compare_gt' (by omega)]

theorem lex_append (p l m : List Nat) : lex (p ++ l) (p ++ m) = lex l m := by
  induction p with
  | nil => rfl
  | cons a p ih => rw [List.cons_append, List.cons_append, lex, if_neg (Nat.lt_irrefl _), if_neg (Nat.lt_irrefl _), ih]

theorem lex_refl (l : List Nat) : lex l l = .eq := by
  have := lex_append l [] []
  rwa [List.append_nil] at this

/-! ### Bytes -/

theorem bval_bytes (l : List U8) : bval 256 (byteCodes l.reverse) = leValue l := by
  induction l with
  | nil => rfl
  | cons b l ih =>
    rw [List.reverse_cons, byteCodes, List.map_append, bval_append, ← byteCodes, ih]
    show leValue l * 256 ^ 1 + (b.toNat * 256 ^ 0 + 0) = _
    rw [leValue]; omega

theorem byte_lt (l : List U8) : ∀ d ∈ byteCodes l, d < 256 := by
  intro d hd
  rw [byteCodes, List.mem_map] at hd
  obtain ⟨b, _, rfl⟩ := hd
  exact b.isLt

theorem lex_bytes (l m : List U8) (h : l.length = m.length) :
    lex (byteCodes l) (byteCodes m) = compare (leValue l.reverse) (leValue m.reverse) := by
  have := lex_digits 256 id (fun _ _ h _ => h) (byteCodes l) (byteCodes m) (by simpa [byteCodes] using h) (byte_lt l)
    (byte_lt m)
  rw [List.map_id, List.map_id] at this
  rw [this, ← bval_bytes, ← bval_bytes, List.reverse_reverse, List.reverse_reverse]

theorem length_byteCodes (l : List U8) : (byteCodes l).length = l.length := List.length_map ..

theorem length_flipTop (l : List U8) : (flipTop l).length = l.length := by cases l <;> rfl

theorem xor_80 (b : U8) : (b ^^^ 0x80).toNat = (b.toNat + 128) % 256 := by
  revert b; decide

/-- Inverting the top bit of the big-endian bytes of a signed number adds `2 ^ 255`. -/
theorem flipTop_value (s : Int) (h1 : -2 ^ 255 ≤ s) (h2 : s < 2 ^ 255) :
    ((leValue (flipTop (leBytes 32 (s % 2 ^ 256).toNat).reverse).reverse : Nat) : Int) = s + 2 ^ 255 := by
  generalize hN : (s % 2 ^ 256).toNat = N
  have hsplit : leBytes 32 N = leBytes 31 N ++ [BitVec.ofNat 8 (N / 256 ^ 31)] := by
    rw [show (32 : Nat) = 31 + 1 from rfl, leBytes_add]; rfl
  rw [hsplit, List.reverse_append, List.reverse_singleton, List.singleton_append, flipTop, List.reverse_cons,
    List.reverse_reverse, leValue_append, leValue_leBytes, length_leBytes]
  rw [show ∀ b : U8, leValue [b] = b.toNat + 256 * 0 from fun _ => rfl, xor_80, BitVec.toNat_ofNat]
  omega

/-! ### Numerals -/

/-- The characters of `t` are digits of base `B`, in an encoding that sorts like the digits, and denote `n`. -/
def Denotes (B : Nat) (e : Nat → Nat) (t : List Nat) (n : Nat) : Prop :=
  ∃ ds, t = ds.map e ∧ (∀ d ∈ ds, d < B) ∧ bval B ds = n

theorem Denotes.zeros {B : Nat} {e : Nat → Nat} {t : List Nat} {n : Nat} (hB : 0 < B) (z : Nat) (h : Denotes B e t n) :
    Denotes B e (List.replicate z (e 0) ++ t) n := by
  obtain ⟨ds, rfl, hd, hv⟩ := h
  refine ⟨List.replicate z 0 ++ ds, by rw [List.map_append, List.map_replicate], fun d h => ?_, by rw [bval_zeros, hv]⟩
  rcases List.mem_append.mp h with h | h
  · rw [(List.mem_replicate.mp h).2]; exact hB
  · exact hd d h

theorem Denotes.lex {B : Nat} {e : Nat → Nat} (he : ∀ a b, a < b → b < B → e a < e b) {t u : List Nat} {n m : Nat}
    (h : Denotes B e t n) (h' : Denotes B e u m) (hl : t.length = u.length) : lex t u = compare n m := by
  obtain ⟨ds, rfl, hd, rfl⟩ := h
  obtain ⟨es, rfl, hd', rfl⟩ := h'
  exact lex_digits B e he ds es (by simpa using hl) hd hd'

/-- A way of writing numbers whose texts have the fewest digits in base `B`. -/
structure Numerals (B : Nat) (e : Nat → Nat) (num : Nat → List Char) : Prop where
  one_lt : 1 < B
  mono : ∀ a b, a < b → b < B → e a < e b
  zero : e 0 = '0'.toNat
  step : ∀ n, charCodes (num n) = if n < B then [e n] else charCodes (num (n / B)) ++ [e (n % B)]
  length : ∀ n k, 0 < k → ((num n).length ≤ k ↔ n < B ^ k)

theorem Numerals.denotes {B : Nat} {e : Nat → Nat} {num : Nat → List Char} (N : Numerals B e num) (n : Nat) :
    Denotes B e (charCodes (num n)) n := by
  have h1 := N.one_lt
  induction n using Nat.strongRecOn with
  | ind n ih =>
    rw [N.step]
    split
    · rename_i h
      exact ⟨[n], rfl, by simpa using h, by simp [bval]⟩
    · rename_i h
      obtain ⟨ds, hds, hd, hv⟩ := ih (n / B) (Nat.div_lt_self (by omega) h1)
      refine ⟨ds ++ [n % B], by rw [hds, List.map_append]; rfl, fun d h => ?_, ?_⟩
      · rcases List.mem_append.mp h with h | h
        · exact hd d h
        · rw [List.mem_singleton.mp h]; exact Nat.mod_lt _ (by omega)
      · rw [bval_append, hv]
        show n / B * B ^ 1 + (n % B * B ^ 0 + 0) = n
        rw [Nat.pow_one, Nat.pow_zero, Nat.mul_one, Nat.add_zero, Nat.mul_comm]
        exact Nat.div_add_mod n B

theorem Numerals.length_pos {B : Nat} {e : Nat → Nat} {num : Nat → List Char} (N : Numerals B e num) (n : Nat) :
    0 < (num n).length := by
  have := congrArg List.length (N.step n)
  rw [charCodes, List.length_map] at this
  rw [this]
  split <;> simp

/-- The text of a number that is not padded with fill characters. -/
theorem Numerals.shortlex {B : Nat} {e : Nat → Nat} {num : Nat → List Char} (N : Numerals B e num) (n m w : Nat)
    (head t u : List Char)
    (ht : t = head ++ List.replicate (w - (head.length + (num n).length)) '0' ++ num n)
    (hu : u = head ++ List.replicate (w - (head.length + (num m).length)) '0' ++ num m) :
    shortlex (charCodes t) (charCodes u) = compare n m := by
  have h1 := N.one_lt
  have hlt : ∀ n m, (num n).length < (num m).length → n < m := fun n m h => by
    have hp := N.length_pos n
    have h1 := (N.length n _ hp).mp (Nat.le_refl _)
    have h2 := mt (N.length m _ hp).mpr (by omega)
    omega
  have hlt' := hlt n m
  have hgt' := hlt m n
  have lt_ : t.length = head.length + (w - (head.length + (num n).length)) + (num n).length := by
    rw [ht, List.length_append, List.length_append, List.length_replicate]
  have lu_ : u.length = head.length + (w - (head.length + (num m).length)) + (num m).length := by
    rw [hu, List.length_append, List.length_append, List.length_replicate]
  have lc : ∀ l : List Char, (charCodes l).length = l.length := fun l => List.length_map ..
  unfold Ethnum.shortlex
  rw [lc, lc]
  by_cases h : t.length < u.length
  · rw [if_pos h, compare_lt' (hlt' (by omega))]
  · rw [if_neg h]
    by_cases h' : u.length < t.length
    · rw [if_pos h', compare_gt' (hgt' (by omega))]
    · rw [if_neg h']
      have hc : ∀ z n, charCodes (head ++ List.replicate z '0' ++ num n)
          = charCodes head ++ (List.replicate z (e 0) ++ charCodes (num n)) := fun z n => by
        rw [charCodes, List.map_append, List.map_append, List.map_replicate, N.zero, List.append_assoc]; rfl
      rw [ht, hu, hc, hc, lex_append]
      refine Denotes.lex N.mono ((N.denotes n).zeros (by omega) _) ((N.denotes m).zeros (by omega) _) ?_
      rw [List.length_append, List.length_append, List.length_replicate, List.length_replicate, lc, lc]
      omega

theorem digitChar_mono : ∀ b < 16, ∀ a < b, (Nat.digitChar a).toNat < (Nat.digitChar b).toNat := by decide
theorem digitChar_upper_mono :
    ∀ b < 16, ∀ a < b, (Nat.digitChar a).toUpper.toNat < (Nat.digitChar b).toUpper.toNat := by decide

theorem numerals_dec : Numerals 10 (fun d => (Nat.digitChar d).toNat) (Nat.toDigits 10) where
  one_lt := by decide
  mono a b h hb := digitChar_mono b (by omega) a h
  zero := rfl
  step n := by
    rw [Nat.toDigits_eq_if (by decide)]
    split
    · rfl
    · rw [charCodes, List.map_append]; rfl
  length n k hk := Nat.length_toDigits_le_iff (by decide) hk

theorem numerals_radix (r : Radix) : Numerals r.b (fun d => (r.digitCh d).toNat) r.numeral where
  one_lt := r.one_lt_b
  mono a b h hb := by
    have := r.b_le
    cases r with
    | upperHex => exact digitChar_upper_mono b (by omega) a h
    | _ => exact digitChar_mono b (by omega) a h
  zero := by cases r <;> rfl
  step n := by
    rw [r.numeral_eq]
    split
    · rfl
    · rw [charCodes, List.map_append]; rfl
  length n k hk := r.length_numeral_le hk

end Dict
end Ethnum
