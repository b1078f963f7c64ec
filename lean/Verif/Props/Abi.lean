import Verif.SpecAbi
import Verif.Props.Repr
import Verif.Props.Bytes
import Verif.Props.Convert

/-
C80 call data: arguments of contract calls, written and read with 256-bit words.
-/

namespace Ethnum
open Abi

/-! ### Lemmas -/

private theorem ptr_le (c : Cfg) : 2 ^ c.ptr.bits ≤ 2 ^ 64 := by
  cases c.ptr <;> decide

private theorem to_be_length (c : Cfg) (x : U256) (s : I256) : (x.to_be_bytes c).length = 32 ∧ (s.to_be_bytes c).length = 32 := by
  rw [(C22_to_bytes c x s).2.1, (C22_to_bytes c x s).2.2.2.2.1]
  simp

private theorem usize_toInt (c : Cfg) (v : PrimTy.Val c .usize) : PrimTy.usize.toInt v = (v.toNat : ℤ) := rfl

private theorem word_eq (c : Cfg) {n : ℕ} (h : n < 2 ^ c.ptr.bits) : word c n = (leBytes 32 n).reverse := by
  unfold word
  rw [(C22_to_bytes c _ (I256.ONE c)).2.1]
  have := (C24_as_wide c .usize (BitVec.ofNat _ n) U256.ZERO I256.ZERO).1
  rw [usize_toInt, BitVec.toNat_ofNat, Nat.mod_eq_of_lt (show n < 2 ^ PrimTy.bits c .usize from h)] at this
  have := ptr_le c
  congr 2
  omega

private theorem word_length (c : Cfg) (n : ℕ) : (word c n).length = 32 := (to_be_length c _ (I256.ONE c)).1

private theorem take_length {d : List U8} {i : ℕ} (h : i + 32 ≤ d.length) : ((d.drop i).take 32).length = 32 := by
  rw [List.length_take, List.length_drop]; omega

private theorem get_some (c : Cfg) {d : List U8} (hd : d.length < 2 ^ c.ptr.bits) {i n : ℕ} (s : List U8) :
    Abi.get c d i n = some s ↔ i + n ≤ d.length ∧ s = (d.drop i).take n := by
  unfold Abi.get
  split
  · exact ⟨fun h => (by cases h), fun h => (by omega)⟩
  · split
    · exact ⟨fun h => (by cases h), fun h => (by omega)⟩
    · rw [Option.some.injEq]
      exact ⟨fun h => ⟨by omega, h.symm⟩, fun h => h.2.symm⟩

private theorem maxVal_usize (c : Cfg) : PrimTy.usize.maxVal c = 2 ^ c.ptr.bits - 1 := by
  cases h : c.ptr <;> simp [PrimTy.maxVal, PrimTy.signed, PrimTy.bits, h]

private theorem readLen_some (c : Cfg) {d : List U8} (hd : d.length < 2 ^ c.ptr.bits) {i n : ℕ} :
    readLen c d i = some n ↔ i + 32 ≤ d.length ∧ n = num d i ∧ n < 2 ^ c.ptr.bits := by
  unfold readLen
  rw [Option.bind_eq_bind, Option.bind_eq_some_iff]
  constructor
  · rintro ⟨s, hs, h⟩
    obtain ⟨h1, rfl⟩ := (get_some c hd s).1 hs
    rw [Option.bind_eq_bind, Option.bind_eq_some_iff] at h
    obtain ⟨v, hv, h⟩ := h
    have e := ((C23_prim_try_from_u256 c .usize _).1 v).1 hv
    rw [(C22_from_bytes c _ (take_length h1)).2.1] at e
    have hn : (PrimTy.usize.toInt v).toNat = n := by simpa using h
    have hlt : v.toNat < 2 ^ c.ptr.bits := v.isLt
    rw [usize_toInt] at e hn
    unfold num
    exact ⟨h1, by omega, by omega⟩
  · rintro ⟨h1, h2, h3⟩
    refine ⟨_, (get_some c hd _).2 ⟨h1, rfl⟩, ?_⟩
    rw [Option.bind_eq_bind, Option.bind_eq_some_iff]
    have e := (C22_from_bytes c _ (take_length h1)).2.1
    refine ⟨BitVec.ofNat _ n, ?_, ?_⟩
    · apply ((C23_prim_try_from_u256 c .usize _).1 _).2
      rw [e, usize_toInt, BitVec.toNat_ofNat, Nat.mod_eq_of_lt (show n < 2 ^ PrimTy.bits c .usize from h3), h2]
      rfl
    · show some _ = some _
      rw [usize_toInt, BitVec.toNat_ofNat, Nat.mod_eq_of_lt (show n < 2 ^ PrimTy.bits c .usize from h3)]
      rfl

private theorem decodeArg_some (c : Cfg) {d : List U8} (hd : d.length < 2 ^ c.ptr.bits) (i : ℕ) (t : Ty) (a : Arg) :
    decodeArg c d i t = some a ↔ a.ty = t ∧ Says c d i a := by
  cases t with
  | uint =>
    unfold decodeArg
    rw [Option.bind_eq_bind, Option.bind_eq_some_iff]
    constructor
    · rintro ⟨s, hs, h⟩
      obtain ⟨h1, rfl⟩ := (get_some c hd s).1 hs
      injection h with h
      subst h
      exact ⟨rfl, h1, (C22_from_bytes c _ (take_length h1)).2.1⟩
    · rintro ⟨ht, hs⟩
      cases a with
      | uint x =>
        obtain ⟨h1, h2⟩ := hs
        refine ⟨_, (get_some c hd _).2 ⟨h1, rfl⟩, ?_⟩
        show some _ = some _
        congr 2
        apply U256.toNat_inj c
        rw [h2, (C22_from_bytes c _ (take_length h1)).2.1]; rfl
      | int x => cases ht
      | bytes x => cases ht
  | int =>
    have key : ∀ {i}, i + 32 ≤ d.length → ((I256.from_be_bytes c ((d.drop i).take 32)).toInt c) % 2 ^ 256 = num d i := fun {i} h1 => by
      rw [(C22_from_bytes c _ (take_length h1)).2.2.2.2.1]
      have h2 := U256.toNat_lt c (U256.from_be_bytes c ((d.drop i).take 32))
      rw [(C22_from_bytes c _ (take_length h1)).2.1] at h2
      unfold num
      split <;> omega
    unfold decodeArg
    rw [Option.bind_eq_bind, Option.bind_eq_some_iff]
    constructor
    · rintro ⟨s, hs, h⟩
      obtain ⟨h1, rfl⟩ := (get_some c hd s).1 hs
      injection h with h
      subst h
      exact ⟨rfl, h1, key h1⟩
    · rintro ⟨ht, hs⟩
      cases a with
      | int x =>
        obtain ⟨h1, h2⟩ := hs
        refine ⟨_, (get_some c hd _).2 ⟨h1, rfl⟩, ?_⟩
        show some _ = some _
        congr 2
        apply I256.toNat_inj c
        have e1 := I256.toNat_toInt c x
        have e2 := I256.toNat_toInt c (I256.from_be_bytes c ((d.drop i).take 32))
        rw [key h1, ← h2, ← e1] at e2
        omega
      | uint x => cases ht
      | bytes x => cases ht
  | bytes =>
    unfold decodeArg
    dsimp only
    rw [Option.bind_eq_bind, Option.bind_eq_some_iff]
    constructor
    · rintro ⟨o, ho, h⟩
      rw [Option.bind_eq_bind, Option.bind_eq_some_iff] at h
      obtain ⟨n, hn, h⟩ := h
      rw [Option.bind_eq_some_iff] at h
      obtain ⟨s, hs, h⟩ := h
      injection h with h
      subst h
      obtain ⟨h1, rfl, -⟩ := (readLen_some c hd).1 ho
      obtain ⟨h2, rfl, -⟩ := (readLen_some c hd).1 hn
      obtain ⟨h3, rfl⟩ := (get_some c hd s).1 hs
      exact ⟨rfl, h1, h3, rfl⟩
    · rintro ⟨ht, hs⟩
      cases a with
      | bytes b =>
        obtain ⟨h1, h2, h3⟩ := hs
        refine ⟨num d i, (readLen_some c hd).2 ⟨h1, rfl, by omega⟩, ?_⟩
        rw [Option.bind_eq_bind, Option.bind_eq_some_iff]
        refine ⟨num d (num d i), (readLen_some c hd).2 ⟨by omega, rfl, by omega⟩, ?_⟩
        rw [Option.bind_eq_some_iff]
        exact ⟨b, (get_some c hd b).2 ⟨h2, h3⟩, rfl⟩
      | int x => cases ht
      | uint x => cases ht

private theorem prefix_append {s t d : List U8} {i : ℕ} (h : s ++ t <+: d.drop i) :
    s <+: d.drop i ∧ t <+: d.drop (i + s.length) := by
  obtain ⟨r, hr⟩ := h
  refine ⟨⟨t ++ r, by rw [← hr, List.append_assoc]⟩, ⟨r, ?_⟩⟩
  rw [← List.drop_drop, ← hr, List.append_assoc, List.drop_left]

private theorem prefix_le {s d : List U8} {i : ℕ} (h : s <+: d.drop i) (h0 : 0 < s.length) : i + s.length ≤ d.length := by
  have := h.length_le
  rw [List.length_drop] at this
  omega

private theorem prefix_take {s d : List U8} {i : ℕ} (h : s <+: d.drop i) : (d.drop i).take s.length = s := by
  obtain ⟨r, hr⟩ := h
  rw [← hr, List.take_left]

private theorem num_of_prefix {d : List U8} {i n : ℕ} (hn : n < 2 ^ 256) (h : (leBytes 32 n).reverse <+: d.drop i) :
    i + 32 ≤ d.length ∧ num d i = n := by
  have hl : ((leBytes 32 n).reverse).length = 32 := by simp
  have h1 := prefix_le h (by omega)
  have h2 := prefix_take h
  rw [hl] at h1 h2
  refine ⟨h1, ?_⟩
  unfold num
  rw [h2, List.reverse_reverse, leValue_leBytes, show (256 : ℕ) ^ 32 = 2 ^ 256 by decide, Nat.mod_eq_of_lt hn]

private theorem heads_length (c : Cfg) (l : List Arg) : ∀ off, (parts c off l).1.length = 32 * l.length := by
  induction l with
  | nil => intro off; rfl
  | cons a l ih =>
    intro off
    cases a with
    | uint x =>
      unfold parts
      rw [List.length_append, ih, (to_be_length c x (I256.ONE c)).1, List.length_cons]; omega
    | int x =>
      unfold parts
      rw [List.length_append, ih, (to_be_length c U256.ZERO x).2, List.length_cons]; omega
    | bytes b =>
      unfold parts
      dsimp only
      rw [List.length_append, ih, word_length, List.length_cons]; omega

/-! ### The property -/

/-- C80: reading call data. On any bytes, the program gives exactly the arguments that the bytes say they have, with offsets and lengths taken as
numbers below `2^256`; if they do not say so it gives none. In particular an offset or length beyond the data is never reduced to a smaller one,
whatever the width of `usize`. -/
theorem C80_decode (c : Cfg) (d : List U8) (hd : d.length < 2 ^ c.ptr.bits) (ts : List Ty) (i : ℕ) (l : List Arg) :
    decode c d i ts = some l
      ↔ l.map Arg.ty = ts ∧ ∀ k (h : k < l.length), Says c d (i + 32 * k) l[k] := by
  induction ts generalizing i l with
  | nil =>
    unfold decode
    constructor
    · intro h; injection h with h; subst h; exact ⟨rfl, fun k h => (by cases h)⟩
    · rintro ⟨h, -⟩
      rw [List.map_eq_nil_iff] at h; rw [h]
  | cons t ts ih =>
    unfold decode
    rw [Option.bind_eq_bind, Option.bind_eq_some_iff]
    constructor
    · rintro ⟨a, ha, h⟩
      rw [Option.bind_eq_bind, Option.bind_eq_some_iff] at h
      obtain ⟨r, hr, h⟩ := h
      injection h with h
      subst h
      obtain ⟨h1, h2⟩ := (decodeArg_some c hd i t a).1 ha
      obtain ⟨h3, h4⟩ := (ih (i + 32) r).1 hr
      refine ⟨by rw [List.map_cons, h1, h3], ?_⟩
      intro k hk
      cases k with
      | zero => exact h2
      | succ k =>
        have := h4 k (by simpa using hk)
        rw [List.getElem_cons_succ, show i + 32 * (k + 1) = i + 32 + 32 * k by omega]
        exact this
    · rintro ⟨h1, h2⟩
      cases l with
      | nil => cases h1
      | cons a r =>
        rw [List.map_cons, List.cons.injEq] at h1
        refine ⟨a, (decodeArg_some c hd i t a).2 ⟨h1.1, h2 0 (by simp)⟩, ?_⟩
        rw [Option.bind_eq_bind, Option.bind_eq_some_iff]
        refine ⟨r, (ih (i + 32) r).2 ⟨h1.2, fun k hk => ?_⟩, rfl⟩
        have := h2 (k + 1) (by simpa using hk)
        rw [List.getElem_cons_succ, show i + 32 * (k + 1) = i + 32 + 32 * k by omega] at this
        exact this

/-- the data of the examples: `f(uint256, bytes)` with 7 and the two bytes 1, 2 -/
private def sample : List Arg := [.uint (U256.new dbg 7), .bytes [1, 2]]

example : decode dbg (encode dbg sample) 0 [.uint, .bytes] = some sample ∧ (encode dbg sample).length = 128 := by decide +kernel
/-- The offset `2^64 + 64` is refused on a 64-bit target. -/
example : decode dbg ((U256.new dbg 7).to_be_bytes dbg ++ (U256.ofNat dbg (2 ^ 64 + 64)).to_be_bytes dbg ++ word dbg 2 ++ List.replicate 32 0) 0
    [.uint, .bytes] = none := by decide +kernel

private theorem says_parts (c : Cfg) {d : List U8} (hd : d.length < 2 ^ c.ptr.bits) (l : List Arg) : ∀ off i,
    (parts c off l).1 <+: d.drop i → (parts c off l).2 <+: d.drop off →
    ∀ k (h : k < l.length), Says c d (i + 32 * k) l[k] := by
  have hp := ptr_le c
  induction l with
  | nil => intro off i _ _ k h; cases h
  | cons a l ih =>
    intro off i hh ht k hk
    cases a with
    | uint x =>
      unfold parts at hh ht
      obtain ⟨h1, h2⟩ := prefix_append hh
      rw [(to_be_length c x (I256.ONE c)).1] at h2
      rw [(C22_to_bytes c x (I256.ONE c)).2.1] at h1
      cases k with
      | zero =>
        obtain ⟨e1, e2⟩ := num_of_prefix (U256.toNat_lt c x) h1
        exact ⟨e1, e2.symm⟩
      | succ k =>
        have := ih off (i + 32) h2 ht k (by simpa using hk)
        rw [List.getElem_cons_succ, show i + 32 * (k + 1) = i + 32 + 32 * k by omega]
        exact this
    | int x =>
      unfold parts at hh ht
      obtain ⟨h1, h2⟩ := prefix_append hh
      rw [(to_be_length c U256.ZERO x).2] at h2
      rw [(C22_to_bytes c U256.ZERO x).2.2.2.2.1] at h1
      cases k with
      | zero =>
        obtain ⟨e1, e2⟩ := num_of_prefix (by omega) h1
        refine ⟨e1, ?_⟩
        show _ = ((num d i : ℕ) : ℤ)
        rw [e2]; omega
      | succ k =>
        have := ih off (i + 32) h2 ht k (by simpa using hk)
        rw [List.getElem_cons_succ, show i + 32 * (k + 1) = i + 32 + 32 * k by omega]
        exact this
    | bytes b =>
      unfold parts at hh ht
      dsimp only at hh ht
      obtain ⟨h1, h2⟩ := prefix_append hh
      obtain ⟨h3, h4⟩ := prefix_append ht
      rw [word_length] at h2
      cases k with
      | zero =>
        unfold tail at h3
        have hl := prefix_le h3 (by rw [List.length_append, List.length_append, word_length]; omega)
        rw [List.length_append, List.length_append, word_length] at hl
        obtain ⟨h5, -⟩ := prefix_append h3
        obtain ⟨h6, h7⟩ := prefix_append h5
        rw [word_length] at h7
        rw [word_eq c (by omega)] at h1 h6
        obtain ⟨e1, e2⟩ := num_of_prefix (by omega) h1
        obtain ⟨e3, e4⟩ := num_of_prefix (by omega) h6
        show i + 32 ≤ d.length ∧ num d i + 32 + num d (num d i) ≤ d.length ∧ b = (d.drop (num d i + 32)).take (num d (num d i))
        rw [e2, e4]
        exact ⟨e1, by omega, (prefix_take h7).symm⟩
      | succ k =>
        have := ih (off + (tail c b).length) (i + 32) h2 h4 k (by simpa using hk)
        rw [List.getElem_cons_succ, show i + 32 * (k + 1) = i + 32 + 32 * k by omega]
        exact this

/-- C80: what is written is read back, for every list of arguments whose encoding fits in memory; the encoding is 32 bytes for a number, and 64
bytes and the bytes, rounded up to a multiple of 32, for `bytes`. -/
theorem C80_round_trip (c : Cfg) (l : List Arg) :
    ((encode c l).length < 2 ^ c.ptr.bits → decode c (encode c l) 0 (l.map Arg.ty) = some l)
    ∧ (encode c l).length = (l.map (fun a => match a with
        | .bytes b => 64 + (b.length + 31) / 32 * 32
        | _ => 32)).sum := by
  constructor
  · intro hd
    refine (C80_decode c _ hd _ 0 l).2 ⟨rfl, ?_⟩
    have := says_parts c hd l (32 * l.length) 0
    apply this
    · rw [List.drop_zero]; exact ⟨_, rfl⟩
    · unfold encode
      rw [List.drop_left' (heads_length c l (32 * l.length))]
  · have key : ∀ off, (parts c off l).1.length + (parts c off l).2.length = (l.map (fun a => match a with
        | .bytes b => 64 + (b.length + 31) / 32 * 32
        | _ => 32)).sum := by
      induction l with
      | nil => intro off; rfl
      | cons a l ih =>
        intro off
        rw [List.map_cons, List.sum_cons]
        cases a with
        | uint x =>
          have := ih off
          unfold parts
          rw [List.length_append, (to_be_length c x (I256.ONE c)).1]
          dsimp only
          omega
        | int x =>
          have := ih off
          unfold parts
          rw [List.length_append, (to_be_length c U256.ZERO x).2]
          dsimp only
          omega
        | bytes b =>
          have := ih (off + (tail c b).length)
          unfold parts
          dsimp only
          have ht : (tail c b).length = 32 + (b.length + 31) / 32 * 32 := by
            unfold tail
            rw [List.length_append, List.length_append, word_length, List.length_replicate]
            omega
          rw [List.length_append, List.length_append, word_length]
          omega
    unfold encode
    rw [List.length_append, key]

example : (encode dbg sample).length < 2 ^ dbg.ptr.bits := by decide +kernel

end Ethnum
