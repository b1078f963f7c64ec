import Verif.Proofs.Words

/-! Base-256 digits. -/

namespace Ethnum

@[simp] theorem length_leBytes (k n : Nat) : (leBytes k n).length = k := by
  induction k generalizing n with
  | zero => rfl
  | succ k ih => rw [leBytes, List.length_cons, ih]

theorem leValue_lt (l : List U8) : leValue l < 256 ^ l.length := by
  induction l with
  | nil => decide
  | cons b l ih =>
    rw [leValue, List.length_cons, Nat.pow_succ]
    have hb : b.toNat < 256 := b.isLt
    omega

theorem leValue_leBytes (k n : Nat) : leValue (leBytes k n) = n % 256 ^ k := by
  induction k generalizing n with
  | zero => rw [leBytes, leValue, Nat.pow_zero, Nat.mod_one]
  | succ k ih =>
    rw [leBytes, leValue, ih, Nat.pow_succ, Nat.mul_comm (256 ^ k), Nat.mod_mul, BitVec.toNat_ofNat]

theorem leBytes_leValue (l : List U8) : leBytes l.length (leValue l) = l := by
  induction l with
  | nil => rfl
  | cons b l ih =>
    have hb : b.toNat < 256 := b.isLt
    rw [List.length_cons, leBytes, leValue]
    have h1 : (b.toNat + 256 * leValue l) / 256 = leValue l := by omega
    rw [h1, ih]
    congr 1
    apply BitVec.eq_of_toNat_eq
    rw [BitVec.toNat_ofNat]; omega

theorem leValue_inj {l m : List U8} (hl : l.length = m.length) (h : leValue l = leValue m) : l = m := by
  rw [← leBytes_leValue l, ← leBytes_leValue m, hl, h]

theorem leBytes_add (j k n : Nat) : leBytes (j + k) n = leBytes j n ++ leBytes k (n / 256 ^ j) := by
  induction j generalizing n with
  | zero => rw [Nat.zero_add, Nat.pow_zero, Nat.div_one]; rfl
  | succ j ih =>
    rw [Nat.add_right_comm, leBytes, leBytes, ih, List.cons_append, Nat.pow_succ, Nat.mul_comm (256 ^ j),
      Nat.div_div_eq_div_mul]

theorem leValue_append (l m : List U8) : leValue (l ++ m) = leValue l + 256 ^ l.length * leValue m := by
  induction l with
  | nil => simp [leValue]
  | cons b l ih =>
    rw [List.cons_append, leValue, leValue, ih, List.length_cons, Nat.pow_succ]
    rw [Nat.mul_add, ← Nat.mul_assoc, Nat.mul_comm 256 (256 ^ l.length), Nat.add_assoc]

theorem leBytes_mod (k n : Nat) : leBytes k (n % 256 ^ k) = leBytes k n := by
  apply leValue_inj (by simp)
  rw [leValue_leBytes, leValue_leBytes, Nat.mod_mod]

theorem getElem_leBytes (k n i : Nat) (h : i < (leBytes k n).length) :
    ((leBytes k n)[i]).toNat = n / 256 ^ i % 256 := by
  induction k generalizing n i with
  | zero => simp at h
  | succ k ih =>
    cases i with
    | zero => show (BitVec.ofNat 8 n).toNat = _; rw [BitVec.toNat_ofNat, Nat.pow_zero, Nat.div_one]
    | succ i =>
      have := ih (n / 256) i (by simpa using h)
      show ((leBytes k (n / 256))[i]'(by simpa using h)).toNat = _
      rw [this, Nat.div_div_eq_div_mul, Nat.pow_succ, Nat.mul_comm]

theorem two128 : (2 : Nat) ^ 128 = 256 ^ 16 := by decide
theorem two256 : (2 : Nat) ^ 256 = 256 ^ 32 := by decide

theorem toNat_ofNeBytes_aux (l : List U8) (h : l.length = 16) : (BitVec.ofNat 128 (leValue l)).toNat = leValue l := by
  rw [BitVec.toNat_ofNat, Nat.mod_eq_of_lt]
  have := leValue_lt l
  rw [h] at this
  rw [two128]; exact this

theorem toNat_swapBytes128 (x : U128) : (swapBytes128 x).toNat = leValue (leBytes 16 x.toNat).reverse := by
  unfold swapBytes128; rw [toNat_ofNeBytes_aux]; simp

theorem leBytes_swapBytes128 (x : U128) : leBytes 16 (swapBytes128 x).toNat = (leBytes 16 x.toNat).reverse := by
  rw [toNat_swapBytes128]
  have := leBytes_leValue (leBytes 16 x.toNat).reverse
  rwa [List.length_reverse, length_leBytes] at this

theorem leBytes_toNat_inj {x y : U128} (h : leBytes 16 x.toNat = leBytes 16 y.toNat) : x = y := by
  apply BitVec.eq_of_toNat_eq
  have := congrArg leValue h
  rw [leValue_leBytes, leValue_leBytes, ← two128] at this
  have h1 := x.isLt; have h2 := y.isLt
  omega

namespace U256
variable (c : Cfg)

theorem leBytes_toNat (x : U256) :
    leBytes 32 (x.toNat c) = leBytes 16 (x.low c).toNat ++ leBytes 16 (x.high c).toNat := by
  rw [show 32 = 16 + 16 from rfl, leBytes_add, high_toNat, low_toNat, two128, leBytes_mod]

theorem leBytes_inj {x y : U256} (h : leBytes 32 (x.toNat c) = leBytes 32 (y.toNat c)) : x = y := by
  apply toNat_inj c
  have := congrArg leValue h
  rw [leValue_leBytes, leValue_leBytes, ← two256] at this
  have h1 := toNat_lt c x; have h2 := toNat_lt c y
  omega

end U256
end Ethnum
