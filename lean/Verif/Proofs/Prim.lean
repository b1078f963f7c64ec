import Verif.Basic

/-! Steps of symbolic execution for the primitive operations. -/

namespace Ethnum

@[simp] theorem ok_bind {α β : Type} (a : α) (f : α → Res β) : (Except.ok a >>= f : Res β) = f a := rfl
@[simp] theorem error_bind {α β : Type} (e : Fault) (f : α → Res β) :
    (Except.error e >>= f : Res β) = .error e := rfl
@[simp] theorem pure_eq_ok {α : Type} (a : α) : (pure a : Res α) = .ok a := rfl
@[simp] theorem throwPanic_bind {α β : Type} (p : Panic) (f : α → Res β) :
    (throwPanic p >>= f : Res β) = throwPanic p := rfl
@[simp] theorem throwUB_bind {α β : Type} (p : UB) (f : α → Res β) :
    (throwUB p >>= f : Res β) = throwUB p := rfl

theorem debugAssert_ok (c : Cfg) {b : Bool} (h : b = true) : debugAssert c b = .ok () := by
  simp [debugAssert, h]
theorem unreachableIf_ok {b : Bool} (h : b = false) : unreachableIf b = .ok () := by
  simp [unreachableIf, h]

variable (c : Cfg) {w : Nat}

theorem addC_ok {a b : BitVec w} (h : a.toNat + b.toNat < 2 ^ w) : addC c a b = .ok (a + b) := by
  simp [addC]; intros; omega
theorem subC_ok {a b : BitVec w} (h : b.toNat ≤ a.toNat) : subC c a b = .ok (a - b) := by
  simp [subC]; intros; omega
theorem mulC_ok {a b : BitVec w} (h : a.toNat * b.toNat < 2 ^ w) : mulC c a b = .ok (a * b) := by
  simp [mulC]; intros; omega

theorem addC_spec {a b : BitVec w} (h : a.toNat + b.toNat < 2 ^ w) :
    ∃ r, addC c a b = .ok r ∧ r.toNat = a.toNat + b.toNat :=
  ⟨a + b, addC_ok c h, by rw [BitVec.toNat_add, Nat.mod_eq_of_lt h]⟩
theorem subC_spec {a b : BitVec w} (h : b.toNat ≤ a.toNat) :
    ∃ r, subC c a b = .ok r ∧ r.toNat = a.toNat - b.toNat :=
  ⟨a - b, subC_ok c h, BitVec.toNat_sub_of_le h⟩
theorem mulC_spec {a b : BitVec w} (h : a.toNat * b.toNat < 2 ^ w) :
    ∃ r, mulC c a b = .ok r ∧ r.toNat = a.toNat * b.toNat :=
  ⟨a * b, mulC_ok c h, by rw [BitVec.toNat_mul, Nat.mod_eq_of_lt h]⟩

theorem shlC_ok {a : BitVec w} {n : U32} (h : n.toNat < w) : shlC c a n = .ok (a <<< n.toNat) := by
  simp [shlC, Nat.mod_eq_of_lt h]; intros; omega
theorem shrC_ok {a : BitVec w} {n : U32} (h : n.toNat < w) : shrC c a n = .ok (a >>> n.toNat) := by
  simp [shrC, Nat.mod_eq_of_lt h]; intros; omega
theorem sarC_ok {a : BitVec w} {n : U32} (h : n.toNat < w) :
    sarC c a n = .ok (a.sshiftRight n.toNat) := by
  simp [sarC, Nat.mod_eq_of_lt h]; intros; omega

theorem toNat_shl (a : BitVec w) (n : Nat) : (a <<< n).toNat = a.toNat * 2 ^ n % 2 ^ w := by
  rw [BitVec.toNat_shiftLeft, Nat.shiftLeft_eq]
theorem toNat_shr (a : BitVec w) (n : Nat) : (a >>> n).toNat = a.toNat / 2 ^ n := by
  rw [BitVec.toNat_ushiftRight, Nat.shiftRight_eq_div_pow]

end Ethnum
