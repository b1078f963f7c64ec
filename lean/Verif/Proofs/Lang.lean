import Verif.SpecLang
import Verif.Proofs.MemAssign
import Verif.Props.Convert
import Verif.Props.Pow
import Verif.Props.Order
import Verif.Props.Fmt
import Verif.Props.Parse
import Verif.Props.Bits

/-
Each expression, condition and statement of `SpecLang`, computed with the crate, against its meaning over the integers.
-/

namespace Ethnum
namespace Lang

variable {c : Cfg} {k j : Kind}

/-- A computation gives the number, or panics if there is none. -/
def Gives (c : Cfg) (k : Kind) (e : Res k.Val) : Option Int → Prop
  | some z => ∃ v, e = .ok v ∧ k.num c v = z
  | none => ∃ p, e = .error (.panic p)

/-- A computation of anything else. -/
def GivesA {α : Type} (e : Res α) : Option α → Prop
  | some a => e = .ok a
  | none => ∃ p, e = .error (.panic p)

theorem gives_ok {v : k.Val} {z : Int} (h : k.num c v = z) : Gives c k (.ok v) (some z) := ⟨v, rfl, h⟩

theorem gives_bind {e : Res k.Val} {z : Option Int} {f : k.Val → Res j.Val} {g : Int → Option Int}
    (h : Gives c k e z) (hf : ∀ v, Gives c j (f v) (g (k.num c v))) : Gives c j (e >>= f) (z >>= g) := by
  cases z with
  | some z => obtain ⟨v, rfl, rfl⟩ := h; exact hf v
  | none => obtain ⟨p, rfl⟩ := h; exact ⟨p, rfl⟩

theorem givesA_bind {α : Type} {e : Res k.Val} {z : Option Int} {f : k.Val → Res α} {g : Int → Option α}
    (h : Gives c k e z) (hf : ∀ v, GivesA (f v) (g (k.num c v))) : GivesA (e >>= f) (z >>= g) := by
  cases z with
  | some z => obtain ⟨v, rfl, rfl⟩ := h; exact hf v
  | none => obtain ⟨p, rfl⟩ := h; exact ⟨p, rfl⟩

theorem givesA_bindA {α β : Type} {e : Res α} {z : Option α} {f : α → Res β} {g : α → Option β}
    (h : GivesA e z) (hf : ∀ v, GivesA (f v) (g v)) : GivesA (e >>= f) (z >>= g) := by
  cases z with
  | some z => subst h; exact hf z
  | none => obtain ⟨p, rfl⟩ := h; exact ⟨p, rfl⟩

theorem gives_u {e : Res U256} {z : Option Int} (h : GivesU c e z) : Gives c .u e z := by cases z <;> exact h
theorem gives_i {e : Res I256} {z : Option Int} (h : GivesI c e z) : Gives c .i e z := by cases z <;> exact h

theorem gives_same {e e' : Res k.Val} {z : Option Int} (h : SameEffect e e') (hg : Gives c k e z) : Gives c k e' z := by
  cases z with
  | some z => obtain ⟨v, h1, h2⟩ := hg; exact ⟨v, (h.1 v).mp h1, h2⟩
  | none => exact h.2.mp hg

section Ops
attribute [local irreducible] Assign.result

theorem evalAssign_gives (o : Assign) (a b : k.Val) :
    Gives c k (o.evalAssign c k a b) (o.result c.debugAssertions k (k.num c a) (k.num c b)) := by
  cases k with
  | u =>
    cases o
    · exact gives_u (gives_add_u a b)
    · exact gives_u (gives_sub_u a b)
    · exact gives_u (gives_mul_u a b)
    · exact gives_u (gives_div_u a b)
    · exact gives_u (gives_rem_u a b)
    · exact gives_u (gives_and_u a b)
    · exact gives_u (gives_or_u a b)
    · exact gives_u (gives_xor_u a b)
  | i =>
    cases o
    · exact gives_i (gives_add_i a b)
    · exact gives_i (gives_sub_i a b)
    · exact gives_i (gives_mul_i a b)
    · exact gives_i (gives_div_i a b)
    · exact gives_i (gives_rem_i a b)
    · exact gives_i (gives_and_i a b)
    · exact gives_i (gives_or_i a b)
    · exact gives_i (gives_xor_i a b)

theorem evalOp_gives (o : Assign) (a b : k.Val) :
    Gives c k (o.evalOp c k a b) (o.result c.debugAssertions k (k.num c a) (k.num c b)) := by
  refine gives_same ?_ (evalAssign_gives o a b)
  cases k with
  | u =>
    have h := C26_u256 c a b (.u256 a)
    cases o <;> simp only [Assign.evalOp, Assign.evalAssign]
    · rw [h.1]; exact SameEffect.rfl _
    · rw [h.2.1]; exact SameEffect.rfl _
    · rw [h.2.2.1]; exact SameEffect.rfl _
    · rw [h.2.2.2.1]; exact SameEffect.rfl _
    · exact h.2.2.2.2.1
    · rw [h.2.2.2.2.2.2.2.1]; exact SameEffect.rfl _
    · rw [h.2.2.2.2.2.2.2.2.1]; exact SameEffect.rfl _
    · rw [h.2.2.2.2.2.2.2.2.2]; exact SameEffect.rfl _
  | i =>
    have h := C26_i256 c a b (.i256 a)
    cases o <;> simp only [Assign.evalOp, Assign.evalAssign]
    · rw [h.1]; exact SameEffect.rfl _
    · rw [h.2.1]; exact SameEffect.rfl _
    · rw [h.2.2.1]; exact SameEffect.rfl _
    · rw [h.2.2.2.1]; exact SameEffect.rfl _
    · exact h.2.2.2.2.1
    · rw [h.2.2.2.2.2.2.2.1]; exact SameEffect.rfl _
    · rw [h.2.2.2.2.2.2.2.2.1]; exact SameEffect.rfl _
    · rw [h.2.2.2.2.2.2.2.2.2]; exact SameEffect.rfl _
end Ops

theorem num_u_ofNat (n : Nat) : (((U256.ofNat c n).toNat c : Nat) : Int) = (n : Int) % 2 ^ 256 := by
  rw [(C01_spec_ofNat c n 0).1]; norm_cast

theorem wrapping_gives (o : Arith) (a b : k.Val) :
    Gives c k (o.evalWrapping c k a b) (some (k.wrap (o.exact (k.num c a) (k.num c b)))) := by
  cases k with
  | u =>
    cases o <;> simp only [Arith.evalWrapping, Arith.exact, Kind.num]
    · rw [(C02_wrapping c a b).1]; exact gives_ok (by simp only [Kind.num, Kind.wrap, num_u_ofNat]; norm_cast)
    · rw [(C02_wrapping c a b).2.1]; exact gives_ok (num_ofInt _)
    · rw [(C03_mul c a b).1]; exact gives_ok (by simp only [Kind.num, Kind.wrap, num_u_ofNat]; norm_cast)
  | i =>
    cases o <;> simp only [Arith.evalWrapping, Arith.exact, Kind.num]
    · rw [(C06_add c a b).1]; exact gives_ok (num_iofInt _)
    · rw [(C06_sub c a b).1]; exact gives_ok (num_iofInt _)
    · rw [(C07_mul c a b).1]; exact gives_ok (num_iofInt _)

theorem saturating_gives (o : Arith) (a b : k.Val) :
    Gives c k (o.evalSaturating c k a b) (some (k.clamp (o.exact (k.num c a) (k.num c b)))) := by
  cases k with
  | u =>
    cases o <;> simp only [Arith.evalSaturating, Arith.exact, Kind.num]
    · refine gives_ok ?_
      have := (C02_saturating c a b).1
      simp only [Kind.num, Kind.clamp, this]; omega
    · refine gives_ok ?_
      have := (C02_saturating c a b).2
      have := U256.toNat_lt c a
      simp only [Kind.num, Kind.clamp, *]; omega
    · rw [(C03_mul c a b).2.2.2]; refine gives_ok ?_
      simp only [Kind.num, Kind.clamp, num_u_ofNat]
      rw [← Int.natCast_mul]
      omega
  | i =>
    cases o <;> simp only [Arith.evalSaturating, Arith.exact, Kind.num]
    · refine gives_ok ?_
      simp only [Kind.num, Kind.clamp, (C06_add c a b).2.2.2, clampI256]
    · refine gives_ok ?_
      simp only [Kind.num, Kind.clamp, (C06_sub c a b).2.2.2, clampI256]
    · rw [(C07_mul c a b).2.2.2]; refine gives_ok ?_
      simp only [Kind.num, num_iofInt, Kind.clamp, Kind.wrap, clampI256]
      omega

theorem fit_gives_u {e : Res U256} {z : Int} {p : Panic}
    (he : e = if c.debugAssertions = true ∧ ¬ InU256 z then .error (.panic p) else .ok (U256.ofInt c z)) :
    Gives c .u e (Kind.u.fit c.debugAssertions z) := by
  unfold Kind.fit
  by_cases hin : Kind.u.In z
  · rw [if_pos hin]
    rw [if_neg (fun h => h.2 hin)] at he
    exact ⟨_, he, by simp only [Kind.num]; rw [num_ofInt, wrap_u_of_in hin]⟩
  · rw [if_neg hin]
    by_cases hd : c.debugAssertions = true
    · rw [if_pos hd]
      rw [if_pos ⟨hd, hin⟩] at he
      exact ⟨_, he⟩
    · rw [if_neg hd]
      rw [if_neg (fun h => hd h.1)] at he
      exact ⟨_, he, num_ofInt z⟩
theorem fit_gives_i {e : Res I256} {z : Int} {p : Panic}
    (he : e = if c.debugAssertions = true ∧ ¬ InI256 z then .error (.panic p) else .ok (I256.ofInt c z)) :
    Gives c .i e (Kind.i.fit c.debugAssertions z) := by
  unfold Kind.fit
  by_cases hin : Kind.i.In z
  · rw [if_pos hin]
    rw [if_neg (fun h => h.2 hin)] at he
    exact ⟨_, he, by simp only [Kind.num]; rw [num_iofInt, wrap_i_of_in hin]⟩
  · rw [if_neg hin]
    by_cases hd : c.debugAssertions = true
    · rw [if_pos hd]
      rw [if_pos ⟨hd, hin⟩] at he
      exact ⟨_, he⟩
    · rw [if_neg hd]
      rw [if_neg (fun h => hd h.1)] at he
      exact ⟨_, he, num_iofInt z⟩

section Fit
attribute [local irreducible] Kind.fit

theorem pow_gives (a : k.Val) (n : BitVec 32) :
    Gives c k (k.pow c a n) (k.fit c.debugAssertions (k.num c a ^ n.toNat)) := by
  cases k with
  | u =>
    simp only [Kind.pow, Kind.num]
    refine fit_gives_u (p := .mulOverflow) (z := (U256.toNat c a : Int) ^ n.toNat) ?_
    rw [(C16_pow c a n).2.2.2.2, ← Int.natCast_pow, U256.ofInt_natCast]
    congr 1
    unfold InU256; simp only [eq_iff_iff, and_congr_right_iff]; intro _
    generalize U256.toNat c a ^ n.toNat = m
    omega
  | i =>
    simp only [Kind.pow, Kind.num]
    exact fit_gives_i (p := .mulOverflow) (z := I256.toInt c a ^ n.toNat) (C17_pow c a n).2.2.2.2

end Fit

theorem asU32_num (a : k.Val) : (k.asU32 c a).toNat % 256 = (k.num c a % 256).toNat := by
  cases k with
  | u =>
    have h := (C24_u256_as_prim c .u32 a).2.2
    simp only [PrimTy.toInt, PrimTy.bits] at h
    simp only [Kind.asU32, Kind.num]
    generalize (U256.as_prim c .u32 a) = v at h ⊢
    change BitVec 32 at v
    change ((v.toNat : Nat) : Int) % 2 ^ 32 = ((U256.toNat c a : Nat) : Int) % 2 ^ 32 at h
    change v.toNat % 256 = _
    omega
  | i =>
    have h := (C24_i256_as_prim c .u32 a).2.2
    simp only [PrimTy.toInt, PrimTy.bits] at h
    simp only [Kind.asU32, Kind.num]
    generalize (I256.as_prim c .u32 a) = v at h ⊢
    change BitVec 32 at v
    change ((v.toNat : Nat) : Int) % 2 ^ 32 = I256.toInt c a % 2 ^ 32 at h
    change v.toNat % 256 = _
    omega

theorem shl_gives (a : k.Val) (n : BitVec 32) (m : Nat) (hn : n.toNat % 256 = m) :
    Gives c k (k.shl c a n) (some (k.wrap (k.num c a * 2 ^ m))) := by
  subst hn
  cases k with
  | u =>
    simp only [Kind.shl]; rw [(C10_shl c a n).1]
    exact gives_ok (by simp only [Kind.num, Kind.wrap, num_u_ofNat]; push_cast; rfl)
  | i => simp only [Kind.shl]; rw [(C11_shl c a n).1]; exact gives_ok (num_iofInt _)

theorem shr_gives (a : k.Val) (n : BitVec 32) (m : Nat) (hn : n.toNat % 256 = m) :
    Gives c k (k.shr c a n) (some (k.num c a / 2 ^ m)) := by
  subst hn
  cases k with
  | u =>
    simp only [Kind.shr]; rw [(C10_shr c a n).1]
    refine gives_ok ?_
    simp only [Kind.num]
    rw [(C01_spec_ofNat c _ 0).1, Nat.mod_eq_of_lt (lt_of_le_of_lt (Nat.div_le_self _ _) (U256.toNat_lt c a))]
    push_cast; rfl
  | i =>
    simp only [Kind.shr]; rw [(C11_shr c a n).1]
    refine gives_ok ?_
    simp only [Kind.num]
    rw [num_iofInt, wrap_i_of_in (num_ediv_in _ _)]

theorem compl_gives (a : k.Val) : k.num c (k.compl a) = k.wrap (-k.num c a - 1) := by
  cases k with
  | u =>
    have := (C21_u256_bitwise c a a).2.2.2.1
    have h2 := U256.toNat_lt c a
    simp only [Kind.compl, Kind.num, Kind.wrap, this]; omega
  | i =>
    have := (C21_i256_bitwise c a a).2.2.2.1
    have h2 := I256.toInt_in c a
    unfold InI256 at h2
    simp only [Kind.compl, Kind.num, Kind.wrap, this]; omega

theorem larger_num (a b : k.Val) : k.num c (k.larger c a b) = max (k.num c a) (k.num c b) := by
  cases k with
  | u => have := (C58_max_min c a b I256.ZERO I256.ZERO).1; simp only [Kind.larger, Kind.num, this]; omega
  | i => exact (C58_max_min c U256.ZERO U256.ZERO a b).2.2.1
theorem smaller_num (a b : k.Val) : k.num c (k.smaller c a b) = min (k.num c a) (k.num c b) := by
  cases k with
  | u => have := (C58_max_min c a b I256.ZERO I256.ZERO).2.1; simp only [Kind.smaller, Kind.num, this]; omega
  | i => exact (C58_max_min c U256.ZERO U256.ZERO a b).2.2.2

section Fit
attribute [local irreducible] Kind.fit

theorem neg_gives (a : I256) : Gives c .i (I256.neg c a) (Kind.i.fit c.debugAssertions (-I256.toInt c a)) :=
  fit_gives_i (p := .negOverflow) (z := -I256.toInt c a) (C25_i256 c a a).2.2.2

theorem abs_gives (a : I256) : Gives c .i (I256.abs c a) (Kind.i.fit c.debugAssertions (I256.toInt c a).natAbs) := by
  refine fit_gives_i (p := .negOverflow) ?_
  have hr := I256.toInt_in c a
  unfold InI256 at hr
  by_cases h : a = I256.MIN c
  · subst h
    have hm := (C01_constants c 0).2.2.2.2.2.2.2.2.2.1
    rw [(C44_abs c I256.ZERO).2, hm]
    cases hd : c.debugAssertions
    · rw [if_neg (by simp), if_neg (by simp)]
      refine congrArg Except.ok (I256.toInt_inj c ?_)
      rw [hm, num_iofInt]
      decide
    · rw [if_pos rfl, if_pos ⟨rfl, by decide⟩]
  · obtain ⟨r, h1, h2⟩ := (C44_abs c a).1 h
    have hne : I256.toInt c a ≠ -2 ^ 255 := fun h' => h (I256.toInt_inj c (h'.trans (C01_constants c 0).2.2.2.2.2.2.2.2.2.1.symm))
    rw [if_neg (by unfold InI256; omega), h1]
    refine congrArg Except.ok (I256.toInt_inj c ?_)
    rw [h2, num_iofInt, wrap_i_of_in]
    show InI256 _
    unfold InI256; omega

theorem panics_gives {e : Res k.Val} (h : Panics e) : Gives c k e none := h

theorem divEuclid_gives (a b : k.Val) : Gives c k (k.divEuclid c a b)
    (if k.num c b = 0 then none else some (k.wrap (k.num c a / k.num c b))) := by
  cases k with
  | u =>
    by_cases h0 : U256.toNat c b = 0
    · rw [if_pos (by simp only [Kind.num, h0]; rfl)]
      exact (C04_zero c a b h0).2.2.2.2.2.2.2.2.1
    · rw [if_neg (by simp only [Kind.num]; omega)]
      refine ⟨_, (C04_div c a b h0).2.1, ?_⟩
      simp only [Kind.num, Kind.wrap, num_u_ofNat]; norm_cast
  | i =>
    by_cases h0 : I256.toInt c b = 0
    · rw [if_pos (by simp only [Kind.num, h0])]
      exact (C09_zero c a b h0).2.2.2.1
    · rw [if_neg (by simp only [Kind.num]; exact h0)]
      by_cases hm : I256.toInt c a = -2 ^ 255 ∧ I256.toInt c b = -1
      · have ea : a = I256.MIN c := I256.toInt_inj c (hm.1.trans (C01_constants c 0).2.2.2.2.2.2.2.2.2.1.symm)
        have eb : b = I256.MINUS_ONE c := I256.toInt_inj c (hm.2.trans (C01_constants c 0).2.2.2.2.2.2.2.2.1.symm)
        refine ⟨a, ?_, by simp only [Kind.num, hm.1, hm.2]; decide⟩
        rw [ea, eb]; exact (C09_min_by_minus_one c).2.2.2.2.2.2.2.2.2.2.2.1
      · exact ⟨_, (C09_div_euclid_rem_euclid c a b h0 hm).1, num_iofInt _⟩

theorem emod_in {x y : Int} (h0 : y ≠ 0) (h : Kind.i.In y) : Kind.i.In (x % y) := by
  have h1 := Int.emod_nonneg x h0
  have h2 := Int.emod_lt x h0
  simp only [Kind.In, InI256] at *
  generalize x % y = m at *
  omega

theorem remEuclid_gives (a b : k.Val) : Gives c k (k.remEuclid c a b)
    (if k.num c b = 0 then none else some (k.num c a % k.num c b)) := by
  cases k with
  | u =>
    by_cases h0 : U256.toNat c b = 0
    · rw [if_pos (by simp only [Kind.num, h0]; rfl)]
      exact (C04_zero c a b h0).2.2.2.2.2.2.2.2.2.1
    · rw [if_neg (by simp only [Kind.num]; omega)]
      refine ⟨_, (C04_rem c a b h0).2.1, ?_⟩
      have h1 := Nat.mod_lt (U256.toNat c a) (Nat.pos_of_ne_zero h0)
      have h2 := U256.toNat_lt c b
      simp only [Kind.num]
      rw [(C01_spec_ofNat c _ 0).1, Nat.mod_eq_of_lt (h1.trans h2)]
      push_cast; rfl
  | i =>
    by_cases h0 : I256.toInt c b = 0
    · rw [if_pos (by simp only [Kind.num, h0])]
      exact (C09_zero c a b h0).2.2.2.2.1
    · rw [if_neg (by simp only [Kind.num]; exact h0)]
      by_cases hm : I256.toInt c a = -2 ^ 255 ∧ I256.toInt c b = -1
      · have ea : a = I256.MIN c := I256.toInt_inj c (hm.1.trans (C01_constants c 0).2.2.2.2.2.2.2.2.2.1.symm)
        have eb : b = I256.MINUS_ONE c := I256.toInt_inj c (hm.2.trans (C01_constants c 0).2.2.2.2.2.2.2.2.1.symm)
        refine ⟨I256.ZERO, ?_, ?_⟩
        · rw [ea, eb]; exact (C09_min_by_minus_one c).2.2.2.2.2.2.2.2.2.2.2.2
        · simp only [Kind.num, hm.2]
          rw [Int.emod_neg, Int.emod_one]
          exact I256.toInt_ZERO c
      · exact ⟨_, (C09_div_euclid_rem_euclid c a b h0 hm).2.1,
          (num_iofInt _).trans (wrap_i_of_in (emod_in h0 (I256.toInt_in c b)))⟩

theorem between_gives (a lo hi : k.Val) : Gives c k (k.between c a lo hi)
    (if k.num c lo ≤ k.num c hi then some (max (k.num c lo) (min (k.num c a) (k.num c hi))) else none) := by
  cases k with
  | u =>
    have h := C58_clamp c a lo hi I256.ZERO I256.ZERO I256.ZERO
    by_cases hl : U256.toNat c lo ≤ U256.toNat c hi
    · rw [if_pos (by simp only [Kind.num]; omega)]
      obtain ⟨r, h1, h2⟩ := h.1 hl
      exact ⟨r, h1, by simp only [Kind.num, h2]; omega⟩
    · rw [if_neg (by simp only [Kind.num]; omega)]
      exact h.2.1 (by omega)
  | i =>
    have h := C58_clamp c U256.ZERO U256.ZERO U256.ZERO a lo hi
    by_cases hl : I256.toInt c lo ≤ I256.toInt c hi
    · rw [if_pos (by simp only [Kind.num]; exact hl)]
      exact h.2.2.1 hl
    · rw [if_neg (by simp only [Kind.num]; exact hl)]
      exact h.2.2.2 (by omega)

theorem absDiff_gives (a b : k.Val) : Gives c .u (k.absDiff c a b) (some ((k.num c a - k.num c b).natAbs : Nat)) := by
  cases k with
  | u =>
    simp only [Kind.absDiff, Kind.num]
    rw [C19_u256_abs_diff c a b]
    refine gives_ok ?_
    have h1 := U256.toNat_lt c a
    have h2 := U256.toNat_lt c b
    simp only [Kind.num, num_u_ofNat]; omega
  | i => exact gives_ok (congrArg Int.ofNat (C19_i256_abs_diff c a b))

theorem runLength_spec (p : Nat → Bool) (n : Nat) : runLength p (List.range n) ≤ n
    ∧ (∀ i < runLength p (List.range n), p i = true)
    ∧ (runLength p (List.range n) < n → p (runLength p (List.range n)) = false) := by
  unfold runLength
  have hpre := List.takeWhile_prefix (l := List.range n) p
  have hlen := hpre.length_le
  rw [List.length_range] at hlen
  refine ⟨hlen, fun i hi => ?_, fun hn => ?_⟩
  · have h1 := List.all_eq_true.mp (List.all_takeWhile (l := List.range n) (p := p)) _ (List.getElem_mem hi)
    rw [hpre.getElem hi, List.getElem_range] at h1
    exact h1
  · have h2 := List.takeWhile_append_dropWhile (p := p) (l := List.range n)
    have hne : (List.range n).dropWhile p ≠ [] := by
      intro h
      rw [h, List.append_nil] at h2
      rw [h2, List.length_range] at hn; omega
    have h3 := List.head_dropWhile_not p hne
    obtain ⟨x, t, hx⟩ := List.exists_cons_of_ne_nil hne
    have h4 : ∀ m, m = ((List.range n).takeWhile p).length → (List.range n)[m]? = some x := by
      intro m hm
      rw [← h2, List.getElem?_append_right (by omega), hx, hm]
      simp
    have h4 := h4 _ rfl
    rw [List.getElem?_range hn] at h4
    simp only [hx, List.head_cons] at h3
    cases h4
    simpa using h3

theorem leading_count (b : Bool) (x r : Nat) (h : IsLeadingRun b x r) :
    r = runLength (fun i => if b then x.testBit (255 - i) else !x.testBit (255 - i)) (List.range 256) := by
  refine (C14_runs_unique b x _ _).1 h ?_
  obtain ⟨h1, h2, h3⟩ := runLength_spec (fun i => if b then x.testBit (255 - i) else !x.testBit (255 - i)) 256
  refine ⟨h1, fun i hi => ?_, fun hi => ?_⟩
  · have := h2 i hi; cases b <;> simpa using this
  · have := h3 hi; cases b <;> simpa using this
theorem trailing_count (b : Bool) (x r : Nat) (h : IsTrailingRun b x r) :
    r = runLength (fun i => if b then x.testBit i else !x.testBit i) (List.range 256) := by
  refine (C14_runs_unique b x _ _).2 h ?_
  obtain ⟨h1, h2, h3⟩ := runLength_spec (fun i => if b then x.testBit i else !x.testBit i) 256
  refine ⟨h1, fun i hi => ?_, fun hi => ?_⟩
  · have := h2 i hi; cases b <;> simpa using this
  · have := h3 hi; cases b <;> simpa using this

theorem count_ones (x : Nat) : (u32 (bitCount true x)).toNat = Bits.ones.count x := by
  have h : bitCount true x ≤ 256 := by
    have := List.countP_le_length (p := fun i => x.testBit i == true) (l := List.range 256)
    rw [List.length_range] at this; exact this
  unfold u32
  rw [BitVec.toNat_ofNat, Nat.mod_eq_of_lt (by omega)]
  simp only [bitCount, Bits.count, beq_true]
theorem count_zeros (x : Nat) : (u32 (bitCount false x)).toNat = Bits.zeros.count x := by
  have h : bitCount false x ≤ 256 := by
    have := List.countP_le_length (p := fun i => x.testBit i == false) (l := List.range 256)
    rw [List.length_range] at this; exact this
  unfold u32
  rw [BitVec.toNat_ofNat, Nat.mod_eq_of_lt (by omega)]
  simp only [bitCount, Bits.count, beq_false]

/-- The bits of a value of either type. -/
def bitsOf (c : Cfg) : (k : Kind) → k.Val → Nat
  | .u, a => U256.toNat c a
  | .i, a => I256.toNat c a

theorem bitsOf_num (a : k.Val) : bitsOf c k a = (k.num c a % 2 ^ 256).toNat := by
  cases k with
  | u => have := U256.toNat_lt c a; simp only [bitsOf, Kind.num]; omega
  | i => have := I256.toNat_toInt c a; simp only [bitsOf, Kind.num]; omega

theorem bits_eval (f : Bits) (a : k.Val) : ∃ r, f.eval c k a = .ok r ∧ r.toNat = f.count (bitsOf c k a) := by
  cases k with
  | u =>
    have h := C14_u256_runs c a
    have h' := C14_count c a I256.ZERO
    cases f
    · exact ⟨_, h'.1, count_ones _⟩
    · exact ⟨_, h'.2.1, count_zeros _⟩
    · obtain ⟨r, h1, h2⟩ := h.1; exact ⟨r, h1, leading_count _ _ _ h2⟩
    · obtain ⟨r, h1, h2⟩ := h.2.1; exact ⟨r, h1, trailing_count _ _ _ h2⟩
    · obtain ⟨r, h1, h2⟩ := h.2.2.1; exact ⟨r, h1, leading_count _ _ _ h2⟩
    · obtain ⟨r, h1, h2⟩ := h.2.2.2; exact ⟨r, h1, trailing_count _ _ _ h2⟩
  | i =>
    have h := C14_i256_runs c a
    have h' := C14_count c U256.ZERO a
    cases f
    · exact ⟨_, h'.2.2.1, count_ones _⟩
    · exact ⟨_, h'.2.2.2.1, count_zeros _⟩
    · obtain ⟨r, h1, h2⟩ := h.1; exact ⟨r, h1, leading_count _ _ _ h2⟩
    · obtain ⟨r, h1, h2⟩ := h.2.1; exact ⟨r, h1, trailing_count _ _ _ h2⟩
    · obtain ⟨r, h1, h2⟩ := h.2.2.1; exact ⟨r, h1, leading_count _ _ _ h2⟩
    · obtain ⟨r, h1, h2⟩ := h.2.2.2; exact ⟨r, h1, trailing_count _ _ _ h2⟩

theorem bits_gives (f : Bits) (a : k.Val) : Gives c .u (do return U256.from_prim c .u32 (← f.eval c k a))
    (some ((f.count (k.num c a % 2 ^ 256).toNat : Nat) : Int)) := by
  obtain ⟨r, h1, h2⟩ := bits_eval (c := c) f a
  rw [h1, ← bitsOf_num, ← h2]
  exact gives_ok (C23_u256_from_prim c .u32 (by decide) r)

theorem overflows_gives (o : Arith) (a b : k.Val) :
    GivesA (o.evalOverflows c k a b) (some (decide ¬ k.In (o.exact (k.num c a) (k.num c b)))) := by
  cases k with
  | u =>
    have h := C02_overflowing c a b
    have ha := U256.toNat_lt c a
    have hb := U256.toNat_lt c b
    cases o <;> simp only [Arith.evalOverflows, Arith.exact, Kind.num, Kind.In, InU256]
    · rw [h.1]; refine congrArg Except.ok (decide_eq_decide.mpr ?_); omega
    · rw [h.2]; refine congrArg Except.ok (decide_eq_decide.mpr ?_); omega
    · rw [(C03_mul c a b).2.1]; refine congrArg Except.ok (decide_eq_decide.mpr ?_)
      rw [← Int.natCast_mul]
      generalize U256.toNat c a * U256.toNat c b = m
      omega
  | i =>
    cases o
    · exact congrArg Except.ok (congrArg Prod.snd (C06_add c a b).2.1)
    · exact congrArg Except.ok (congrArg Prod.snd (C06_sub c a b).2.1)
    · simp only [Arith.evalOverflows]; rw [(C07_mul c a b).2.1]; exact rfl

theorem wrappingNeg_num (a : k.Val) : k.num c (k.wrappingNeg c a) = k.wrap (-k.num c a) := by
  cases k with
  | u => simp only [Kind.wrappingNeg, Kind.num]; rw [(C02_neg c a).1]; exact num_ofInt _
  | i => simp only [Kind.wrappingNeg, Kind.num]; rw [(C06_neg c a).1]; exact num_iofInt _

theorem wrappingPow_gives (a : k.Val) (n : BitVec 32) :
    Gives c k (k.wrappingPow c a n) (some (k.wrap (k.num c a ^ n.toNat))) := by
  cases k with
  | u =>
    simp only [Kind.wrappingPow, Kind.num]; rw [(C16_pow c a n).1]
    exact gives_ok (by simp only [Kind.num, Kind.wrap, num_u_ofNat]; push_cast; rfl)
  | i => simp only [Kind.wrappingPow, Kind.num]; rw [(C17_pow c a n).1]; exact gives_ok (num_iofInt _)

theorem saturatingPow_gives (a : k.Val) (n : BitVec 32) :
    Gives c k (k.saturatingPow c a n) (some (k.clamp (k.num c a ^ n.toNat))) := by
  cases k with
  | u =>
    simp only [Kind.saturatingPow, Kind.num]; rw [(C16_pow c a n).2.2.2.1]
    refine gives_ok ?_
    simp only [Kind.num, Kind.clamp, num_u_ofNat]
    rw [← Int.natCast_pow]
    generalize U256.toNat c a ^ n.toNat = m
    omega
  | i =>
    simp only [Kind.saturatingPow, Kind.num]; rw [(C17_pow c a n).2.2.2.1]
    refine gives_ok ?_
    simp only [Kind.num, num_iofInt, Kind.clamp, Kind.wrap, clampI256]
    generalize I256.toInt c a ^ n.toNat = m
    omega

theorem leastPower_pow (n : Nat) : ∀ fuel e, ∃ j, leastPower n fuel (2 ^ e) = 2 ^ j ∧ e ≤ j ∧ j ≤ e + fuel
    ∧ (n ≤ 2 ^ (e + fuel) → n ≤ 2 ^ j) ∧ (e < j → 2 ^ (j - 1) < n) := by
  intro fuel
  induction fuel with
  | zero => intro e; exact ⟨e, rfl, le_refl _, le_refl _, id, fun h => absurd h (lt_irrefl _)⟩
  | succ fuel ih =>
    intro e
    unfold leastPower
    by_cases h : n ≤ 2 ^ e
    · rw [if_pos h]; exact ⟨e, rfl, le_refl _, by omega, fun _ => h, fun h => absurd h (lt_irrefl _)⟩
    · rw [if_neg h, show 2 * 2 ^ e = 2 ^ (e + 1) by rw [Nat.pow_succ]; omega]
      obtain ⟨j, h1, h2, h3, h4, h5⟩ := ih (e + 1)
      refine ⟨j, h1, by omega, by omega, fun hn => h4 (by rwa [show e + 1 + fuel = e + (fuel + 1) by omega]), fun hj => ?_⟩
      rcases Nat.lt_or_ge (e + 1) j with h' | h'
      · exact h5 h'
      · rw [show j = e + 1 by omega, Nat.add_sub_cancel]; omega

theorem leastPower_next (n p : Nat) (hn : n ≤ 2 ^ 255) (h : IsNextPow2 n p) : leastPower n 256 1 = p := by
  obtain ⟨j, h1, h2, h3, h4, h5⟩ := leastPower_pow n 256 0
  rw [Nat.pow_zero] at h1
  rw [h1]
  obtain ⟨⟨i, rfl⟩, hi, hmin⟩ := h
  have hj := h4 (le_trans hn (Nat.pow_le_pow_right (by omega) (by omega)))
  refine le_antisymm ?_ (hmin j hj)
  refine Nat.pow_le_pow_right (by omega) ?_
  by_contra hc
  have := h5 (by omega)
  have h6 : 2 ^ i ≤ 2 ^ (j - 1) := Nat.pow_le_pow_right (by omega) (by omega)
  omega

theorem leastPower_large (n : Nat) (hn : 2 ^ 255 < n) (hn' : n < 2 ^ 256) : leastPower n 256 1 = 2 ^ 256 := by
  obtain ⟨j, h1, h2, h3, h4, h5⟩ := leastPower_pow n 256 0
  rw [Nat.pow_zero] at h1
  rw [h1]
  have hj := h4 (by rw [Nat.zero_add]; exact le_of_lt hn')
  congr 1
  by_contra hc
  have h6 : 2 ^ j ≤ 2 ^ 255 := Nat.pow_le_pow_right (by omega) (by omega)
  omega

theorem nextPowerOfTwo_gives (a : U256) :
    Gives c .u (U256.next_power_of_two c a) (Kind.u.fit c.debugAssertions (leastPower (Kind.num c .u a).toNat 256 1 : Nat)) := by
  have ha := U256.toNat_lt c a
  have h := C18_next_power_of_two c a
  rw [show (Kind.num c .u a).toNat = U256.toNat c a from rfl]
  have p1 := leastPower_large (U256.toNat c a)
  have p2 := leastPower_next (U256.toNat c a)
  generalize leastPower (U256.toNat c a) 256 1 = p at p1 p2 ⊢
  by_cases hl : 2 ^ 255 < U256.toNat c a
  · obtain ⟨-, h1, h2⟩ := h.2 hl
    have hf : Kind.u.fit c.debugAssertions ((2 ^ 256 : Nat) : Int) = if c.debugAssertions = true then none else some 0 := by
      unfold Kind.fit
      rw [if_neg (by decide), show Kind.u.wrap ((2 ^ 256 : Nat) : Int) = 0 by decide]
    rw [p1 hl ha, hf]
    by_cases hd : c.debugAssertions = true
    · rw [if_pos hd]; exact h1 hd
    · rw [if_neg hd, h2 (by simpa using hd)]
      exact gives_ok (by simp only [Kind.num]; rw [(C01_constants c 0).2.2.1]; rfl)
  · obtain ⟨r, h1, -, h2⟩ := h.1 (by omega)
    have hf : Kind.u.fit c.debugAssertions (U256.toNat c r : Int) = some (U256.toNat c r : Int) := by
      unfold Kind.fit
      exact if_pos (by have := U256.toNat_lt c r; simp only [Kind.In, InU256]; omega)
    rw [p2 _ (by omega) h2, hf]
    exact ⟨r, h1, rfl⟩

theorem fromBits_testBit (f : Nat → Bool) (m : Nat) (hm : m < 2 ^ 256) (h : ∀ i < 256, m.testBit i = f i) :
    fromBits f = m := by
  have key : ∀ n, ((List.range n).map fun i => if f i then 2 ^ i else 0).sum < 2 ^ n
      ∧ ∀ i < n, ((List.range n).map fun i => if f i then 2 ^ i else 0).sum.testBit i = f i := by
    intro n
    induction n with
    | zero => exact ⟨Nat.one_pos, fun i hi => absurd hi (by omega)⟩
    | succ n ih =>
      rw [List.range_succ, List.map_append, List.sum_append]
      simp only [List.map_cons, List.map_nil, List.sum_cons, List.sum_nil, Nat.add_zero]
      generalize ((List.range n).map fun i => if f i then 2 ^ i else 0).sum = s at ih ⊢
      obtain ⟨h1, h2⟩ := ih
      refine ⟨by rw [Nat.pow_succ]; split <;> omega, fun i hi => ?_⟩
      cases hf : f n
      · rw [if_neg (by simp), Nat.add_zero]
        rcases Nat.lt_or_ge i n with h | h
        · exact h2 i h
        · rw [show i = n by omega, hf]; exact Nat.testBit_lt_two_pow h1
      · rw [if_pos rfl, Nat.add_comm]
        rcases Nat.lt_or_ge i n with h | h
        · rw [Nat.testBit_two_pow_add_gt h]; exact h2 i h
        · rw [show i = n by omega, hf, Nat.testBit_two_pow_add_eq, Nat.testBit_lt_two_pow h1]; rfl
  obtain ⟨h1, h2⟩ := key 256
  unfold fromBits
  refine Nat.eq_of_testBit_eq fun i => ?_
  rcases Nat.lt_or_ge i 256 with hi | hi
  · rw [h i hi]; exact h2 i hi
  · rw [Nat.testBit_lt_two_pow (lt_of_lt_of_le h1 (Nat.pow_le_pow_right (by omega) hi)),
      Nat.testBit_lt_two_pow (lt_of_lt_of_le hm (Nat.pow_le_pow_right (by omega) hi))]

theorem num_of_bits (a : k.Val) : k.num c a = k.wrap (bitsOf c k a) := by
  cases k with
  | u => have := U256.toNat_lt c a; simp only [bitsOf, Kind.num, Kind.wrap]; omega
  | i =>
    have h1 := I256.toNat_toInt c a
    have h2 := I256.toInt_in c a
    unfold InI256 at h2
    simp only [bitsOf, Kind.num, Kind.wrap]; omega

theorem bitsOf_lt (a : k.Val) : bitsOf c k a < 2 ^ 256 := by rw [bitsOf_num]; omega

theorem leBytes_getElem? (n m j : Nat) (hj : j < n) : (leBytes n m)[j]? = some (BitVec.ofNat 8 (m / 256 ^ j)) := by
  induction n generalizing m j with
  | zero => omega
  | succ n ih =>
    cases j with
    | zero => simp [leBytes]
    | succ j =>
      simp only [leBytes, List.getElem?_cons_succ]
      rw [ih _ _ (by omega), Nat.div_div_eq_div_mul, Nat.pow_succ, Nat.mul_comm 256]

theorem testBit_byte (m i : Nat) : m.testBit i = (BitVec.ofNat 8 (m / 256 ^ (i / 8))).getLsbD (i % 8) := by
  rw [BitVec.getLsbD_ofNat, show (256 : Nat) = 2 ^ 8 by rfl, ← Nat.pow_mul, Nat.testBit_div_two_pow]
  have h : i % 8 < 8 := Nat.mod_lt _ (by omega)
  simp only [h, decide_true, Bool.true_and]
  congr 1; omega

theorem swap_bits (x y : Nat) (h : leBytes 32 y = (leBytes 32 x).reverse) (i : Nat) (hi : i < 256) :
    y.testBit i = x.testBit (8 * (31 - i / 8) + i % 8) := by
  have hl : (leBytes 32 x).length = 32 := by simp [leBytes]
  have h1 := leBytes_getElem? 32 y (i / 8) (by omega)
  rw [h, List.getElem?_reverse (by omega), hl, leBytes_getElem? 32 x _ (by omega)] at h1
  rw [testBit_byte y, ← Option.some.inj h1, testBit_byte x]
  congr 1
  · rw [show (8 * (31 - i / 8) + i % 8) / 8 = 32 - 1 - i / 8 by omega]
  · omega

theorem permute_bits (f : Perm) (a : k.Val) :
    ∃ r, f.eval c k a = .ok r ∧ ∀ i < 256, (bitsOf c k r).testBit i = (bitsOf c k a).testBit (f.source i) := by
  have rot : ∀ (l m : Nat) (n : BitVec 8),
      (∀ i < 256, l.testBit ((i + (n.zeroExtend 32).toNat) % 256) = m.testBit i) →
      ∀ i < 256, l.testBit i = m.testBit ((i + (256 - n.toNat)) % 256) := by
    intro l m n h i hi
    have hn := n.isLt
    have hz : (n.zeroExtend 32).toNat = n.toNat := by simp; omega
    have := h ((i + (256 - n.toNat)) % 256) (Nat.mod_lt _ (by omega))
    rw [hz] at this
    rw [← this]
    congr 1; omega
  have hz : ∀ n : BitVec 8, (n.zeroExtend 32).toNat = n.toNat := by intro n; have := n.isLt; simp; omega
  have hle : ∀ n : BitVec 8, (n.zeroExtend 32).toNat ≤ 256 := by intro n; have := n.isLt; rw [hz]; omega
  cases k with
  | u =>
    cases f with
    | rotateLeft n =>
      obtain ⟨l, r, h1, -, h2, -⟩ := C13_u256_rotate_partial c a (n.zeroExtend 32) (fun _ _ => hle n)
      exact ⟨l, h1, rot _ _ n h2⟩
    | rotateRight n =>
      obtain ⟨l, r, -, h1, -, h2⟩ := C13_u256_rotate_partial c a (n.zeroExtend 32) (fun _ _ => hle n)
      rw [hz] at h2
      exact ⟨r, h1, h2⟩
    | swapBytes => exact ⟨_, rfl, swap_bits _ _ (C15_swap_bytes c a I256.ZERO).1⟩
    | reverseBits => exact ⟨_, rfl, (C15_reverse_bits c a I256.ZERO).1⟩
  | i =>
    cases f with
    | rotateLeft n =>
      obtain ⟨l, r, h1, -, h2, -⟩ := C13_i256_rotate_partial c a (n.zeroExtend 32) (fun _ _ => hle n)
      exact ⟨l, h1, rot _ _ n h2⟩
    | rotateRight n =>
      obtain ⟨l, r, -, h1, -, h2⟩ := C13_i256_rotate_partial c a (n.zeroExtend 32) (fun _ _ => hle n)
      rw [hz] at h2
      exact ⟨r, h1, h2⟩
    | swapBytes => exact ⟨_, rfl, swap_bits _ _ (C15_swap_bytes c U256.ZERO a).2.1⟩
    | reverseBits => exact ⟨_, rfl, (C15_reverse_bits c U256.ZERO a).2.1⟩

theorem permute_gives (f : Perm) (a : k.Val) : Gives c k (f.eval c k a)
    (some (k.wrap (fromBits fun i => (k.num c a % 2 ^ 256).toNat.testBit (f.source i) : Nat))) := by
  obtain ⟨r, h1, h2⟩ := permute_bits (c := c) f a
  refine ⟨r, h1, ?_⟩
  rw [← bitsOf_num, fromBits_testBit _ _ (bitsOf_lt r) h2, num_of_bits]

theorem powerOfTwo_gives (a : U256) : GivesA (U256.is_power_of_two c a)
    (some ((List.range 256).any fun i => Kind.num c .u a = 2 ^ i)) := by
  obtain ⟨b, h1, h2⟩ := C18_is_power_of_two c a
  refine h1.trans (congrArg Except.ok ?_)
  rw [Bool.eq_iff_iff, h2, List.any_eq_true]
  have ha := U256.toNat_lt c a
  constructor
  · rintro ⟨i, hi⟩
    refine ⟨i, ?_, ?_⟩
    · rw [List.mem_range]
      by_contra hc
      have : 2 ^ 256 ≤ 2 ^ i := Nat.pow_le_pow_right (by omega) (by omega)
      omega
    · simp only [Kind.num, hi, decide_eq_true_eq]; push_cast; rfl
  · rintro ⟨i, -, hi⟩
    have hi := of_decide_eq_true hi
    simp only [Kind.num] at hi
    exact ⟨i, by exact_mod_cast hi⟩

theorem lit_num (v : BitVec 128) : k.num c (k.new c v) = k.literal v := by
  cases k with
  | u => exact congrArg Int.ofNat (C01_constants c v).1
  | i => exact (C01_constants c v).2.1

theorem ex_gives (ρ : (k : Kind) → Nat → k.Val) (e : Ex k) :
    Gives c k (e.eval c ρ) (e.value c.debugAssertions fun k x => k.num c (ρ k x)) := by
  induction e with
  | var n => exact gives_ok rfl
  | lit v => exact gives_ok (lit_num v)
  | op o a b iha ihb => exact gives_bind iha fun x => gives_bind ihb fun y => evalOp_gives o x y
  | wrapping o a b iha ihb => exact gives_bind iha fun x => gives_bind ihb fun y => wrapping_gives o x y
  | saturating o a b iha ihb => exact gives_bind iha fun x => gives_bind ihb fun y => saturating_gives o x y
  | pow a n iha => exact gives_bind iha fun x => pow_gives x n
  | shl a n iha ihb =>
    refine gives_bind iha fun x => gives_bind ihb fun y => ?_
    exact shl_gives x _ _ (asU32_num y)
  | shr a n iha ihb => exact gives_bind iha fun x => gives_bind ihb fun y => shr_gives x _ _ (asU32_num y)
  | compl a iha => exact gives_bind iha fun x => gives_ok (compl_gives x)
  | larger a b iha ihb => exact gives_bind iha fun x => gives_bind ihb fun y => gives_ok (larger_num x y)
  | smaller a b iha ihb => exact gives_bind iha fun x => gives_bind ihb fun y => gives_ok (smaller_num x y)
  | neg a iha => exact gives_bind iha fun x => neg_gives x
  | abs a iha =>
    refine gives_bind iha fun x => ?_
    simp only [Kind.num]
    exact abs_gives x
  | unsignedAbs a iha => exact gives_bind iha fun x => gives_ok (congrArg Int.ofNat (C06_abs c x).2.2.2.2)
  | asI a iha =>
    refine gives_bind iha fun x => gives_ok ?_
    have h := (C24_as_wide c .u8 (0 : BitVec 8) x I256.ZERO).2.2.1
    have h2 := I256.toInt_in c (U256.as_i256 x)
    unfold InI256 at h2
    simp only [Kind.num, Kind.wrap]; omega
  | asU a iha =>
    exact gives_bind iha fun x => gives_ok (C24_as_wide c .u8 (0 : BitVec 8) U256.ZERO x).2.2.2
  | divEuclid a b iha ihb => exact gives_bind iha fun x => gives_bind ihb fun y => divEuclid_gives x y
  | remEuclid a b iha ihb => exact gives_bind iha fun x => gives_bind ihb fun y => remEuclid_gives x y
  | between a lo hi iha ihl ihh =>
    exact gives_bind iha fun x => gives_bind ihl fun y => gives_bind ihh fun z => between_gives x y z
  | absDiff a b iha ihb => exact gives_bind iha fun x => gives_bind ihb fun y => absDiff_gives x y
  | signum a iha => exact gives_bind iha fun x => gives_ok (C44_sign c x).1
  | bits f a iha => exact gives_bind iha fun x => bits_gives f x
  | wrappingNeg a iha => exact gives_bind iha fun x => gives_ok (wrappingNeg_num x)
  | wrappingAbs a iha =>
    refine gives_bind iha fun x => gives_ok ?_
    simp only [Kind.num]; rw [(C06_abs c x).1]; exact num_iofInt _
  | wrappingPow a n iha => exact gives_bind iha fun x => wrappingPow_gives x n
  | saturatingPow a n iha => exact gives_bind iha fun x => saturatingPow_gives x n
  | nextPowerOfTwo a iha => exact gives_bind iha fun x => nextPowerOfTwo_gives x
  | permute f a iha => exact gives_bind iha fun x => permute_gives f x

end Fit

theorem rel_eval (r : Rel) (a b : k.Val) : r.eval c k a b = r.holds (k.num c a) (k.num c b) := by
  cases k with
  | u =>
    have h := C20_u256_cmp c a b
    cases r <;> simp only [Rel.eval, Rel.holds, Kind.num, h, Nat.cast_lt, Nat.cast_le, Nat.cast_inj, gt_iff_lt, ge_iff_le, ne_eq]
  | i =>
    have h := C20_i256_cmp c a b
    cases r <;> simp only [Rel.eval, Rel.holds, Kind.num, h] <;> rfl

theorem test_gives (ρ : (k : Kind) → Nat → k.Val) (t : Test) :
    GivesA (t.eval c ρ) (t.value c.debugAssertions fun k x => k.num c (ρ k x)) := by
  induction t with
  | cmp r a b =>
    exact givesA_bind (ex_gives ρ a) fun x => givesA_bind (ex_gives ρ b) fun y => congrArg Except.ok (rel_eval r x y)
  | overflows o a b =>
    exact givesA_bind (ex_gives ρ a) fun x => givesA_bind (ex_gives ρ b) fun y => overflows_gives o x y
  | negative a => exact givesA_bind (ex_gives ρ a) fun x => congrArg Except.ok (C44_sign c x).2.2.2
  | positive a => exact givesA_bind (ex_gives ρ a) fun x => congrArg Except.ok (C44_sign c x).2.2.1
  | powerOfTwo a => exact givesA_bind (ex_gives ρ a) fun x => powerOfTwo_gives x
  | not p ih => exact givesA_bindA ih fun x => rfl
  | and p q ihp ihq =>
    refine givesA_bindA ihp fun x => ?_
    cases x
    · exact rfl
    · exact ihq
  | or p q ihp ihq =>
    refine givesA_bindA ihp fun x => ?_
    cases x
    · exact ihq
    · exact rfl

theorem checked_ok {e : Res (Option k.Val)} {z : Int} {P : Prop} [Decidable P] {v : k.Val} (h : e = .ok (if P then some v else none))
    (hv : P → k.num c v = z) : ∃ r, e = .ok r ∧ r.map (k.num c) = if P then some z else none := by
  refine ⟨_, h, ?_⟩
  by_cases hp : P
  · rw [if_pos hp, if_pos hp]; exact congrArg some (hv hp)
  · rw [if_neg hp, if_neg hp]; rfl

theorem min_cases (a b : I256) (hb : I256.toInt c b ≠ 0) :
    (¬ (I256.toInt c a = -2 ^ 255 ∧ I256.toInt c b = -1)) ↔ InI256 ((I256.toInt c a).tdiv (I256.toInt c b)) := by
  have ha := I256.toInt_in c a
  unfold InI256 at ha ⊢
  generalize I256.toInt c a = x at *
  generalize I256.toInt c b = y at *
  constructor
  · intro h
    by_cases hy : y = -1
    · subst hy
      rw [Int.tdiv_neg, Int.tdiv_one]; omega
    · have h1 : (x.tdiv y).natAbs = x.natAbs / y.natAbs := Int.natAbs_tdiv x y
      by_cases hy1 : y = 1
      · subst hy1; rw [Int.tdiv_one]; omega
      · have h2 : x.natAbs / y.natAbs ≤ x.natAbs / 2 := Nat.div_le_div_left (by omega) (by omega)
        omega
  · rintro h ⟨rfl, rfl⟩
    revert h; decide

theorem min_cases_euclid (a b : I256) (hb : I256.toInt c b ≠ 0) :
    (¬ (I256.toInt c a = -2 ^ 255 ∧ I256.toInt c b = -1)) ↔ InI256 (I256.toInt c a / I256.toInt c b) := by
  have ha := I256.toInt_in c a
  unfold InI256 at ha ⊢
  generalize I256.toInt c a = x at *
  generalize I256.toInt c b = y at *
  constructor
  · intro h
    by_cases hy : y = -1
    · subst hy
      rw [Int.ediv_neg, Int.ediv_one]; omega
    · rcases Int.lt_or_gt_of_ne hb with h0 | h0
      · have hy2 : 2 ≤ -y := by omega
        have h1 : x / y = -(x / -y) := by rw [Int.ediv_neg, neg_neg]
        rw [h1]
        have h2 : x / -y < 2 ^ 255 := Int.ediv_lt_of_lt_mul (by omega) (by nlinarith)
        have h3 : -2 ^ 254 ≤ x / -y := Int.le_ediv_of_mul_le (by omega) (by nlinarith)
        omega
      · have h2 : x / y < 2 ^ 255 := Int.ediv_lt_of_lt_mul (by omega) (by nlinarith)
        have h3 : -2 ^ 255 ≤ x / y := Int.le_ediv_of_mul_le (by omega) (by nlinarith)
        omega
  · rintro h ⟨rfl, rfl⟩
    revert h; decide

theorem checked_gives (o : Checked) (a b : k.Val) :
    ∃ r, o.eval c k a b = .ok r ∧ r.map (k.num c) = o.exact k (k.num c a) (k.num c b) := by
  cases k with
  | u =>
    have ha := U256.toNat_lt c a
    have hb := U256.toNat_lt c b
    cases o
    · have := checked_ok (c := c) (k := .u) (e := .ok (U256.checked_add c a b)) (z := (U256.toNat c a : Int) + U256.toNat c b)
        (congrArg Except.ok (C02_checked c a b).1)
        (fun h => by simp only [Kind.num, num_u_ofNat]; omega)
      obtain ⟨r, h1, h2⟩ := this
      refine ⟨r, h1, ?_⟩
      rw [h2]; simp only [Checked.exact, Kind.num, Kind.In, InU256]
      congr 1; simp only [eq_iff_iff]; omega
    · have := checked_ok (c := c) (k := .u) (e := .ok (U256.checked_sub c a b)) (z := (U256.toNat c a : Int) - U256.toNat c b)
        (congrArg Except.ok (C02_checked c a b).2)
        (fun h => by simp only [Kind.num, num_u_ofNat]; omega)
      obtain ⟨r, h1, h2⟩ := this
      refine ⟨r, h1, ?_⟩
      rw [h2]; simp only [Checked.exact, Kind.num, Kind.In, InU256]
      congr 1; simp only [eq_iff_iff]; omega
    · have := checked_ok (c := c) (k := .u) (e := U256.checked_mul c a b) (z := (U256.toNat c a : Int) * U256.toNat c b)
        (C03_mul c a b).2.2.1
        (fun h => by simp only [Kind.num, num_u_ofNat]; rw [← Int.natCast_mul]; omega)
      obtain ⟨r, h1, h2⟩ := this
      refine ⟨r, h1, ?_⟩
      rw [h2]; simp only [Checked.exact, Kind.num, Kind.In, InU256]
      congr 1; simp only [eq_iff_iff]; rw [← Int.natCast_mul]; omega
    · by_cases h0 : U256.toNat c b = 0
      · refine ⟨none, (C04_zero c a b h0).1, ?_⟩
        exact (if_neg (fun h => h.1 (show Kind.num c _ b = 0 by simp only [Kind.num, h0]; rfl))).symm
      · refine ⟨_, (C04_div c a b h0).2.2.2.2.2.1, ?_⟩
        have hl := Nat.div_le_self (U256.toNat c a) (U256.toNat c b)
        have e : (U256.toNat c a : Int).tdiv (U256.toNat c b) = ((U256.toNat c a / U256.toNat c b : Nat) : Int) := by
          simp [Int.tdiv_eq_ediv_of_nonneg]
        generalize U256.toNat c a / U256.toNat c b = q at e hl
        refine Eq.trans ?_ (if_pos ⟨by simp only [Kind.num]; omega, by
          simp only [Kind.num, e, Kind.In, InU256]; clear e; omega⟩).symm
        refine congrArg some ?_
        simp only [Kind.num, num_u_ofNat, e]
        clear e; omega
    · by_cases h0 : U256.toNat c b = 0
      · refine ⟨none, (C04_zero c a b h0).2.2.1, ?_⟩
        exact (if_neg (fun h => h.1 (show Kind.num c _ b = 0 by simp only [Kind.num, h0]; rfl))).symm
      · refine ⟨_, (C04_rem c a b h0).2.2.2.2.1, ?_⟩
        have hl := Nat.div_le_self (U256.toNat c a) (U256.toNat c b)
        have hm := Nat.mod_lt (U256.toNat c a) (Nat.pos_of_ne_zero h0)
        have e : (U256.toNat c a : Int).tdiv (U256.toNat c b) = ((U256.toNat c a / U256.toNat c b : Nat) : Int) := by
          simp [Int.tdiv_eq_ediv_of_nonneg]
        have e' : (U256.toNat c a : Int).tmod (U256.toNat c b) = ((U256.toNat c a % U256.toNat c b : Nat) : Int) := by
          simp [Int.tmod_eq_emod_of_nonneg]
        generalize U256.toNat c a / U256.toNat c b = q at e hl
        generalize U256.toNat c a % U256.toNat c b = m at e' hm
        refine Eq.trans ?_ (if_pos ⟨by simp only [Kind.num]; omega, by
          simp only [Kind.num, e, Kind.In, InU256]; clear e e'; omega⟩).symm
        refine congrArg some ?_
        simp only [Kind.num, num_u_ofNat, e']
        clear e e'; omega
    · by_cases h0 : U256.toNat c b = 0
      · refine ⟨none, (C04_zero c a b h0).2.1, ?_⟩
        exact (if_neg (fun h => h.1 (show Kind.num c _ b = 0 by simp only [Kind.num, h0]; rfl))).symm
      · refine ⟨_, (C04_div c a b h0).2.2.2.2.2.2.1, ?_⟩
        have hl := Nat.div_le_self (U256.toNat c a) (U256.toNat c b)
        have e : (U256.toNat c a : Int) / (U256.toNat c b) = ((U256.toNat c a / U256.toNat c b : Nat) : Int) := by simp
        generalize U256.toNat c a / U256.toNat c b = q at e hl
        refine Eq.trans ?_ (if_pos ⟨by simp only [Kind.num]; omega, by
          simp only [Kind.num, e, Kind.In, InU256]; clear e; omega⟩).symm
        refine congrArg some ?_
        simp only [Kind.num, num_u_ofNat, e]
        clear e; omega
    · by_cases h0 : U256.toNat c b = 0
      · refine ⟨none, (C04_zero c a b h0).2.2.2.1, ?_⟩
        exact (if_neg (fun h => h.1 (show Kind.num c _ b = 0 by simp only [Kind.num, h0]; rfl))).symm
      · refine ⟨_, (C04_rem c a b h0).2.2.2.2.2.1, ?_⟩
        have hl := Nat.div_le_self (U256.toNat c a) (U256.toNat c b)
        have hm := Nat.mod_lt (U256.toNat c a) (Nat.pos_of_ne_zero h0)
        have e : (U256.toNat c a : Int) / (U256.toNat c b) = ((U256.toNat c a / U256.toNat c b : Nat) : Int) := by simp
        have e' : (U256.toNat c a : Int) % (U256.toNat c b) = ((U256.toNat c a % U256.toNat c b : Nat) : Int) := by simp
        generalize U256.toNat c a / U256.toNat c b = q at e hl
        generalize U256.toNat c a % U256.toNat c b = m at e' hm
        refine Eq.trans ?_ (if_pos ⟨by simp only [Kind.num]; omega, by
          simp only [Kind.num, e, Kind.In, InU256]; clear e e'; omega⟩).symm
        refine congrArg some ?_
        simp only [Kind.num, num_u_ofNat, e']
        clear e e'; omega
  | i =>
    cases o
    · exact checked_ok (c := c) (k := .i) (e := .ok (I256.checked_add c a b)) (z := I256.toInt c a + I256.toInt c b)
        (congrArg Except.ok (C06_add c a b).2.2.1) (fun h => (num_iofInt _).trans (wrap_i_of_in h))
    · exact checked_ok (c := c) (k := .i) (e := .ok (I256.checked_sub c a b)) (z := I256.toInt c a - I256.toInt c b)
        (congrArg Except.ok (C06_sub c a b).2.2.1) (fun h => (num_iofInt _).trans (wrap_i_of_in h))
    · exact checked_ok (c := c) (k := .i) (e := I256.checked_mul c a b) (z := I256.toInt c a * I256.toInt c b)
        (C07_mul c a b).2.2.1 (fun h => (num_iofInt _).trans (wrap_i_of_in h))
    · by_cases h0 : I256.toInt c b = 0
      · refine ⟨none, (C08_zero c a b h0).1, ?_⟩
        exact (if_neg (fun h => h.1 (show Kind.num c _ b = 0 by simp only [Kind.num, h0]))).symm
      · by_cases hm : I256.toInt c a = -2 ^ 255 ∧ I256.toInt c b = -1
        · have ea : a = I256.MIN c := I256.toInt_inj c (hm.1.trans (C01_constants c 0).2.2.2.2.2.2.2.2.2.1.symm)
          have eb : b = I256.MINUS_ONE c := I256.toInt_inj c (hm.2.trans (C01_constants c 0).2.2.2.2.2.2.2.2.1.symm)
          refine ⟨none, by rw [ea, eb]; exact (C08_min_by_minus_one c).1, ?_⟩
          exact (if_neg (fun h => (min_cases a b h0).mpr h.2 hm)).symm
        · refine ⟨_, (C08_div_rem c a b h0 hm).2.2.1, ?_⟩
          have hin := (min_cases a b h0).mp hm
          refine Eq.trans ?_ (if_pos ⟨h0, hin⟩).symm
          exact congrArg some ((num_iofInt _).trans (wrap_i_of_in hin))
    · by_cases h0 : I256.toInt c b = 0
      · refine ⟨none, (C08_zero c a b h0).2.1, ?_⟩
        exact (if_neg (fun h => h.1 (show Kind.num c _ b = 0 by simp only [Kind.num, h0]))).symm
      · by_cases hm : I256.toInt c a = -2 ^ 255 ∧ I256.toInt c b = -1
        · have ea : a = I256.MIN c := I256.toInt_inj c (hm.1.trans (C01_constants c 0).2.2.2.2.2.2.2.2.2.1.symm)
          have eb : b = I256.MINUS_ONE c := I256.toInt_inj c (hm.2.trans (C01_constants c 0).2.2.2.2.2.2.2.2.1.symm)
          refine ⟨none, by rw [ea, eb]; exact (C08_min_by_minus_one c).2.1, ?_⟩
          exact (if_neg (fun h => (min_cases a b h0).mpr h.2 hm)).symm
        · refine ⟨_, (C08_div_rem c a b h0 hm).2.2.2.1, ?_⟩
          have hin := (min_cases a b h0).mp hm
          refine Eq.trans ?_ (if_pos ⟨h0, hin⟩).symm
          exact congrArg some ((num_iofInt _).trans (wrap_i_of_in (num_tmod_in _ _)))
    · by_cases h0 : I256.toInt c b = 0
      · refine ⟨none, (C09_zero c a b h0).1, ?_⟩
        exact (if_neg (fun h => h.1 (show Kind.num c _ b = 0 by simp only [Kind.num, h0]))).symm
      · by_cases hm : I256.toInt c a = -2 ^ 255 ∧ I256.toInt c b = -1
        · have ea : a = I256.MIN c := I256.toInt_inj c (hm.1.trans (C01_constants c 0).2.2.2.2.2.2.2.2.2.1.symm)
          have eb : b = I256.MINUS_ONE c := I256.toInt_inj c (hm.2.trans (C01_constants c 0).2.2.2.2.2.2.2.2.1.symm)
          refine ⟨none, by rw [ea, eb]; exact (C09_min_by_minus_one c).1, ?_⟩
          exact (if_neg (fun h => (min_cases_euclid a b h0).mpr h.2 hm)).symm
        · refine ⟨_, (C09_div_euclid_rem_euclid c a b h0 hm).2.2.1, ?_⟩
          have hin := (min_cases_euclid a b h0).mp hm
          refine Eq.trans ?_ (if_pos ⟨h0, hin⟩).symm
          exact congrArg some ((num_iofInt _).trans (wrap_i_of_in hin))
    · by_cases h0 : I256.toInt c b = 0
      · refine ⟨none, (C09_zero c a b h0).2.1, ?_⟩
        exact (if_neg (fun h => h.1 (show Kind.num c _ b = 0 by simp only [Kind.num, h0]))).symm
      · by_cases hm : I256.toInt c a = -2 ^ 255 ∧ I256.toInt c b = -1
        · have ea : a = I256.MIN c := I256.toInt_inj c (hm.1.trans (C01_constants c 0).2.2.2.2.2.2.2.2.2.1.symm)
          have eb : b = I256.MINUS_ONE c := I256.toInt_inj c (hm.2.trans (C01_constants c 0).2.2.2.2.2.2.2.2.1.symm)
          refine ⟨none, by rw [ea, eb]; exact (C09_min_by_minus_one c).2.1, ?_⟩
          exact (if_neg (fun h => (min_cases_euclid a b h0).mpr h.2 hm)).symm
        · refine ⟨_, (C09_div_euclid_rem_euclid c a b h0 hm).2.2.2.1, ?_⟩
          have hin := (min_cases_euclid a b h0).mp hm
          refine Eq.trans ?_ (if_pos ⟨h0, hin⟩).symm
          exact congrArg some ((num_iofInt _).trans (wrap_i_of_in (emod_in h0 (I256.toInt_in c b))))

theorem checked1_gives (o : Checked1 k) (a : k.Val) :
    ∃ r, o.eval c a = .ok r ∧ r.map (k.num c) = o.exact (k.num c a) := by
  cases o with
  | neg =>
    cases k with
    | u =>
      obtain ⟨r, h1, h2⟩ := checked_ok (c := c) (k := .u) (e := .ok (U256.checked_neg c a)) (z := -(U256.toNat c a : Int))
        (congrArg Except.ok (C02_neg c a).2.2) (fun h => by simp only [Kind.num, h]; rw [(C01_constants c 0).2.2.1]; rfl)
      refine ⟨r, h1, ?_⟩
      rw [h2]; simp only [Checked1.exact, Kind.num, Kind.In, InU256]
      congr 1; simp only [eq_iff_iff]; omega
    | i =>
      exact checked_ok (c := c) (k := .i) (e := I256.checked_neg c a) (z := -I256.toInt c a)
        (C06_neg c a).2.2.1 (fun h => (num_iofInt _).trans (wrap_i_of_in h))
  | abs =>
    obtain ⟨r, h1, h2⟩ := checked_ok (c := c) (k := .i) (z := ((I256.toInt c a).natAbs : Int))
      (C06_abs c a).2.2.1 (fun h => (num_iofInt _).trans (wrap_i_of_in h))
    refine ⟨r, h1, ?_⟩
    rw [h2]; simp only [Checked1.exact, Kind.num]
    congr 1
  | pow n =>
    cases k with
    | u =>
      obtain ⟨r, h1, h2⟩ := checked_ok (c := c) (k := .u) (e := U256.checked_pow c a n) (z := (U256.toNat c a : Int) ^ n.toNat)
        (C16_pow c a n).2.2.1 (fun h => by
          simp only [Kind.num, num_u_ofNat]; rw [← Int.natCast_pow]; generalize U256.toNat c a ^ n.toNat = m at *; omega)
      refine ⟨r, h1, ?_⟩
      rw [h2]; simp only [Checked1.exact, Kind.num]
      congr 1; simp only [eq_iff_iff, Kind.In, InU256]
      rw [← Int.natCast_pow]; generalize U256.toNat c a ^ n.toNat = m
      omega
    | i =>
      exact checked_ok (c := c) (k := .i) (e := I256.checked_pow c a n) (z := I256.toInt c a ^ n.toNat)
        (C17_pow c a n).2.2.1 (fun h => (num_iofInt _).trans (wrap_i_of_in h))
  | shl n =>
    cases k with
    | u =>
      obtain ⟨r, h1, h2⟩ := checked_ok (c := c) (k := .u) (e := U256.checked_shl c a n)
        (z := Kind.u.wrap ((U256.toNat c a : Int) * 2 ^ n.toNat))
        (C10_shl c a n).2.2 (fun h => by
          rw [Nat.mod_eq_of_lt (by omega)]
          simp only [Kind.num, num_u_ofNat, Kind.wrap]; push_cast; rfl)
      refine ⟨r, h1, ?_⟩
      rw [h2]; simp only [Checked1.exact, Kind.num]
      congr 1; simp only [eq_iff_iff]; omega
    | i =>
      obtain ⟨r, h1, h2⟩ := checked_ok (c := c) (k := .i) (e := I256.checked_shl c a n)
        (z := Kind.i.wrap (I256.toInt c a * 2 ^ n.toNat))
        (C11_shl c a n).2.2 (fun h => by
          rw [Nat.mod_eq_of_lt (by omega)]
          exact num_iofInt _)
      refine ⟨r, h1, ?_⟩
      rw [h2]; simp only [Checked1.exact, Kind.num]
      congr 1; simp only [eq_iff_iff]; omega
  | shr n =>
    cases k with
    | u =>
      obtain ⟨r, h1, h2⟩ := checked_ok (c := c) (k := .u) (e := U256.checked_shr c a n)
        (z := (U256.toNat c a : Int) / 2 ^ n.toNat)
        (C10_shr c a n).2.2 (fun h => by
          rw [Nat.mod_eq_of_lt (by omega)]
          simp only [Kind.num]
          rw [(C01_spec_ofNat c _ 0).1, Nat.mod_eq_of_lt (lt_of_le_of_lt (Nat.div_le_self _ _) (U256.toNat_lt c a))]
          push_cast; rfl)
      refine ⟨r, h1, ?_⟩
      rw [h2]; simp only [Checked1.exact, Kind.num]
      congr 1; simp only [eq_iff_iff]; omega
    | i =>
      obtain ⟨r, h1, h2⟩ := checked_ok (c := c) (k := .i) (e := I256.checked_shr c a n)
        (z := I256.toInt c a / 2 ^ n.toNat)
        (C11_shr c a n).2.2 (fun h => by
          rw [Nat.mod_eq_of_lt (by omega)]
          simp only [Kind.num]
          rw [num_iofInt, wrap_i_of_in (num_ediv_in _ _)])
      refine ⟨r, h1, ?_⟩
      rw [h2]; simp only [Checked1.exact, Kind.num]
      congr 1; simp only [eq_iff_iff]; omega
  | nextPowerOfTwo =>
    have h := C18_next_power_of_two c a
    rcases Nat.lt_or_ge (2 ^ 255) (U256.toNat c a) with hl | hl
    · refine ⟨none, (h.2 hl).1, ?_⟩
      exact (if_neg (by simp only [Kind.num]; omega)).symm
    · obtain ⟨r, -, h1, h2⟩ := h.1 hl
      refine ⟨_, h1, ?_⟩
      refine Eq.trans ?_ (if_pos (by simp only [Kind.num]; omega)).symm
      refine congrArg some ?_
      show (U256.toNat c r : Int) = ((leastPower (U256.toNat c a) 256 1 : Nat) : Int)
      rw [leastPower_next _ _ hl h2]

theorem decimal_iff (s : List (BitVec 8)) (n : Nat) : decimal s = some n ↔ Numeral 10 s n := by
  have key : ∀ s : List (BitVec 8), (s ≠ [] ∧ ∀ b ∈ s, 48 ≤ b.toNat ∧ b.toNat ≤ 57) →
      Numeral 10 s (s.foldl (fun v b => v * 10 + (b.toNat - 48)) 0) := by
    intro s
    induction s using List.reverseRecOn with
    | nil => intro h; exact absurd rfl h.1
    | append_singleton l b ih =>
      intro h
      have hb := h.2 b (by simp)
      have hd : IsDigit 10 b (b.toNat - 48) := ⟨by omega, .inl ⟨by omega, by omega⟩⟩
      rw [List.foldl_append]
      simp only [List.foldl_cons, List.foldl_nil]
      by_cases hl : l = []
      · subst hl; simpa using Numeral.one hd
      · exact Numeral.snoc (ih ⟨hl, fun b hb => h.2 b (by simp [hb])⟩) hd
  have key2 : ∀ s n, Numeral 10 s n → (s ≠ [] ∧ ∀ b ∈ s, 48 ≤ b.toNat ∧ b.toNat ≤ 57)
      ∧ s.foldl (fun v b => v * 10 + (b.toNat - 48)) 0 = n := by
    intro s n h
    induction h with
    | @one b d hd => obtain ⟨h1, h2⟩ := hd; refine ⟨⟨by simp, by simp; omega⟩, by simp; omega⟩
    | @snoc l v b d _ hd ih =>
      obtain ⟨h1, h2⟩ := hd
      refine ⟨⟨by simp, fun x hx => ?_⟩, ?_⟩
      · rcases List.mem_append.mp hx with hx | hx
        · exact ih.1.2 x hx
        · simp at hx; subst hx; omega
      · rw [List.foldl_append, ih.2]; simp; omega
  unfold decimal
  constructor
  · intro h
    by_cases hs : s ≠ [] ∧ ∀ b ∈ s, 48 ≤ b.toNat ∧ b.toNat ≤ 57
    · rw [if_pos hs] at h; cases h; exact key s hs
    · rw [if_neg hs] at h; cases h
  · intro h
    obtain ⟨h1, h2⟩ := key2 s n h
    rw [if_pos h1, h2]

theorem parse_u (s : List (BitVec 8)) : Kind.u.parse s
    = (decimal (dropPlus s)).bind fun n => if Kind.u.In n then some (n : Int) else none := by
  simp only [Kind.parse, Kind.denoted]
  cases decimal (dropPlus s) <;> rfl
theorem parse_i (s : List (BitVec 8)) : Kind.i.parse s
    = (if s.head? = some 45 then (decimal s.tail).map (fun n : Nat => -(n : Int))
        else (decimal (dropPlus s)).map (fun n : Nat => (n : Int))).bind fun z => if Kind.i.In z then some z else none := rfl

theorem parse_gives (s : List (BitVec 8)) :
    ∃ r, k.fromStr c s = .ok r ∧ r.toOption.map (k.num c) = k.parse s := by
  cases k with
  | u =>
    obtain ⟨⟨r, hr⟩, h, -⟩ := C28_from_str_radix c s 10 (by decide)
    refine ⟨r, hr, ?_⟩
    cases hd : decimal (dropPlus s) with
    | none =>
      rw [parse_u, hd, Option.bind_none]
      cases r with
      | error e => rfl
      | ok v => have := (decimal_iff _ _).mpr ((h v).mp hr); rw [hd] at this; cases this
    | some n =>
      have hn := (decimal_iff _ _).mp hd
      rw [parse_u, hd, Option.bind_some]
      by_cases hin : Kind.u.In n
      · have h' := C28_complete c s 10 (by decide) n (by simp only [Kind.In, InU256] at hin; omega) hn
        cases hr.symm.trans h'
        rw [if_pos hin]
        refine congrArg some ?_
        simp only [Kind.num, num_u_ofNat]
        simp only [Kind.In, InU256] at hin; omega
      · cases r with
        | error e => rw [if_neg hin]; rfl
        | ok v =>
          have h1 := (decimal_iff _ _).mpr ((h v).mp hr)
          rw [hd] at h1; cases h1
          exact absurd (by have := U256.toNat_lt c v; simp only [Kind.In, InU256]; omega) hin
  | i =>
    obtain ⟨⟨r, hr⟩, h, -⟩ := C29_from_str_radix c s 10 (by decide)
    refine ⟨r, hr, ?_⟩
    have hz : ∀ z, (if s.head? = some 45 then (decimal s.tail).map (fun n : Nat => -(n : Int)) else (decimal (dropPlus s)).map (fun n : Nat => (n : Int))) = some z
        ↔ SignedNumeral [] 10 s z := by
      intro z
      unfold SignedNumeral
      split
      · rename_i h45
        obtain ⟨t, rfl⟩ : ∃ t, s = 45 :: t := by cases s <;> simp_all
        simp only [List.tail_cons, Option.map_eq_some_iff, List.nil_append, List.cons.injEq, true_and]
        constructor
        · rintro ⟨n, h1, h2⟩; exact .inr ⟨t, n, rfl, (decimal_iff _ _).mp h1, h2.symm⟩
        · rintro (⟨t', n, h1, h2, -⟩ | ⟨t', n, rfl, h2, h3⟩)
          · exfalso
            have hd : dropPlus (45 :: t) = 45 :: t := by simp [dropPlus]
            rw [hd] at h1; subst h1
            have := (decimal_iff _ _).mpr h2
            unfold decimal at this
            rw [if_neg (by simp)] at this
            cases this
          · exact ⟨n, (decimal_iff _ _).mpr h2, h3.symm⟩
      · rename_i h45
        simp only [Option.map_eq_some_iff, List.nil_append]
        constructor
        · rintro ⟨n, h1, h2⟩; exact .inl ⟨_, n, rfl, (decimal_iff _ _).mp h1, h2.symm⟩
        · rintro (⟨t', n, rfl, h2, h3⟩ | ⟨t', n, rfl, h2, h3⟩)
          · exact ⟨n, (decimal_iff _ _).mpr h2, h3.symm⟩
          · exact absurd rfl h45
    rw [parse_i]
    generalize hq : (if s.head? = some 45 then (decimal s.tail).map (fun n : Nat => -(n : Int)) else (decimal (dropPlus s)).map (fun n : Nat => (n : Int))) = q at hz ⊢
    cases q with
    | none =>
      cases r with
      | error e => rfl
      | ok v => have := (hz _).mpr ((h v).mp hr); cases this
    | some z =>
      have hn := (hz z).mp rfl
      rw [Option.bind_some]
      by_cases hin : Kind.i.In z
      · have h' := C29_complete c s 10 (by decide) z hin hn
        cases hr.symm.trans h'
        rw [if_pos hin]
        exact congrArg some ((num_iofInt _).trans (wrap_i_of_in hin))
      · rw [if_neg hin]
        cases r with
        | error e => rfl
        | ok v =>
          have h1 := (hz _).mpr ((h v).mp hr)
          cases h1
          exact absurd (I256.toInt_in c v) hin

theorem digitValue_iff (r : Nat) (hr : r ≤ 36) (b : BitVec 8) (d : Nat) : digitValue r b = some d ↔ IsDigit r b d := by
  unfold digitValue IsDigit
  dsimp only
  split_ifs <;> simp only [Option.some.injEq, false_iff] <;> omega

theorem digitsFrom_append (r : Nat) (l l' : List (BitVec 8)) (v : Nat) :
    digitsFrom r v (l ++ l') = (digitsFrom r v l).bind fun w => digitsFrom r w l' := by
  induction l generalizing v with
  | nil => rfl
  | cons b l ih =>
    simp only [List.cons_append, digitsFrom]
    cases digitValue r b with
    | none => rfl
    | some d => exact ih _

theorem numeral_iff (r : Nat) (hr : r ≤ 36) (s : List (BitVec 8)) (n : Nat) : numeral r s = some n ↔ Numeral r s n := by
  have key : ∀ (l : List (BitVec 8)) (m : Nat), l ≠ [] → digitsFrom r 0 l = some m → Numeral r l m := by
    intro l
    induction l using List.reverseRecOn with
    | nil => intro m h; exact absurd rfl h
    | append_singleton l b ih =>
      intro m _ h
      rw [digitsFrom_append] at h
      obtain ⟨w, h1, h2⟩ := Option.bind_eq_some_iff.mp h
      simp only [digitsFrom] at h2
      obtain ⟨d, h3, h4⟩ := Option.bind_eq_some_iff.mp h2
      cases h4
      have hd := (digitValue_iff r hr b d).mp h3
      by_cases hl : l = []
      · subst hl; cases h1; simpa using Numeral.one hd
      · exact Numeral.snoc (ih w hl h1) hd
  have key2 : ∀ l m, Numeral r l m → l ≠ [] ∧ digitsFrom r 0 l = some m := by
    intro l m h
    induction h with
    | one hd =>
      refine ⟨by simp, ?_⟩
      simp [digitsFrom, (digitValue_iff r hr _ _).mpr hd]
    | snoc _ hd ih =>
      refine ⟨by simp, ?_⟩
      rw [digitsFrom_append, ih.2]
      simp [digitsFrom, (digitValue_iff r hr _ _).mpr hd]
  unfold numeral
  constructor
  · intro h
    by_cases hs : s = []
    · rw [if_pos hs] at h; cases h
    · rw [if_neg hs] at h; exact key s n hs h
  · intro h
    obtain ⟨h1, h2⟩ := key2 s n h
    rw [if_neg h1, h2]

theorem take_two (s : List (BitVec 8)) (a b : BitVec 8) : s.take 2 = [a, b] ↔ ∃ t, s = [a, b] ++ t := by
  constructor
  · intro h; exact ⟨s.drop 2, by rw [← h, List.take_append_drop]⟩
  · rintro ⟨t, rfl⟩; rfl

theorem not_numeral10 (a : BitVec 8) (ha : 57 < a.toNat) (t : List (BitVec 8)) (n : Nat) :
    ¬ Numeral 10 ([48, a] ++ t) n := by
  intro h
  have := (decimal_iff _ _).mpr h
  unfold decimal at this
  rw [if_neg (fun h' => by have := h'.2 a (by simp); omega)] at this
  cases this

theorem prefixed_iff (s : List (BitVec 8)) (n : Nat) : TextIn.prefixed.magnitude s = some n ↔ PrefixedNumeral s n := by
  have s1 : str "0b" = [48, 98] := by decide
  have s2 : str "0o" = [48, 111] := by decide
  have s3 : str "0x" = [48, 120] := by decide
  simp only [TextIn.magnitude, s1, s2, s3]
  unfold PrefixedNumeral
  by_cases h1 : ∃ t, s = [48, 98] ++ t
  · obtain ⟨t, rfl⟩ := h1
    rw [if_pos ((take_two _ _ _).mpr ⟨t, rfl⟩)]
    simp only [List.cons_append, List.nil_append, List.drop_succ_cons, List.drop_zero]
    rw [numeral_iff 2 (by omega)]
    constructor
    · intro h; exact .inl ⟨t, rfl, h⟩
    · rintro (⟨t', h, hn⟩ | ⟨t', h, -⟩ | ⟨t', h, -⟩ | h)
      · cases h; exact hn
      · simp at h
      · simp at h
      · exact absurd h (not_numeral10 98 (by decide) t n)
  · rw [if_neg (fun h => h1 ((take_two _ _ _).mp h))]
    by_cases h2 : ∃ t, s = [48, 111] ++ t
    · obtain ⟨t, rfl⟩ := h2
      rw [if_pos ((take_two _ _ _).mpr ⟨t, rfl⟩)]
      simp only [List.cons_append, List.nil_append, List.drop_succ_cons, List.drop_zero]
      rw [numeral_iff 8 (by omega)]
      constructor
      · intro h; exact .inr (.inl ⟨t, rfl, h⟩)
      · rintro (⟨t', h, -⟩ | ⟨t', h, hn⟩ | ⟨t', h, -⟩ | h)
        · simp at h
        · cases h; exact hn
        · simp at h
        · exact absurd h (not_numeral10 111 (by decide) t n)
    · rw [if_neg (fun h => h2 ((take_two _ _ _).mp h))]
      by_cases h3 : ∃ t, s = [48, 120] ++ t
      · obtain ⟨t, rfl⟩ := h3
        rw [if_pos ((take_two _ _ _).mpr ⟨t, rfl⟩)]
        simp only [List.cons_append, List.nil_append, List.drop_succ_cons, List.drop_zero]
        rw [numeral_iff 16 (by omega)]
        constructor
        · intro h; exact .inr (.inr (.inl ⟨t, rfl, h⟩))
        · rintro (⟨t', h, -⟩ | ⟨t', h, -⟩ | ⟨t', h, hn⟩ | h)
          · simp at h
          · simp at h
          · cases h; exact hn
          · exact absurd h (not_numeral10 120 (by decide) t n)
      · rw [if_neg (fun h => h3 ((take_two _ _ _).mp h)), numeral_iff 10 (by omega)]
        constructor
        · intro h; exact .inr (.inr (.inr h))
        · rintro (⟨t', h, -⟩ | ⟨t', h, -⟩ | ⟨t', h, -⟩ | h)
          · exact absurd ⟨t', h⟩ h1
          · exact absurd ⟨t', h⟩ h2
          · exact absurd ⟨t', h⟩ h3
          · exact h

/-- What a parser accepts, against what the text denotes. -/
theorem parser_gives {f : TextIn} {e : Res (ParseResult k.Val)} {s : List (BitVec 8)} (ht : ∃ r, e = .ok r)
    (h : ∀ x, e = .ok (.ok x) ↔ f.denoted k s = some (k.num c x))
    (hc : ∀ z, k.In z → ∃ x, k.num c x = z) (hr : ∀ x, k.In (k.num c x)) :
    ∃ r, e = .ok r ∧ r.toOption.map (k.num c) = f.parse k s := by
  obtain ⟨r, rfl⟩ := ht
  refine ⟨r, rfl, ?_⟩
  unfold TextIn.parse
  cases hd : f.denoted k s with
  | none =>
    cases r with
    | error _ => rfl
    | ok v => have := (h v).mp rfl; rw [hd] at this; cases this
  | some z =>
    rw [Option.bind_some]
    by_cases hin : k.In z
    · obtain ⟨x, hx⟩ := hc z hin
      have := (h x).mpr (by rw [hd, hx])
      cases this
      rw [if_pos hin]; exact congrArg some hx
    · rw [if_neg hin]
      cases r with
      | error _ => rfl
      | ok v =>
        have := (h v).mp rfl; rw [hd] at this; cases this
        exact absurd (hr v) hin

theorem num_onto (z : Int) (h : k.In z) : ∃ x, k.num c x = z := by
  cases k with
  | u => exact ⟨U256.ofInt c z, (num_ofInt z).trans (wrap_u_of_in h)⟩
  | i => exact ⟨I256.ofInt c z, (num_iofInt z).trans (wrap_i_of_in h)⟩
theorem num_in (x : k.Val) : k.In (k.num c x) := by
  cases k with
  | u => have := U256.toNat_lt c x; simp only [Kind.In, InU256, Kind.num]; omega
  | i => exact I256.toInt_in c x

theorem denoted_u (f : TextIn) (s : List (BitVec 8)) (n : Nat) :
    f.denoted .u s = some (n : Int) ↔ f.magnitude (dropPlus s) = some n := by
  simp only [TextIn.denoted, Option.map_eq_some_iff, Nat.cast_inj]
  exact ⟨fun ⟨a, h1, h2⟩ => h2 ▸ h1, fun h => ⟨n, h, rfl⟩⟩

theorem denoted_i (f : TextIn) (s : List (BitVec 8)) (z : Int)
    (hf : ∀ t, s = 45 :: t → f.magnitude s = none) :
    f.denoted .i s = some z ↔ (∃ n : Nat, f.magnitude (dropPlus s) = some n ∧ z = n)
      ∨ (∃ t, ∃ n : Nat, s = 45 :: t ∧ f.magnitude t = some n ∧ z = -n) := by
  simp only [TextIn.denoted]
  split
  · rename_i h45
    obtain ⟨t, rfl⟩ : ∃ t, s = 45 :: t := by cases s <;> simp_all
    have hd : dropPlus (45 :: t) = 45 :: t := by simp [dropPlus]
    rw [hd, hf t rfl]
    simp only [List.tail_cons, Option.map_eq_some_iff, reduceCtorEq, false_and, exists_false, false_or]
    constructor
    · rintro ⟨n, h1, h2⟩; exact ⟨t, n, rfl, h1, h2.symm⟩
    · rintro ⟨t', n, h1, h2, h3⟩; cases h1; exact ⟨n, h2, h3.symm⟩
  · rename_i h45
    simp only [Option.map_eq_some_iff]
    constructor
    · rintro ⟨n, h1, h2⟩; exact .inl ⟨n, h1, h2.symm⟩
    · rintro (⟨n, h1, h2⟩ | ⟨t, n, rfl, -⟩)
      · exact ⟨n, h1, h2.symm⟩
      · exact absurd rfl h45

theorem numeral_minus (r : Nat) (hr : r ≤ 36) (t : List (BitVec 8)) : numeral r (45 :: t) = none := by
  unfold numeral
  rw [if_neg (by simp)]
  simp only [digitsFrom]
  have : digitValue r 45 = none := by
    cases h : digitValue r 45 with
    | none => rfl
    | some d =>
      have := (digitValue_iff r hr _ _).mp h
      obtain ⟨-, h2⟩ := this
      have : (45 : BitVec 8).toNat = 45 := rfl
      omega
  rw [this]; rfl

theorem textIn_gives (f : TextIn) (s : List (BitVec 8)) :
    if f.bad = true then Panics (f.eval c k s)
    else ∃ r, f.eval c k s = .ok r ∧ r.toOption.map (k.num c) = f.parse k s := by
  cases f with
  | radix r =>
    simp only [TextIn.bad, Bool.or_eq_true, decide_eq_true_eq]
    split
    · rename_i hb
      cases k with
      | u => exact ⟨_, C28_bad_radix c s r (by omega)⟩
      | i => exact ⟨_, C29_bad_radix c s r (by omega)⟩
    · rename_i hb
      have h36 : r.toNat ≤ 36 := by omega
      cases k with
      | u =>
        have h := C28_from_str_radix c s r (by omega)
        refine parser_gives h.1 (fun x => ?_) num_onto num_in
        simp only [TextIn.eval, Kind.num]
        rw [h.2.1, denoted_u]
        exact (numeral_iff _ h36 _ _).symm
      | i =>
        have h := C29_from_str_radix c s r (by omega)
        refine parser_gives h.1 (fun x => ?_) num_onto num_in
        simp only [TextIn.eval, Kind.num]
        rw [h.2.1, denoted_i _ _ _ (fun t ht => by rw [ht]; exact numeral_minus _ h36 t)]
        simp only [SignedNumeral, TextIn.magnitude, numeral_iff _ h36, List.nil_append]
        constructor
        · rintro (⟨t, n, h1, h2, h3⟩ | ⟨t, n, h1, h2, h3⟩)
          · exact .inl ⟨n, h1 ▸ h2, h3⟩
          · exact .inr ⟨t, n, h1, h2, h3⟩
        · rintro (⟨n, h2, h3⟩ | ⟨t, n, h1, h2, h3⟩)
          · exact .inl ⟨_, n, rfl, h2, h3⟩
          · exact .inr ⟨t, n, h1, h2, h3⟩
  | hex =>
    have s3 : str "0x" = [48, 120] := by decide
    have hm : ∀ (l : List (BitVec 8)) (n : Nat), TextIn.hex.magnitude l = some n ↔ ∃ t, l = str "0x" ++ t ∧ Numeral 16 t n := by
      intro l n
      simp only [TextIn.magnitude, s3]
      by_cases h : ∃ t, l = [48, 120] ++ t
      · obtain ⟨t, rfl⟩ := h
        rw [if_pos ((take_two _ _ _).mpr ⟨t, rfl⟩)]
        simp only [List.cons_append, List.nil_append, List.drop_succ_cons, List.drop_zero]
        rw [numeral_iff 16 (by omega)]
        exact ⟨fun h => ⟨t, rfl, h⟩, fun ⟨t', h1, h2⟩ => by cases h1; exact h2⟩
      · rw [if_neg (fun h' => h ((take_two _ _ _).mp h'))]
        exact ⟨fun h => (by cases h), fun ⟨t', h1, h2⟩ => absurd ⟨t', h1⟩ h⟩
    rw [if_neg (by decide)]
    have h := C30_from_str_hex c s
    cases k with
    | u =>
      refine parser_gives h.1 (fun x => ?_) num_onto num_in
      simp only [TextIn.eval, Kind.num]
      rw [h.2.2.1, denoted_u, hm]
    | i =>
      refine parser_gives h.2.1 (fun x => ?_) num_onto num_in
      simp only [TextIn.eval, Kind.num]
      rw [h.2.2.2.1, denoted_i _ _ _ (fun t ht => by rw [ht]; simp [TextIn.magnitude, s3])]
      simp only [SignedNumeral, hm]
      constructor
      · rintro (⟨t, n, h1, h2, h3⟩ | ⟨t, n, h1, h2, h3⟩)
        · exact .inl ⟨n, ⟨t, h1, h2⟩, h3⟩
        · exact .inr ⟨_, n, h1, ⟨t, rfl, h2⟩, h3⟩
      · rintro (⟨n, ⟨t, h1, h2⟩, h3⟩ | ⟨t, n, h1, ⟨t', h2, h4⟩, h3⟩)
        · exact .inl ⟨t, n, h1, h2, h3⟩
        · exact .inr ⟨t', n, h2 ▸ h1, h4, h3⟩
  | prefixed =>
    rw [if_neg (by decide)]
    cases k with
    | u =>
      have h := C30_u256_from_str_prefixed c s
      refine parser_gives h.1 (fun x => ?_) num_onto num_in
      simp only [TextIn.eval, Kind.num]
      rw [h.2.1, denoted_u, prefixed_iff]
    | i =>
      have h := C30_i256_from_str_prefixed c s
      refine parser_gives h.1 (fun x => ?_) num_onto num_in
      simp only [TextIn.eval, Kind.num]
      have hmin : ∀ t, s = 45 :: t → TextIn.prefixed.magnitude s = none := by
        rintro t rfl
        have := numeral_minus 10 (by omega) t
        simp [TextIn.magnitude, str]; exact this
      rw [h.2.1, denoted_i _ _ _ hmin]
      simp only [SignedPrefixedNumeral, prefixed_iff]

theorem formatRadix_gives (r : Radix) (alt : Bool) (a : k.Val) :
    k.formatRadix c r alt a = .ok (textOut r alt (k.num c a)) := by
  cases k with
  | u =>
    obtain ⟨-, -, ⟨t, h1, l, z, k, h2, h3, -⟩, -⟩ := C33_format_string c r a I256.ZERO (plainSpec alt)
    simp only [Kind.formatRadix]
    rw [h1]; refine congrArg Except.ok (h2.trans ?_)
    have : l = 0 ∧ z = 0 ∧ k = 0 := by simp [plainSpec] at h3; omega
    obtain ⟨rfl, rfl, rfl⟩ := this
    have ha : ((U256.toNat c a : Int) % 2 ^ 256).toNat = U256.toNat c a := by have := U256.toNat_lt c a; omega
    simp only [textOut, Kind.num, ha]
    simp [plainSpec]; rfl
  | i =>
    obtain ⟨-, -, -, ⟨t, h1, l, z, k, h2, h3, -⟩, -⟩ := C33_format_string c r U256.ZERO a (plainSpec alt)
    simp only [Kind.formatRadix]
    rw [h1]; refine congrArg Except.ok (h2.trans ?_)
    have : l = 0 ∧ z = 0 ∧ k = 0 := by simp [plainSpec] at h3; omega
    obtain ⟨rfl, rfl, rfl⟩ := this
    simp only [textOut, Kind.num]
    simp [plainSpec]; rfl

theorem display_gives (a : k.Val) : k.display c a = .ok (toString (k.num c a)).toList := by
  cases k with
  | u => exact (C32_display_plain c a I256.ZERO).1
  | i => exact (C32_display_plain c U256.ZERO a).2

/-! ### Programs -/

theorem agrees_bind {t : Except Stop Numbers} {r : Res Store} {g : Numbers → Except Stop Numbers} {f : Store → Res Store}
    (h : Agrees c t r) (hf : ∀ σ, Agrees c (g (σ.numbers c)) (f σ)) : Agrees c (t >>= g) (r >>= f) := by
  match t, h with
  | .ok τ, h => obtain ⟨σ, rfl, rfl⟩ := h; exact hf σ
  | .error .panic, h => obtain ⟨p, rfl⟩ := h; exact ⟨p, rfl⟩
  | .error .unfinished, h => cases h; exact rfl

theorem agrees_value {e : Res k.Val} {z : Option Int} {g : Int → Except Stop Numbers} {f : k.Val → Res Store}
    (h : Gives c k e z) (hf : ∀ v, Agrees c (g (k.num c v)) (f v)) : Agrees c (orPanic z >>= g) (e >>= f) := by
  cases z with
  | some z => obtain ⟨v, rfl, rfl⟩ := h; exact hf v
  | none => obtain ⟨p, rfl⟩ := h; exact ⟨p, rfl⟩

theorem agrees_test {e : Res Bool} {z : Option Bool} {g : Bool → Except Stop Numbers} {f : Bool → Res Store}
    (h : GivesA e z) (hf : ∀ v, Agrees c (g v) (f v)) : Agrees c (orPanic z >>= g) (e >>= f) := by
  cases z with
  | some z => subst h; exact hf z
  | none => obtain ⟨p, rfl⟩ := h; exact ⟨p, rfl⟩

theorem numbers_set (σ : Store) (x : Nat) (v : k.Val) :
    (σ.set k x v).numbers c = (σ.numbers c).set k x (k.num c v) := by
  refine Numbers.ext ?_ rfl rfl
  funext k' x'
  simp only [Store.numbers, Store.set, Numbers.set]
  by_cases hk : k' = k
  · subst hk
    by_cases hx : x' = x
    · simp [hx]
    · simp [hx]
  · simp [hk]

theorem agrees_ok {σ : Store} {τ : Numbers} (h : σ.numbers c = τ) : Agrees c (.ok τ) (.ok σ) := ⟨σ, rfl, h⟩

section Run
attribute [local irreducible] Assign.result Kind.fit Checked.exact Checked1.exact Kind.parse TextIn.parse

theorem run_agrees (n : Nat) (p : Prog) (σ : Store) :
    Agrees c (p.exact c.debugAssertions n (σ.numbers c)) (p.run c n σ) := by
  induction n generalizing p σ with
  | zero => exact rfl
  | succ n ih =>
    cases p with
    | skip => exact agrees_ok rfl
    | set x e => exact agrees_value (ex_gives σ.var e) fun v => agrees_ok (numbers_set σ x v)
    | upd o x e =>
      exact agrees_value (ex_gives σ.var e) fun v => agrees_value (evalAssign_gives o _ v) fun w => agrees_ok (numbers_set σ x w)
    | seq p q => exact agrees_bind (ih p σ) fun τ => ih q τ
    | ite t p q =>
      refine agrees_test (test_gives σ.var t) fun b => ?_
      cases b
      · exact ih q σ
      · exact ih p σ
    | loop t p =>
      refine agrees_test (test_gives σ.var t) fun b => ?_
      cases b
      · exact agrees_ok rfl
      · exact agrees_bind (ih p σ) fun τ => ih _ τ
    | @checked k o x a b q =>
      refine agrees_value (ex_gives σ.var a) fun v => agrees_value (ex_gives σ.var b) fun w => ?_
      obtain ⟨r, h1, h2⟩ := checked_gives (c := c) o v w
      rw [h1, ← h2]
      cases r with
      | some u => exact agrees_ok (numbers_set σ x u)
      | none => exact ih q σ
    | toSigned x e q =>
      refine agrees_value (ex_gives σ.var e) fun v => ?_
      cases hr : I256.try_from_u256 c v with
      | some w =>
        have h := (C23_between c v w).1.mp hr
        have hw := I256.toInt_in c w
        unfold InI256 at hw
        rw [if_pos (show Kind.num c .u v < 2 ^ 255 by simp only [Kind.num]; omega)]
        exact agrees_ok ((numbers_set (k := .i) σ x w).trans (congrArg ((σ.numbers c).set .i x) h))
      | none =>
        have h := (C23_between c v I256.ZERO).2.1.mp hr
        rw [if_neg (show ¬ Kind.num c .u v < 2 ^ 255 by simp only [Kind.num]; omega)]
        exact ih q σ
    | toUnsigned x e q =>
      refine agrees_value (ex_gives σ.var e) fun v => ?_
      cases hr : U256.try_from_i256 c v with
      | some w =>
        have h := (C23_between c w v).2.2.1.mp hr
        rw [if_pos (show 0 ≤ Kind.num c .i v by simp only [Kind.num]; omega)]
        exact agrees_ok ((numbers_set (k := .u) σ x w).trans (congrArg ((σ.numbers c).set .u x) h))
      | none =>
        have h := (C23_between c U256.ZERO v).2.2.2.mp hr
        rw [if_neg (show ¬ 0 ≤ Kind.num c .i v by simp only [Kind.num]; omega)]
        exact ih q σ
    | read k x q =>
      simp only [Prog.exact, Prog.run]
      cases hi : σ.input with
      | nil => simp only [Store.numbers, hi]; simpa only [Store.numbers, hi] using ih q σ
      | cons l ls =>
        obtain ⟨r, h1, h2⟩ := parse_gives (c := c) (k := k) l
        simp only [Store.numbers, hi]
        rw [h1, ← h2]
        cases r with
        | ok v => exact agrees_ok (numbers_set { σ with input := ls } x v)
        | error e => exact ih q { σ with input := ls }
    | @print k e =>
      refine agrees_value (ex_gives σ.var e) fun v => ?_
      rw [display_gives v]
      exact agrees_ok rfl
    | @checked1 k o x a q =>
      refine agrees_value (ex_gives σ.var a) fun v => ?_
      obtain ⟨r, h1, h2⟩ := checked1_gives (c := c) o v
      rw [h1, ← h2]
      cases r with
      | some u => exact agrees_ok (numbers_set σ x u)
      | none => exact ih q σ
    | readAs f k x q =>
      simp only [Prog.exact, Prog.run]
      cases hi : σ.input with
      | nil => simp only [Store.numbers, hi]; simpa only [Store.numbers, hi] using ih q σ
      | cons l ls =>
        have h := textIn_gives (c := c) (k := k) f l
        simp only [Store.numbers, hi]
        by_cases hb : f.bad = true
        · rw [if_pos hb] at h ⊢
          obtain ⟨p, hp⟩ := h
          rw [hp]; exact ⟨p, rfl⟩
        · rw [if_neg hb] at h ⊢
          obtain ⟨r, h1, h2⟩ := h
          rw [h1, ← h2]
          cases r with
          | ok v => exact agrees_ok (numbers_set { σ with input := ls } x v)
          | error e => exact ih q { σ with input := ls }
    | @printAs k r alt e =>
      refine agrees_value (ex_gives σ.var e) fun v => ?_
      rw [formatRadix_gives r alt v]
      exact agrees_ok rfl
end Run

/-- More steps do not change an outcome. -/
theorem exact_mono (debug : Bool) : ∀ (n : Nat) (p : Prog) (σ : Numbers), p.exact debug n σ ≠ .error .unfinished →
    ∀ m, n ≤ m → p.exact debug m σ = p.exact debug n σ := by
  intro n
  induction n with
  | zero => intro p σ h; exact absurd rfl h
  | succ n ih =>
    intro p σ h m hm
    obtain ⟨m, rfl⟩ : ∃ m', m = m' + 1 := ⟨m - 1, by omega⟩
    have hm' : n ≤ m := by omega
    have sub : ∀ (p : Prog) (σ : Numbers), p.exact debug n σ ≠ .error .unfinished → p.exact debug m σ = p.exact debug n σ :=
      fun p σ h => ih p σ h m hm'
    have sub2 : ∀ (p : Prog) (σ : Numbers) (q : Prog), ((p.exact debug n σ) >>= fun τ => Prog.exact debug n q τ) ≠ .error .unfinished →
        ((p.exact debug m σ) >>= fun τ => Prog.exact debug m q τ)
          = ((p.exact debug n σ) >>= fun τ => Prog.exact debug n q τ) := by
      intro p σ q h
      rw [sub p σ (fun h' => h (by rw [h']; rfl))]
      match h1 : p.exact debug n σ with
      | .ok τ => exact sub q τ (fun h' => h (by rw [h1]; exact h'))
      | .error e => rfl
    cases p with
    | skip => rfl
    | set x e => rfl
    | upd o x e => rfl
    | seq p q => exact sub2 p σ q h
    | ite t p q =>
      simp only [Prog.exact] at h ⊢
      cases ht : t.value debug σ.var with
      | none => rfl
      | some b =>
        rw [ht] at h
        cases b
        · exact sub q σ h
        · exact sub p σ h
    | loop t p =>
      simp only [Prog.exact] at h ⊢
      cases ht : t.value debug σ.var with
      | none => rfl
      | some b =>
        rw [ht] at h
        cases b
        · rfl
        · exact sub2 p σ _ h
    | checked o x a b q =>
      simp only [Prog.exact] at h ⊢
      cases ha : a.value debug σ.var with
      | none => rfl
      | some va =>
        rw [ha] at h
        cases hb : b.value debug σ.var with
        | none => rfl
        | some vb =>
          rw [hb] at h
          simp only [orPanic, bind, Except.bind] at h ⊢
          split
          · rfl
          · rename_i hc
            rw [hc] at h
            exact sub q σ h
    | toSigned x e q =>
      simp only [Prog.exact] at h ⊢
      cases he : e.value debug σ.var with
      | none => rfl
      | some z =>
        rw [he] at h
        simp only [orPanic, bind, Except.bind] at h ⊢
        by_cases hz : z < 2 ^ 255
        · rw [if_pos hz, if_pos hz]
        · rw [if_neg hz] at h ⊢; rw [if_neg hz]; exact sub q σ h
    | toUnsigned x e q =>
      simp only [Prog.exact] at h ⊢
      cases he : e.value debug σ.var with
      | none => rfl
      | some z =>
        rw [he] at h
        simp only [orPanic, bind, Except.bind] at h ⊢
        by_cases hz : 0 ≤ z
        · rw [if_pos hz, if_pos hz]
        · rw [if_neg hz] at h ⊢; rw [if_neg hz]; exact sub q σ h
    | read k x q =>
      simp only [Prog.exact] at h ⊢
      split
      · rename_i hi
        rw [hi] at h
        exact sub q σ h
      · rename_i hi
        rw [hi] at h
        simp only at h
        split
        · rfl
        · rename_i hk
          rw [hk] at h
          exact sub q _ h
    | print e => rfl
    | checked1 o x a q =>
      simp only [Prog.exact] at h ⊢
      cases ha : a.value debug σ.var with
      | none => rfl
      | some va =>
        rw [ha] at h
        simp only [orPanic, bind, Except.bind] at h ⊢
        split
        · rfl
        · rename_i hc
          rw [hc] at h
          exact sub q σ h
    | readAs f k x q =>
      simp only [Prog.exact] at h ⊢
      split
      · rename_i hi
        rw [hi] at h
        exact sub q σ h
      · rename_i hi
        rw [hi] at h
        simp only at h
        split
        · rfl
        · rename_i hb
          rw [if_neg hb] at h
          split
          · rfl
          · rename_i hk
            rw [hk] at h
            exact sub q _ h
    | printAs r alt e => rfl

/-! ### Debug and release builds -/

theorem result_release {o : Assign} {x y z : Int} (h : o.result true k x y = some z) : o.result false k x y = some z := by
  unfold Assign.result at *
  cases ho : o.exact k x y with
  | none => rw [ho] at h; cases h
  | some w =>
    rw [ho] at h
    dsimp only at h ⊢
    by_cases hin : k.In w
    · rw [if_pos hin] at h ⊢; exact h
    · rw [if_neg hin] at h ⊢
      by_cases hd : o ≠ .div
      · rw [if_pos ⟨rfl, hd⟩] at h; cases h
      · rw [if_neg (fun h => hd h.2)] at h; rw [if_neg (fun h => hd h.2)]; exact h

theorem fit_release {x z : Int} (h : k.fit true x = some z) : k.fit false x = some z := by
  unfold Kind.fit at *
  by_cases hin : k.In x
  · rw [if_pos hin] at h ⊢; exact h
  · rw [if_neg hin, if_pos rfl] at h; cases h

theorem release_bind {α β : Type} {t r : Option α} {f g : α → Option β} {b : β} (h : (t >>= f) = some b)
    (h1 : ∀ a, t = some a → r = some a) (h2 : ∀ a, f a = some b → g a = some b) : (r >>= g) = some b := by
  cases t with
  | none => cases h
  | some a => rw [h1 a rfl]; exact h2 a h

theorem ex_release (ρ : Kind → Nat → Int) (e : Ex k) (z : Int) (h : e.value true ρ = some z) :
    e.value false ρ = some z := by
  induction e generalizing z with
  | var n => exact h
  | lit v => exact h
  | op o a b iha ihb => exact release_bind h iha fun x h => release_bind h ihb fun y h => result_release h
  | wrapping o a b iha ihb => exact release_bind h iha fun x h => release_bind h ihb fun y h => h
  | saturating o a b iha ihb => exact release_bind h iha fun x h => release_bind h ihb fun y h => h
  | pow a n iha => exact release_bind h iha fun x h => fit_release h
  | shl a n iha ihb => exact release_bind h iha fun x h => release_bind h ihb fun y h => h
  | shr a n iha ihb => exact release_bind h iha fun x h => release_bind h ihb fun y h => h
  | compl a iha => exact release_bind h iha fun x h => h
  | larger a b iha ihb => exact release_bind h iha fun x h => release_bind h ihb fun y h => h
  | smaller a b iha ihb => exact release_bind h iha fun x h => release_bind h ihb fun y h => h
  | neg a iha => exact release_bind h iha fun x h => fit_release h
  | abs a iha => exact release_bind h iha fun x h => fit_release h
  | unsignedAbs a iha => exact release_bind h iha fun x h => h
  | asI a iha => exact release_bind h iha fun x h => h
  | asU a iha => exact release_bind h iha fun x h => h
  | divEuclid a b iha ihb => exact release_bind h iha fun x h => release_bind h ihb fun y h => h
  | remEuclid a b iha ihb => exact release_bind h iha fun x h => release_bind h ihb fun y h => h
  | between a lo hi iha ihl ihh =>
    exact release_bind h iha fun x h => release_bind h ihl fun y h => release_bind h ihh fun z h => h
  | absDiff a b iha ihb => exact release_bind h iha fun x h => release_bind h ihb fun y h => h
  | signum a iha => exact release_bind h iha fun x h => h
  | bits f a iha => exact release_bind h iha fun x h => h
  | wrappingNeg a iha => exact release_bind h iha fun x h => h
  | wrappingAbs a iha => exact release_bind h iha fun x h => h
  | wrappingPow a n iha => exact release_bind h iha fun x h => h
  | saturatingPow a n iha => exact release_bind h iha fun x h => h
  | nextPowerOfTwo a iha => exact release_bind h iha fun x h => fit_release h
  | permute f a iha => exact release_bind h iha fun x h => h

theorem test_release (ρ : Kind → Nat → Int) (t : Test) (b : Bool) (h : t.value true ρ = some b) :
    t.value false ρ = some b := by
  induction t generalizing b with
  | cmp r x y => exact release_bind h (ex_release ρ x) fun x h => release_bind h (ex_release ρ y) fun y h => h
  | overflows o x y => exact release_bind h (ex_release ρ x) fun x h => release_bind h (ex_release ρ y) fun y h => h
  | negative x => exact release_bind h (ex_release ρ x) fun x h => h
  | positive x => exact release_bind h (ex_release ρ x) fun x h => h
  | powerOfTwo x => exact release_bind h (ex_release ρ x) fun x h => h
  | not p ih => exact release_bind h ih fun x h => h
  | and p q ihp ihq =>
    refine release_bind h ihp fun x h => ?_
    cases x
    · exact h
    · exact ihq b h
  | or p q ihp ihq =>
    refine release_bind h ihp fun x h => ?_
    cases x
    · exact ihq b h
    · exact h

theorem release_value {α : Type} {t r : Option α} {f g : α → Except Stop Numbers}
    (h : (orPanic t >>= f) ≠ .error .panic) (h1 : ∀ a, t = some a → r = some a)
    (h2 : ∀ a, f a ≠ .error .panic → g a = f a) : (orPanic r >>= g) = (orPanic t >>= f) := by
  cases t with
  | none => exact absurd rfl h
  | some a => rw [h1 a rfl]; exact h2 a h

theorem release_seq {t r : Except Stop Numbers} {f g : Numbers → Except Stop Numbers}
    (h : (t >>= f) ≠ .error .panic) (h1 : t ≠ .error .panic → r = t)
    (h2 : ∀ a, f a ≠ .error .panic → g a = f a) : (r >>= g) = (t >>= f) := by
  have ht : t ≠ .error .panic := fun h' => h (by rw [h']; rfl)
  rw [h1 ht]
  match t, h with
  | .ok a, h => exact h2 a h
  | .error e, h => rfl

/-- A debug run that does not panic is the release run. -/
theorem exact_release (n : Nat) (p : Prog) (σ : Numbers) (h : p.exact true n σ ≠ .error .panic) :
    p.exact false n σ = p.exact true n σ := by
  induction n generalizing p σ with
  | zero => rfl
  | succ n ih =>
    cases p with
    | skip => rfl
    | set x e => exact release_value h (ex_release _ e) fun a _ => rfl
    | upd o x e =>
      exact release_value h (ex_release _ e) fun a h => release_value h (fun b h => result_release h) fun b _ => rfl
    | seq p q => exact release_seq h (ih p σ) fun τ h => ih q τ h
    | ite t p q =>
      refine release_value h (test_release _ t) fun b h => ?_
      cases b
      · exact ih q σ h
      · exact ih p σ h
    | loop t p =>
      refine release_value h (test_release _ t) fun b h => ?_
      cases b
      · rfl
      · exact release_seq h (ih p σ) fun τ h => ih _ τ h
    | @checked k o x a b q =>
      refine release_value h (ex_release _ a) fun v h => release_value h (ex_release _ b) fun w h => ?_
      cases hc : o.exact k v w with
      | some z => rfl
      | none => rw [hc] at h; exact ih q σ h
    | toSigned x e q =>
      refine release_value h (ex_release _ e) fun z h => ?_
      by_cases hz : z < 2 ^ 255
      · rw [if_pos hz, if_pos hz]
      · rw [if_neg hz] at h ⊢; rw [if_neg hz]; exact ih q σ h
    | toUnsigned x e q =>
      refine release_value h (ex_release _ e) fun z h => ?_
      by_cases hz : 0 ≤ z
      · rw [if_pos hz, if_pos hz]
      · rw [if_neg hz] at h ⊢; rw [if_neg hz]; exact ih q σ h
    | read k x q =>
      simp only [Prog.exact] at h ⊢
      cases hi : σ.input with
      | nil => rw [hi] at h; exact ih q σ h
      | cons l ls =>
        rw [hi] at h
        dsimp only at h ⊢
        cases hk : k.parse l with
        | some z => rfl
        | none => rw [hk] at h; exact ih q _ h
    | print e => exact release_value h (ex_release _ e) fun a _ => rfl
    | @checked1 k o x a q =>
      refine release_value h (ex_release _ a) fun v h => ?_
      cases hc : o.exact v with
      | some z => rfl
      | none => rw [hc] at h; exact ih q σ h
    | readAs f k x q =>
      simp only [Prog.exact] at h ⊢
      cases hi : σ.input with
      | nil => rw [hi] at h; exact ih q σ h
      | cons l ls =>
        rw [hi] at h
        dsimp only at h ⊢
        by_cases hb : f.bad = true
        · rw [if_pos hb, if_pos hb]
        · rw [if_neg hb] at h
          rw [if_neg hb, if_neg hb]
          cases hk : f.parse k l with
          | some z => rfl
          | none => rw [hk] at h; exact ih q _ h
    | printAs r alt e => exact release_value h (ex_release _ e) fun a _ => rfl

end Lang
end Ethnum
