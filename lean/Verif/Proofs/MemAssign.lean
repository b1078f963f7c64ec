import Verif.SpecOps
import Verif.Proofs.MemNum
import Verif.Props.UArith
import Verif.Props.IArith
import Verif.Props.Operators

/-
What the operators on values give, in the form of `Assign.result`.
-/

namespace Ethnum

open MemNative (asU)

variable {c : Cfg} {s : Mem} {r a b : Loc} {x y : Int}

/-- The operator gives the number, or panics if there is none. -/
def GivesU (c : Cfg) (e : Res U256) : Option Int → Prop
  | some z => ∃ v, e = .ok v ∧ (v.toNat c : Int) = z
  | none => ∃ p, e = .error (.panic p)
/-- The operator gives the number, or panics if there is none. -/
def GivesI (c : Cfg) (e : Res I256) : Option Int → Prop
  | some z => ∃ v, e = .ok v ∧ v.toInt c = z
  | none => ∃ p, e = .error (.panic p)

theorem effect_u {m : M Unit} {e : Res U256} {z : Option Int} (h : m s = Step s a e) (hl : a < s.length)
    (he : GivesU c e z) : Effect c .u a z m s := by
  cases z with
  | some z => obtain ⟨v, h1, h2⟩ := he; exact puts_u h h1 hl h2
  | none => exact panics_u h he
theorem effect_i {m : M Unit} {e : Res I256} {z : Option Int} (h : m s = Step s a (asU e)) (hl : a < s.length)
    (he : GivesI c e z) : Effect c .i a z m s := by
  cases z with
  | some z => obtain ⟨v, h1, h2⟩ := he; exact puts_i h h1 hl h2
  | none => exact panics_i h he

theorem gives_arith_u {e : Res U256} {o : Assign} {z : Int} {p : Panic} (hz : o.exact .u x y = some z) (ho : o ≠ .div)
    (he : e = if c.debugAssertions = true ∧ ¬ InU256 z then .error (.panic p) else .ok (U256.ofInt c z)) :
    GivesU c e (o.result c.debugAssertions .u x y) := by
  unfold Assign.result
  rw [hz]; dsimp only
  by_cases hin : Kind.u.In z
  · rw [if_pos hin]
    rw [if_neg (fun h => h.2 hin)] at he
    exact ⟨_, he, by rw [num_ofInt, wrap_u_of_in hin]⟩
  · rw [if_neg hin]
    by_cases hd : c.debugAssertions = true
    · rw [if_pos ⟨hd, ho⟩]
      rw [if_pos ⟨hd, hin⟩] at he
      exact ⟨_, he⟩
    · rw [if_neg (fun h => hd h.1)]
      rw [if_neg (fun h => hd h.1)] at he
      exact ⟨_, he, num_ofInt z⟩
theorem gives_arith_i {e : Res I256} {o : Assign} {z : Int} {p : Panic} (hz : o.exact .i x y = some z) (ho : o ≠ .div)
    (he : e = if c.debugAssertions = true ∧ ¬ InI256 z then .error (.panic p) else .ok (I256.ofInt c z)) :
    GivesI c e (o.result c.debugAssertions .i x y) := by
  unfold Assign.result
  rw [hz]; dsimp only
  by_cases hin : Kind.i.In z
  · rw [if_pos hin]
    rw [if_neg (fun h => h.2 hin)] at he
    exact ⟨_, he, by rw [num_iofInt, wrap_i_of_in hin]⟩
  · rw [if_neg hin]
    by_cases hd : c.debugAssertions = true
    · rw [if_pos ⟨hd, ho⟩]
      rw [if_pos ⟨hd, hin⟩] at he
      exact ⟨_, he⟩
    · rw [if_neg (fun h => hd h.1)]
      rw [if_neg (fun h => hd h.1)] at he
      exact ⟨_, he, num_iofInt z⟩
/-- An operator that never overflows, or wraps even with debug assertions. -/
theorem gives_total_u {e : Res U256} {o : Assign} {z : Int} {v : U256} (hz : o.exact .u x y = some z)
    (hin : InU256 z) (he : e = .ok v) (hv : (v.toNat c : Int) = z) :
    GivesU c e (o.result c.debugAssertions .u x y) := by
  unfold Assign.result
  rw [hz]; dsimp only
  rw [if_pos (show Kind.u.In z from hin)]
  exact ⟨v, he, hv⟩
theorem gives_total_i {e : Res I256} {o : Assign} {z : Int} {v : I256} (hz : o.exact .i x y = some z)
    (ho : InI256 z ∨ o = .div) (he : e = .ok v) (hv : v.toInt c = Kind.i.wrap z) :
    GivesI c e (o.result c.debugAssertions .i x y) := by
  unfold Assign.result
  rw [hz]; dsimp only
  by_cases hin : Kind.i.In z
  · rw [if_pos hin]
    exact ⟨v, he, by rw [hv, wrap_i_of_in hin]⟩
  · rw [if_neg hin, if_neg (fun h => h.2 (ho.resolve_left hin))]
    exact ⟨v, he, hv⟩

section Gives
attribute [local irreducible] Assign.result

section
variable (u v : U256)

theorem gives_add_u : GivesU c (u.add_assign c v) (Assign.result c.debugAssertions .u (u.toNat c) (v.toNat c) .add) := by
  refine gives_arith_u (p := .addOverflow) (z := (u.toNat c : Int) + v.toNat c) (by simp only [Assign.exact]) (by decide) ?_
  rw [(C26_u256 c u v (.u256 v)).1, (C25_u256 c u v).1]
  rw [show ((u.toNat c : Int) + v.toNat c) = ((u.toNat c + v.toNat c : Nat) : Int) from (Int.natCast_add _ _).symm,
    U256.ofInt_natCast]
  congr 1
  unfold InU256; simp only [eq_iff_iff, and_congr_right_iff]; omega
theorem gives_sub_u : GivesU c (u.sub_assign c v) (Assign.result c.debugAssertions .u (u.toNat c) (v.toNat c) .sub) := by
  refine gives_arith_u (p := .subOverflow) rfl (by decide) ?_
  rw [(C26_u256 c u v (.u256 v)).2.1, (C25_u256 c u v).2.1]
  have := U256.toNat_lt c u
  congr 1
  unfold InU256; simp only [eq_iff_iff, and_congr_right_iff]; omega
theorem gives_mul_u : GivesU c (u.mul_assign c v) (Assign.result c.debugAssertions .u (u.toNat c) (v.toNat c) .mul) := by
  refine gives_arith_u (p := .mulOverflow) (z := (u.toNat c : Int) * v.toNat c) (by simp only [Assign.exact]) (by decide) ?_
  rw [(C26_u256 c u v (.u256 v)).2.2.1, (C25_u256 c u v).2.2]
  rw [show ((u.toNat c : Int) * v.toNat c) = ((u.toNat c * v.toNat c : Nat) : Int) from (Int.natCast_mul _ _).symm,
    U256.ofInt_natCast]
  congr 1
  unfold InU256; simp only [eq_iff_iff, and_congr_right_iff]; omega
theorem gives_div_u : GivesU c (u.div_assign c v) (Assign.result c.debugAssertions .u (u.toNat c) (v.toNat c) .div) := by
  rw [(C26_u256 c u v (.u256 v)).2.2.2.1]
  by_cases h0 : v.toNat c = 0
  · have : (Assign.result c.debugAssertions .u (u.toNat c) (v.toNat c) .div) = none := by
      simp only [Assign.result, Assign.exact]; rw [if_pos (by omega)]
    rw [this]
    exact (C04_zero c u v h0).2.2.2.2.2.2.1
  · have lu := U256.toNat_lt c u
    have e : ((u.toNat c : Int)).tdiv (v.toNat c) = ((u.toNat c / v.toNat c : Nat) : Int) := rfl
    have hd : u.toNat c / v.toNat c < 2 ^ 256 := lt_of_le_of_lt (Nat.div_le_self _ _) lu
    refine gives_total_u (z := ((u.toNat c / v.toNat c : Nat) : Int)) ?_ ?_ (C04_div c u v h0).1 ?_
    · simp only [Assign.exact]; rw [if_neg (by omega), e]
    · exact ⟨Int.natCast_nonneg _, by exact_mod_cast hd⟩
    · rw [U256.toNat_ofNat_of_lt c hd]
theorem gives_rem_u : GivesU c (u.rem_assign c v) (Assign.result c.debugAssertions .u (u.toNat c) (v.toNat c) .rem) := by
  have hs := (C26_u256 c u v (.u256 v)).2.2.2.2.1
  by_cases h0 : v.toNat c = 0
  · have : (Assign.result c.debugAssertions .u (u.toNat c) (v.toNat c) .rem) = none := by
      simp only [Assign.result, Assign.exact]; rw [if_pos (by omega)]
    rw [this]
    exact hs.2.2 (C04_zero c u v h0).2.2.2.2.2.2.2.1
  · have lu := U256.toNat_lt c u
    have e : ((u.toNat c : Int)).tmod (v.toNat c) = ((u.toNat c % v.toNat c : Nat) : Int) := rfl
    have hd : u.toNat c % v.toNat c < 2 ^ 256 := lt_of_le_of_lt (Nat.mod_le _ _) lu
    have h1 : u.rem_assign c v = .ok (U256.ofNat c (u.toNat c % v.toNat c)) :=
      (hs.1 _).2 (C04_rem c u v h0).1
    refine gives_total_u (z := ((u.toNat c % v.toNat c : Nat) : Int)) ?_ ?_ h1 ?_
    · simp only [Assign.exact]; rw [if_neg (by omega), e]
    · exact ⟨Int.natCast_nonneg _, by exact_mod_cast hd⟩
    · rw [U256.toNat_ofNat_of_lt c hd]
theorem ofBits_u (z : BitVec 256) : InU256 (Kind.u.ofBits z) := by
  have := z.isLt
  unfold InU256 Kind.ofBits; dsimp only; omega
theorem bits_u (w : U256) : BitVec.ofInt 256 (w.toNat c : Int) = w.bv c := by
  apply BitVec.eq_of_toNat_eq
  have := U256.toNat_lt c w
  rw [BitVec.toNat_ofInt, U256.toNat_bv]; omega
theorem gives_and_u : GivesU c (.ok (u.bitand_assign v)) (Assign.result c.debugAssertions .u (u.toNat c) (v.toNat c) .and) := by
  refine gives_total_u (by simp only [Assign.exact]; rfl) (ofBits_u _) rfl ?_
  rw [(C26_u256 c u v (.u256 v)).2.2.2.2.2.2.2.1, bits_u, bits_u, ← U256.bv_bitand]
  simp [Kind.ofBits]
theorem gives_or_u : GivesU c (.ok (u.bitor_assign v)) (Assign.result c.debugAssertions .u (u.toNat c) (v.toNat c) .or) := by
  refine gives_total_u (by simp only [Assign.exact]; rfl) (ofBits_u _) rfl ?_
  rw [(C26_u256 c u v (.u256 v)).2.2.2.2.2.2.2.2.1, bits_u, bits_u, ← U256.bv_bitor]
  simp [Kind.ofBits]
theorem gives_xor_u : GivesU c (.ok (u.bitxor_assign v)) (Assign.result c.debugAssertions .u (u.toNat c) (v.toNat c) .xor) := by
  refine gives_total_u (by simp only [Assign.exact]; rfl) (ofBits_u _) rfl ?_
  rw [(C26_u256 c u v (.u256 v)).2.2.2.2.2.2.2.2.2, bits_u, bits_u, ← U256.bv_bitxor]
  simp [Kind.ofBits]
end

section
variable (u v : I256)

theorem gives_add_i : GivesI c (u.add_assign c v) (Assign.result c.debugAssertions .i (u.toInt c) (v.toInt c) .add) := by
  refine gives_arith_i (p := .addOverflow) rfl (by decide) ?_
  rw [(C26_i256 c u v (.i256 v)).1, (C25_i256 c u v).1]
theorem gives_sub_i : GivesI c (u.sub_assign c v) (Assign.result c.debugAssertions .i (u.toInt c) (v.toInt c) .sub) := by
  refine gives_arith_i (p := .subOverflow) rfl (by decide) ?_
  rw [(C26_i256 c u v (.i256 v)).2.1, (C25_i256 c u v).2.1]
theorem gives_mul_i : GivesI c (u.mul_assign c v) (Assign.result c.debugAssertions .i (u.toInt c) (v.toInt c) .mul) := by
  refine gives_arith_i (p := .mulOverflow) rfl (by decide) ?_
  rw [(C26_i256 c u v (.i256 v)).2.2.1, (C25_i256 c u v).2.2.1]
theorem num_tmod_in : InI256 ((u.toInt c).tmod (v.toInt c)) := by
  have hu' := I256.toInt_in c u
  unfold InI256 at *
  have h1 : ((u.toInt c).tmod (v.toInt c)).natAbs ≤ (u.toInt c).natAbs := by
    rw [Int.natAbs_tmod]; exact Nat.mod_le _ _
  have h2 : 0 ≤ u.toInt c → 0 ≤ (u.toInt c).tmod (v.toInt c) := fun h => Int.tmod_nonneg _ h
  have h3 : 0 ≤ -u.toInt c → 0 ≤ (-u.toInt c).tmod (v.toInt c) := fun h => Int.tmod_nonneg _ h
  rw [Int.neg_tmod] at h3
  omega
theorem num_ediv_in (k : Nat) : InI256 (u.toInt c / 2 ^ k) := by
  have lv := I256.toInt_in c u
  have hp : (0 : Int) < 2 ^ k := by positivity
  have hp1 : (1 : Int) ≤ 2 ^ k := hp
  refine ⟨?_, ?_⟩
  · rw [Int.le_ediv_iff_mul_le hp]; nlinarith [lv.1]
  · rw [Int.ediv_lt_iff_lt_mul hp]; nlinarith [lv.2]
theorem gives_div_i : GivesI c (u.div_assign c v) (Assign.result c.debugAssertions .i (u.toInt c) (v.toInt c) .div) := by
  rw [(C26_i256 c u v (.i256 v)).2.2.2.1]
  by_cases h0 : v.toInt c = 0
  · have : (Assign.result c.debugAssertions .i (u.toInt c) (v.toInt c) .div) = none := by
      simp only [Assign.result, Assign.exact]; rw [if_pos h0]
    rw [this]
    exact (C08_zero c u v h0).2.2.2.1
  · refine gives_total_i (z := (u.toInt c).tdiv (v.toInt c)) (by simp only [Assign.exact]; rw [if_neg h0]) (.inr rfl)
      (v := I256.ofInt c ((u.toInt c).tdiv (v.toInt c))) ?_ (num_iofInt _)
    rw [I256.div_eq, if_neg h0]
theorem gives_rem_i : GivesI c (u.rem_assign c v) (Assign.result c.debugAssertions .i (u.toInt c) (v.toInt c) .rem) := by
  have hs := (C26_i256 c u v (.i256 v)).2.2.2.2.1
  by_cases h0 : v.toInt c = 0
  · have : (Assign.result c.debugAssertions .i (u.toInt c) (v.toInt c) .rem) = none := by
      simp only [Assign.result, Assign.exact]; rw [if_pos h0]
    rw [this]
    exact hs.2.2 (C08_zero c u v h0).2.2.2.2.1
  · refine gives_total_i (z := (u.toInt c).tmod (v.toInt c)) (by simp only [Assign.exact]; rw [if_neg h0])
      (.inl (num_tmod_in u v)) (v := I256.ofInt c ((u.toInt c).tmod (v.toInt c))) ?_ (num_iofInt _)
    refine (hs.1 _).2 ?_
    rw [I256.rem_eq, if_neg h0]
theorem ofBits_i (z : BitVec 256) : InI256 (Kind.i.ofBits z) := by
  have := BitVec.toInt_lt (x := z)
  have := BitVec.le_toInt z
  unfold InI256 Kind.ofBits; dsimp only; omega
theorem bits_i (w : I256) : BitVec.ofInt 256 (w.toInt c) = w.as_u256.bv c := by
  apply BitVec.eq_of_toNat_eq
  have := I256.toNat_toInt c w
  rw [BitVec.toNat_ofInt, U256.toNat_bv]; simp only [I256.toNat_as_u256]; omega
theorem num_bits_i (w : I256) : w.toInt c = Kind.i.wrap (Kind.i.ofBits (w.as_u256.bv c)) := by
  rw [wrap_i_of_in (ofBits_i _)]
  simp only [Kind.ofBits, BitVec.toInt, U256.toNat_bv, I256.toInt, I256.toNat_as_u256]
  split <;> split <;> omega
theorem gives_and_i : GivesI c (.ok (u.bitand_assign v)) (Assign.result c.debugAssertions .i (u.toInt c) (v.toInt c) .and) := by
  refine gives_total_i rfl (.inl (ofBits_i _)) rfl ?_
  rw [bits_i, bits_i, ← U256.bv_bitand]; exact num_bits_i _
theorem gives_or_i : GivesI c (.ok (u.bitor_assign v)) (Assign.result c.debugAssertions .i (u.toInt c) (v.toInt c) .or) := by
  refine gives_total_i rfl (.inl (ofBits_i _)) rfl ?_
  rw [bits_i, bits_i, ← U256.bv_bitor]; exact num_bits_i _
theorem gives_xor_i : GivesI c (.ok (u.bitxor_assign v)) (Assign.result c.debugAssertions .i (u.toInt c) (v.toInt c) .xor) := by
  refine gives_total_i rfl (.inl (ofBits_i _)) rfl ?_
  rw [bits_i, bits_i, ← U256.bv_bitxor]; exact num_bits_i _
end
end Gives

theorem amount_u32 (n : U32) : (ShiftBy.prim (c := c) .u32 n).amount = n := by
  have val : (ShiftBy.prim (c := c) .u32 n).value = n.toNat := rfl
  have hn := n.isLt
  apply BitVec.eq_of_toNat_eq
  by_cases hc : c.debugAssertions = true
  · have h := ShiftBy.amount_debug hc (.prim .u32 n)
    rw [val, if_pos (by omega)] at h; omega
  · have h := ShiftBy.amount_release (by simpa using hc) (.prim .u32 n)
    rw [val] at h; omega

end Ethnum
