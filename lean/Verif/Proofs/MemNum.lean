import Verif.SpecMem
import Verif.Proofs.Mem
import Verif.Proofs.Bv

namespace Ethnum

variable {s s' : Mem} {p q r a b : Loc} {c : Cfg}

theorem num_ofU (v : U256) : Cell.num c .u (Cell.ofU v) = some (v.toNat c : Int) := rfl
theorem num_ofI (v : I256) : Cell.num c .i (Cell.ofU v.as_u256) = some (v.toInt c) := rfl

theorem Cell.of_num {k : Kind} {w : Cell} {z : Int} (h : Cell.num c k w = some z) : ∃ v, w = Cell.ofU v := by
  obtain ⟨w0, w1⟩ := w
  cases w0 with
  | none => simp [Cell.num] at h
  | some w0 =>
    cases w1 with
    | none => simp [Cell.num] at h
    | some w1 => exact ⟨⟨w0, w1⟩, rfl⟩

theorem has_of_num_u {x : Int} (h : s.num c .u a = some x) : ∃ v, Has s a v ∧ x = v.toNat c := by
  unfold Mem.num at h
  cases hc : s[a]? with
  | none => simp [hc] at h
  | some w =>
    rw [hc, Option.bind_some] at h
    obtain ⟨v, rfl⟩ := Cell.of_num h
    exact ⟨v, hc, (Option.some.inj h).symm⟩
theorem has_of_num_i {x : Int} (h : s.num c .i a = some x) : ∃ v : I256, Has s a v.as_u256 ∧ x = v.toInt c := by
  unfold Mem.num at h
  cases hc : s[a]? with
  | none => simp [hc] at h
  | some w =>
    rw [hc, Option.bind_some] at h
    obtain ⟨v, rfl⟩ := Cell.of_num h
    exact ⟨v.as_i256, hc, (Option.some.inj h).symm⟩

theorem num_of_has_u {v : U256} (h : Has s a v) : s.num c .u a = some (v.toNat c : Int) := by
  unfold Has at h
  simp only [Mem.num, h, Option.bind_some, num_ofU]
theorem num_of_has_i {v : I256} (h : Has s a v.as_u256) : s.num c .i a = some (v.toInt c) := by
  unfold Has at h
  simp only [Mem.num, h, Option.bind_some, num_ofI]

theorem sameExcept_set {w : Cell} : SameExcept [r] s (s.set r w) :=
  ⟨List.length_set, fun p hp => List.getElem?_set_ne (by simp at hp; exact fun h => hp h.symm)⟩
theorem sameExcept_set2 {w z : Cell} : SameExcept [q, r] s ((s.set q w).set r z) := by
  refine ⟨by simp, fun p hp => ?_⟩
  simp at hp
  rw [List.getElem?_set_ne (fun h => hp.2 h.symm), List.getElem?_set_ne (fun h => hp.1 h.symm)]

theorem puts_u {m : M Unit} {e : Res U256} {v : U256} {z : Int} (h : m s = Step s r e) (he : e = .ok v)
    (hr : r < s.length) (hz : (v.toNat c : Int) = z) : Puts c .u r z () m s := by
  subst he hz
  exact ⟨_, h, num_of_has_u (Has.set_self hr), sameExcept_set⟩
theorem puts_i {m : M Unit} {e : Res I256} {v : I256} {z : Int} (h : m s = Step s r (MemNative.asU e)) (he : e = .ok v)
    (hr : r < s.length) (hz : v.toInt c = z) : Puts c .i r z () m s := by
  subst he hz
  exact ⟨_, h, num_of_has_i (Has.set_self hr), sameExcept_set⟩
theorem putsB_u {m : M Bool} {e : Res (U256 × Bool)} {v : U256} {o o' : Bool} {z : Int} (h : m s = StepB s r e)
    (he : e = .ok (v, o)) (hr : r < s.length) (hz : (v.toNat c : Int) = z) (ho : o = o') : Puts c .u r z o' m s := by
  subst he hz ho
  exact ⟨_, h, num_of_has_u (Has.set_self hr), sameExcept_set⟩
theorem putsB_i {m : M Bool} {e : Res (I256 × Bool)} {v : I256} {o o' : Bool} {z : Int}
    (h : m s = StepB s r (MemIntr.asUB e)) (he : e = .ok (v, o)) (hr : r < s.length) (hz : v.toInt c = z) (ho : o = o') :
    Puts c .i r z o' m s := by
  subst he hz ho
  exact ⟨_, h, num_of_has_i (Has.set_self hr), sameExcept_set⟩
theorem puts2_u {m : M Unit} {e : Res (U256 × U256)} {v w : U256} {y z : Int} (h : m s = MemIntr.Step2 s q r e)
    (he : e = .ok (v, w)) (hq : q < s.length) (hr : r < s.length) (hn : q ≠ r) (hy : (v.toNat c : Int) = y)
    (hz : (w.toNat c : Int) = z) : Puts2 c .u q y r z m s := by
  subst he hy hz
  exact ⟨_, h, num_of_has_u ((Has.set_self hq).set_ne hn.symm), num_of_has_u (Has.set_self (by simpa using hr)),
    sameExcept_set2⟩
theorem puts2_i {m : M Unit} {e : Res (I256 × I256)} {v w : I256} {y z : Int}
    (h : m s = MemIntr.Step2 s q r (MemIntr.asU2 e)) (he : e = .ok (v, w)) (hq : q < s.length) (hr : r < s.length)
    (hn : q ≠ r) (hy : v.toInt c = y) (hz : w.toInt c = z) : Puts2 c .i q y r z m s := by
  subst he hy hz
  exact ⟨_, h, num_of_has_i ((Has.set_self hq).set_ne hn.symm), num_of_has_i (Has.set_self (by simpa using hr)),
    sameExcept_set2⟩

theorem panics_u {m : M Unit} {e : Res U256} (h : m s = Step s r e) (he : ∃ p, e = .error (.panic p)) :
    PanicsUnchanged m s := by
  obtain ⟨p, rfl⟩ := he
  exact ⟨p, h⟩
theorem panics_i {m : M Unit} {e : Res I256} (h : m s = Step s r (MemNative.asU e)) (he : ∃ p, e = .error (.panic p)) :
    PanicsUnchanged m s := by
  obtain ⟨p, rfl⟩ := he
  exact ⟨p, h⟩
theorem panics2_u {m : M Unit} {e : Res (U256 × U256)} (h : m s = MemIntr.Step2 s q r e)
    (he : ∃ p, e = .error (.panic p)) : PanicsUnchanged m s := by
  obtain ⟨p, rfl⟩ := he
  exact ⟨p, h⟩
theorem panics2_i {m : M Unit} {e : Res (I256 × I256)} (h : m s = MemIntr.Step2 s q r (MemIntr.asU2 e))
    (he : ∃ p, e = .error (.panic p)) : PanicsUnchanged m s := by
  obtain ⟨p, rfl⟩ := he
  exact ⟨p, h⟩

theorem num_ofNat (n : Nat) : ((U256.ofNat c n).toNat c : Int) = Kind.u.wrap n := by
  rw [U256.toNat_ofNat]; simp only [Kind.wrap]; omega
theorem num_ofInt (z : Int) : ((U256.ofInt c z).toNat c : Int) = Kind.u.wrap z := U256.toNat_ofInt c z
theorem num_iofInt (z : Int) : (I256.ofInt c z).toInt c = Kind.i.wrap z := I256.toInt_ofInt c z

theorem getLsbD_num_u (v : U256) (i : Nat) : (BitVec.ofInt 256 (v.toNat c : Int)).getLsbD i = (v.toNat c).testBit i := by
  rw [BitVec.ofInt_natCast, BitVec.getLsbD_ofNat]
  by_cases hi : i < 256
  · simp [hi]
  · rw [Nat.testBit_lt_two_pow (lt_of_lt_of_le (U256.toNat_lt c v) (Nat.pow_le_pow_right (by norm_num) (by omega)))]
    simp
theorem getLsbD_num_i (v : I256) (i : Nat) : (BitVec.ofInt 256 (v.toInt c)).getLsbD i = (v.toNat c).testBit i := by
  have h := I256.toNat_toInt c v
  rw [show BitVec.ofInt 256 (v.toInt c) = BitVec.ofInt 256 (v.as_u256.toNat c : Int) from ?_, getLsbD_num_u]; rfl
  apply BitVec.eq_of_toNat_eq
  rw [BitVec.toNat_ofInt, BitVec.toNat_ofInt]
  simp only [I256.toNat_as_u256]
  omega

theorem wrap_u_of_in {z : Int} (h : Kind.u.In z) : Kind.u.wrap z = z := by
  simp only [Kind.wrap, Kind.In, InU256] at *; omega
theorem wrap_i_of_in {z : Int} (h : Kind.i.In z) : Kind.i.wrap z = z := by
  simp only [Kind.wrap, Kind.In, InI256] at *; omega

theorem has_of_num {k : Kind} {x : Int} (h : s.num c k a = some x) : ∃ v, Has s a v := by
  cases k with
  | u => obtain ⟨v, hv, _⟩ := has_of_num_u h; exact ⟨v, hv⟩
  | i => obtain ⟨v, hv, _⟩ := has_of_num_i h; exact ⟨_, hv⟩
theorem num_lt {k : Kind} {x : Int} (h : s.num c k a = some x) : a < s.length := by
  obtain ⟨v, hv⟩ := has_of_num h
  exact hv.lt
theorem num_append {k : Kind} {x : Int} {t : Mem} (h : s.num c k a = some x) : (s ++ t).num c k a = some x := by
  have hl := num_lt h
  rw [← h]; unfold Mem.num; rw [List.getElem?_append_left hl]

theorem effect_congr {k : Kind} {e : Option Int} {m m' : M Unit} (h : m s = m' s) (he : Effect c k a e m' s) :
    Effect c k a e m s := by
  cases e with
  | some z => obtain ⟨s', h1, h2⟩ := he; exact ⟨s', h.trans h1, h2⟩
  | none => obtain ⟨p, h1⟩ := he; exact ⟨p, h.trans h1⟩

theorem effect_local {k : Kind} {e : Option Int} {w : Cell} {op : Loc → M Unit}
    (h : Effect c k a e (op s.length) (s ++ [w])) (ha : a < s.length) : Effect c k a e (M.withLocal w op) s := by
  cases e with
  | some z =>
    obtain ⟨s', h1, h2, h3, h4⟩ := h
    refine ⟨s'.take s.length, ?_, ?_, ?_, fun p hp => ?_⟩
    · rw [M.withLocal_apply, h1]
    · rw [← h2]; unfold Mem.num; rw [List.getElem?_take_of_lt ha]
    · rw [List.length_take, h3]; simp
    · by_cases hl : p < s.length
      · rw [List.getElem?_take_of_lt hl, h4 p hp, List.getElem?_append_left hl]
      · rw [List.getElem?_eq_none (by rw [List.length_take]; exact Nat.le_trans (Nat.min_le_left _ _) (Nat.le_of_not_lt hl)),
          List.getElem?_eq_none (Nat.le_of_not_lt hl)]
  | none =>
    obtain ⟨p, h1⟩ := h
    exact ⟨p, by rw [M.withLocal_apply, h1]; simp⟩

theorem num_of_map {k : Kind} {vs : List Int} (h : s.map (Cell.num c k) = vs.map some) (hl : p < vs.length) :
    s.num c k p = some (vs.getD p 0) := by
  have := congrArg (fun l => l[p]?) h
  simp only [List.getElem?_map] at this
  rw [List.getElem?_eq_getElem hl] at this
  unfold Mem.num
  rw [List.getD_eq_getElem _ _ hl]
  cases hc : s[p]? with
  | none => rw [hc] at this; simp at this
  | some w => rw [hc] at this; exact Option.some.inj this

theorem map_of_puts {k : Kind} {vs : List Int} {d : Loc} {z : Int} (h : s.map (Cell.num c k) = vs.map some)
    (hz : s'.num c k d = some z) (hx : SameExcept [d] s s') : s'.map (Cell.num c k) = (vs.set d z).map some := by
  apply List.ext_getElem?
  intro p
  rw [List.map_set, ← h]
  by_cases hp : p = d
  · subst hp
    have hl := num_lt hz
    rw [List.getElem?_set_self (by rw [List.length_map, ← hx.1]; exact hl), List.getElem?_map]
    unfold Mem.num at hz
    cases hc : s'[p]? with
    | none => rw [hc] at hz; simp at hz
    | some w => rw [hc] at hz; simpa using hz
  · rw [List.getElem?_set_ne (fun e => hp e.symm), List.getElem?_map, List.getElem?_map, hx.2 p (by simpa using hp)]

theorem num_other {k : Kind} {x : Int} (k' : Kind) (h : s.num c k a = some x) : ∃ y, s.num c k' a = some y := by
  obtain ⟨v, hv⟩ := has_of_num h
  cases k' with
  | u => exact ⟨_, num_of_has_u hv⟩
  | i => exact ⟨_, num_of_has_i (v := v.as_i256) hv⟩

end Ethnum
