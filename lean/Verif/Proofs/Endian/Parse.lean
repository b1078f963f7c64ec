import Verif.Proofs.Endian.Fmt

namespace Ethnum

/-- The two helpers do the same, each in its representation. -/
structure RadixHelper.Moves {T : Type} [Mv T] (h h' : RadixHelper T) : Prop where
  MIN : mv h.MIN = h'.MIN
  gt : ∀ a b, h.gt a b = h'.gt (mv a) (mv b)
  add : ∀ a b, mv (h.add a b) = h'.add (mv a) (mv b)
  sub : ∀ a b, mv (h.sub a b) = h'.sub (mv a) (mv b)
  mul : ∀ a b, mv (h.mul a b) = h'.mul (mv a) (mv b)
  from_u32 : ∀ u, mv (h.from_u32 u) = h'.from_u32 u
  checked_mul : ∀ a u, mv (h.checked_mul a u) = h'.checked_mul (mv a) u
  checked_sub : ∀ a u, mv (h.checked_sub a u) = h'.checked_sub (mv a) u
  checked_add : ∀ a u, mv (h.checked_add a u) = h'.checked_add (mv a) u

theorem uncheckedLoop_mv {T : Type} [Mv T] {h h' : RadixHelper T} (m : h.Moves h') {op op' : T → T → Res T}
    (ho : ∀ a b, mv (op a b) = op' (mv a) (mv b)) (radix : U32) (l : List U8) (r : T) :
    mv (uncheckedLoop h op radix l r) = uncheckedLoop h' op' radix l (mv r) := by
  induction l generalizing r with
  | nil => rfl
  | cons b l ih =>
    unfold uncheckedLoop
    refine mv_bind (by rw [m.mul, m.from_u32]) (fun a => ?_)
    cases toDigit b radix.toNat with
    | none => rfl
    | some x => exact mv_bind (by rw [ho, m.from_u32]) (fun a => ih a)

theorem checkedLoop_mv {T : Type} [Mv T] {h h' : RadixHelper T} (m : h.Moves h') {op op' : T → U32 → Option T}
    (ho : ∀ a u, mv (op a u) = op' (mv a) u) (err : IntErrorKind) (radix : U32) (l : List U8) (r : T) :
    mv (checkedLoop h op err radix l r) = checkedLoop h' op' err radix l (mv r) := by
  induction l generalizing r with
  | nil => rfl
  | cons b l ih =>
    unfold checkedLoop
    refine mv_bind (m.checked_mul _ _) (fun a => ?_)
    cases toDigit b radix.toNat with
    | none => rfl
    | some x =>
      cases a with
      | none => rfl
      | some a =>
        dsimp only [mv_some]
        rw [← ho]
        cases op a (u32 x) with
        | none => rfl
        | some a => exact ih a

theorem from_str_radix_mv {T : Type} [Mv T] {h h' : RadixHelper T} (m : h.Moves h') (src : List U8) (radix : U32)
    (pfx : Option (List U8)) : mv (Ethnum.from_str_radix h src radix pfx) = Ethnum.from_str_radix h' src radix pfx := by
  unfold Ethnum.from_str_radix
  refine mv_ite' rfl rfl ?_
  cases src with
  | nil => rfl
  | cons first rest =>
    dsimp only
    rw [show h'.gt (h'.from_u32 0) h'.MIN = h.gt (h.from_u32 0) h.MIN by rw [m.gt, m.from_u32, m.MIN]]
    generalize h.gt (h.from_u32 0) h.MIN = sg
    generalize (if (first = 43 ∨ first = 45) ∧ rest = [] then none
      else if first = 43 then some (true, rest)
      else if first = 45 ∧ sg = true then some (false, rest)
      else some (true, first :: rest)) = sign
    cases sign with
    | none => rfl
    | some p =>
      obtain ⟨pos, pd⟩ := p
      dsimp only
      cases prefixDigits pfx pd with
      | none => rfl
      | some digits =>
        dsimp only
        refine mv_ite' rfl rfl (mv_ite' rfl (mv_ite' rfl ?_ ?_) (mv_ite' rfl ?_ ?_))
        · rw [uncheckedLoop_mv m m.add, m.from_u32]
        · rw [uncheckedLoop_mv m m.sub, m.from_u32]
        · rw [checkedLoop_mv m m.checked_add, m.from_u32]
        · rw [checkedLoop_mv m m.checked_sub, m.from_u32]

theorem orElse_mv {T : Type} [Mv T] {a b a' b' : Res (ParseResult T)} (ha : mv a = a') (hb : mv b = b') :
    mv (orElse a b) = orElse a' b' :=
  mv_bindE ha (fun _ => hb) (fun _ => rfl)

theorem from_str_prefixed_mv {T : Type} [Mv T] {h h' : RadixHelper T} (m : h.Moves h') (src : List U8) :
    mv (Ethnum.from_str_prefixed h src) = Ethnum.from_str_prefixed h' src :=
  orElse_mv (orElse_mv (orElse_mv (from_str_radix_mv m _ _ _) (from_str_radix_mv m _ _ _)) (from_str_radix_mv m _ _ _))
    (from_str_radix_mv m _ _ _)
namespace U256
theorem radixHelper_moves (c : Cfg) : (radixHelper c).Moves (radixHelper c.other) where
  MIN := by unfold radixHelper; mv_auto
  gt := fun a b => by unfold radixHelper; simp only [mv_push]
  add := fun a b => by unfold radixHelper; mv_auto
  sub := fun a b => by unfold radixHelper; mv_auto
  mul := fun a b => by unfold radixHelper; mv_auto
  from_u32 := fun a => from_prim_mv c .u32 a
  checked_mul := fun a u => (checked_mul_mv c a _).trans (congrArg _ (from_prim_mv c .u32 u))
  checked_sub := fun a u => (checked_sub_mv c a _).trans (congrArg _ (from_prim_mv c .u32 u))
  checked_add := fun a u => (checked_add_mv c a _).trans (congrArg _ (from_prim_mv c .u32 u))
@[mv_push] theorem from_str_radix_mv (c : Cfg) (src : List U8) (radix : U32) : mv (from_str_radix c src radix) = from_str_radix c.other src radix := by
  exact Ethnum.from_str_radix_mv (radixHelper_moves c) _ _ _
@[mv_push] theorem from_str_mv (c : Cfg) (src : List U8) : mv (from_str c src) = from_str c.other src := by
  exact Ethnum.from_str_radix_mv (radixHelper_moves c) _ _ _
@[mv_push] theorem from_str_hex_mv (c : Cfg) (src : List U8) : mv (from_str_hex c src) = from_str_hex c.other src := by
  exact Ethnum.from_str_radix_mv (radixHelper_moves c) _ _ _
@[mv_push] theorem from_str_prefixed_mv (c : Cfg) (src : List U8) : mv (from_str_prefixed c src) = from_str_prefixed c.other src := by
  exact Ethnum.from_str_prefixed_mv (radixHelper_moves c) _
end U256
namespace I256
theorem radixHelper_moves (c : Cfg) : (radixHelper c).Moves (radixHelper c.other) where
  MIN := by unfold radixHelper; mv_auto
  gt := fun a b => by unfold radixHelper; simp only [mv_push]
  add := fun a b => by unfold radixHelper; mv_auto
  sub := fun a b => by unfold radixHelper; mv_auto
  mul := fun a b => by unfold radixHelper; mv_auto
  from_u32 := fun a => from_prim_mv c .u32 a
  checked_mul := fun a u => (checked_mul_mv c a _).trans (congrArg _ (from_prim_mv c .u32 u))
  checked_sub := fun a u => (checked_sub_mv c a _).trans (congrArg _ (from_prim_mv c .u32 u))
  checked_add := fun a u => (checked_add_mv c a _).trans (congrArg _ (from_prim_mv c .u32 u))
@[mv_push] theorem from_str_radix_mv (c : Cfg) (src : List U8) (radix : U32) : mv (from_str_radix c src radix) = from_str_radix c.other src radix := by
  exact Ethnum.from_str_radix_mv (radixHelper_moves c) _ _ _
@[mv_push] theorem from_str_mv (c : Cfg) (src : List U8) : mv (from_str c src) = from_str c.other src := by
  exact Ethnum.from_str_radix_mv (radixHelper_moves c) _ _ _
@[mv_push] theorem from_str_hex_mv (c : Cfg) (src : List U8) : mv (from_str_hex c src) = from_str_hex c.other src := by
  exact Ethnum.from_str_radix_mv (radixHelper_moves c) _ _ _
@[mv_push] theorem from_str_prefixed_mv (c : Cfg) (src : List U8) : mv (from_str_prefixed c src) = from_str_prefixed c.other src := by
  exact Ethnum.from_str_prefixed_mv (radixHelper_moves c) _
end I256
namespace Const
@[mv_push] theorem add_mv (c : Cfg) (a : U256) (b : U8) : mv (add c a b) = add c.other (mv a) b := by
  unfold add; rw [U256.into_words_mv, Mv.inv]; generalize U256.into_words c a = p; obtain ⟨hi, lo⟩ := p; dsimp only [overflowingMul, overflowingAdd]; mv_auto
@[mv_push] theorem mul_mv (c : Cfg) (a : U256) (r : U128) : mv (mul c a r) = mul c.other (mv a) r := by
  unfold mul; rw [U256.into_words_mv, Mv.inv]; generalize U256.into_words c a = p; obtain ⟨hi, lo⟩ := p; dsimp only [overflowingMul, overflowingAdd]; mv_auto
@[mv_push] theorem nextDigit_mv (c : Cfg) (byte : U8) (radix : U128) : nextDigit c.other byte radix = nextDigit c byte radix := by
  unfold nextDigit; mv_base_auto
@[mv_push] theorem loop_mv (c : Cfg) (radix : U128) (x0 : List U8) (x1 : U256) : mv (loop c radix x0 x1) = loop c.other radix x0 (mv x1) := by
  induction x0 generalizing x1 with
  | nil => rfl
  | cons b l ih => unfold loop; mv_auto
@[mv_push] theorem from_str_prefixed_mv (c : Cfg) (l : List U8) : mv (from_str_prefixed c l) = from_str_prefixed c.other l := by
  unfold from_str_prefixed; mv_auto
end Const
@[mv_push] theorem U256.const_from_str_prefixed_mv (c : Cfg) (src : List U8) : mv (U256.const_from_str_prefixed c src) = U256.const_from_str_prefixed c.other src := by
  unfold U256.const_from_str_prefixed; cases src <;> mv_auto
@[mv_push] theorem I256.const_from_str_prefixed_mv (c : Cfg) (src : List U8) : mv (I256.const_from_str_prefixed c src) = I256.const_from_str_prefixed c.other src := by
  unfold I256.const_from_str_prefixed
  cases src with
  | nil => rfl
  | cons first rest =>
    dsimp only
    generalize (if first = 43 then (false, rest) else if first = 45 then (true, rest) else (false, first :: rest)) = nl
    obtain ⟨negate, l⟩ := nl
    dsimp only
    refine mv_bind (Const.from_str_prefixed_mv c l) (fun u => ?_)
    rw [U256.into_words_mv, Mv.inv]
    generalize U256.into_words c u = p
    obtain ⟨hi, lo⟩ := p
    cases negate <;> (simp only [if_true, overflowingAdd]; mv_auto)
end Ethnum
