import Verif.Proofs.Defined.Api
import Verif.Props.Fmt
import Verif.Model.Float
import Verif.Model.Parse

/-!
Conversions from floating point, formatting and parsing return or panic.
-/

namespace Ethnum

@[defd] theorem withPrim_mul_defined (c : Cfg) (a : I256) (s : BitVec 128) : Defined (I256.withPrim c I256.mul a s) := by
  unfold I256.withPrim; defined
@[defd] theorem FloatTy.shr_defined (c : Cfg) {w : Nat} (a1 : BitVec w) (a2 : BitVec w) : Defined (FloatTy.shr c a1 a2) := by
  unfold FloatTy.shr; defined
@[defd] theorem U256.of_float_defined (c : Cfg) (t : FloatTy) (a1 : t.Val) : Defined (U256.of_float c t a1) := by
  unfold U256.of_float; defined
@[defd] theorem I256.of_float_defined (c : Cfg) (t : FloatTy) (a1 : t.Val) : Defined (I256.of_float c t a1) := by
  unfold I256.of_float; defined
@[defd] theorem U256.display_defined (c : Cfg) (a1 : U256) (a2 : Formatter) : Defined (U256.display c a1 a2) :=
  .of_ok (C32_display c a1 I256.ZERO a2).1
@[defd] theorem U256.fmtRadix_defined (c : Cfg) (a1 : Radix) (a2 : U256) (a3 : Formatter) :
    Defined (U256.fmtRadix c a1 a2 a3) := .of_ok (C33_u256_radix c a1 a2 a3)
@[defd] theorem I256.display_defined (c : Cfg) (a1 : I256) (a2 : Formatter) : Defined (I256.display c a1 a2) :=
  .of_ok (C32_display c U256.ZERO a1 a2).2
@[defd] theorem I256.fmtRadix_defined (c : Cfg) (a1 : Radix) (a2 : I256) (a3 : Formatter) :
    Defined (I256.fmtRadix c a1 a2 a3) := .of_ok (C33_i256_radix c a1 a2 a3)
@[defd] theorem U256.debug_defined (c : Cfg) (a1 : U256) (a2 : Formatter) : Defined (U256.debug c a1 a2) := by
  unfold U256.debug; defined
@[defd] theorem I256.debug_defined (c : Cfg) (a1 : I256) (a2 : Formatter) : Defined (I256.debug c a1 a2) := by
  unfold I256.debug; defined

/-- The operations a parser is given return or panic. -/
structure RadixHelper.Defined {T : Type} (h : RadixHelper T) : Prop where
  add : ∀ a b, Ethnum.Defined (h.add a b)
  sub : ∀ a b, Ethnum.Defined (h.sub a b)
  mul : ∀ a b, Ethnum.Defined (h.mul a b)
  checked_mul : ∀ a b, Ethnum.Defined (h.checked_mul a b)

theorem uncheckedLoop_defined {T : Type} {h : RadixHelper T} (hd : h.Defined) {op : T → T → Res T}
    (ho : ∀ a b, Defined (op a b)) (r : U32) (l : List U8) (x : T) : Defined (uncheckedLoop h op r l x) := by
  induction l generalizing x with
  | nil => exact .ok _
  | cons b l ih =>
    unfold uncheckedLoop
    refine .bind (hd.mul _ _) (fun _ => ?_)
    split
    · exact .pure _
    · exact .bind (ho _ _) (fun _ => ih _)

theorem checkedLoop_defined {T : Type} {h : RadixHelper T} (hd : h.Defined) {op : T → U32 → Option T}
    (e : IntErrorKind) (r : U32) (l : List U8) (x : T) : Defined (checkedLoop h op e r l x) := by
  induction l generalizing x with
  | nil => exact .ok _
  | cons b l ih =>
    unfold checkedLoop
    refine .bind (hd.checked_mul _ _) (fun _ => ?_)
    split
    · exact .pure _
    · split
      · exact .pure _
      · split
        · exact .pure _
        · exact ih _

theorem from_str_radix_defined {T : Type} {h : RadixHelper T} (hd : h.Defined) (s : List U8) (r : U32)
    (p : Option (List U8)) : Defined (from_str_radix h s r p) := by
  unfold from_str_radix
  refine .ite (fun _ => .throw _) (fun _ => ?_)
  split
  · exact .pure _
  · dsimp only
    split
    · exact .pure _
    · split
      · exact .pure _
      · refine .ite (fun _ => .pure _) (fun _ => .ite (fun _ => .ite (fun _ => ?_) (fun _ => ?_))
          (fun _ => .ite (fun _ => ?_) (fun _ => ?_)))
        · exact uncheckedLoop_defined hd hd.add _ _ _
        · exact uncheckedLoop_defined hd hd.sub _ _ _
        · exact checkedLoop_defined hd _ _ _ _
        · exact checkedLoop_defined hd _ _ _ _

theorem orElse_defined {T : Type} {a b : Res (ParseResult T)} (ha : Defined a) (hb : Defined b) :
    Defined (orElse a b) := by
  unfold orElse
  refine .bind ha (fun _ => ?_)
  split
  · exact .pure _
  · exact hb

theorem from_str_prefixed_defined {T : Type} {h : RadixHelper T} (hd : h.Defined) (s : List U8) :
    Defined (from_str_prefixed h s) :=
  orElse_defined (orElse_defined (orElse_defined (from_str_radix_defined hd _ _ _) (from_str_radix_defined hd _ _ _))
    (from_str_radix_defined hd _ _ _)) (from_str_radix_defined hd _ _ _)

theorem U256.radixHelper_defined (c : Cfg) : (U256.radixHelper c).Defined :=
  ⟨U256.add_defined c, U256.sub_defined c, U256.mul_defined c, fun _ _ => U256.checked_mul_defined c _ _⟩
theorem I256.radixHelper_defined (c : Cfg) : (I256.radixHelper c).Defined :=
  ⟨I256.add_defined c, I256.sub_defined c, I256.mul_defined c, fun _ _ => I256.checked_mul_defined c _ _⟩

@[defd] theorem U256.from_str_radix_defined (c : Cfg) (a1 : List U8) (a2 : U32) :
    Defined (U256.from_str_radix c a1 a2) := Ethnum.from_str_radix_defined (U256.radixHelper_defined c) _ _ _
@[defd] theorem U256.from_str_defined (c : Cfg) (a1 : List U8) : Defined (U256.from_str c a1) :=
  Ethnum.from_str_radix_defined (U256.radixHelper_defined c) _ _ _
@[defd] theorem U256.from_str_hex_defined (c : Cfg) (a1 : List U8) : Defined (U256.from_str_hex c a1) :=
  Ethnum.from_str_radix_defined (U256.radixHelper_defined c) _ _ _
@[defd] theorem U256.from_str_prefixed_defined (c : Cfg) (a1 : List U8) : Defined (U256.from_str_prefixed c a1) :=
  Ethnum.from_str_prefixed_defined (U256.radixHelper_defined c) _
@[defd] theorem I256.from_str_radix_defined (c : Cfg) (a1 : List U8) (a2 : U32) :
    Defined (I256.from_str_radix c a1 a2) := Ethnum.from_str_radix_defined (I256.radixHelper_defined c) _ _ _
@[defd] theorem I256.from_str_defined (c : Cfg) (a1 : List U8) : Defined (I256.from_str c a1) :=
  Ethnum.from_str_radix_defined (I256.radixHelper_defined c) _ _ _
@[defd] theorem I256.from_str_hex_defined (c : Cfg) (a1 : List U8) : Defined (I256.from_str_hex c a1) :=
  Ethnum.from_str_radix_defined (I256.radixHelper_defined c) _ _ _
@[defd] theorem I256.from_str_prefixed_defined (c : Cfg) (a1 : List U8) : Defined (I256.from_str_prefixed c a1) :=
  Ethnum.from_str_prefixed_defined (I256.radixHelper_defined c) _

@[defd] theorem Const.check_defined (b : Bool) : Defined (Const.check b) := by
  unfold Const.check; defined
@[defd] theorem Const.add_defined (c : Cfg) (a1 : U256) (a2 : U8) : Defined (Const.add c a1 a2) := by
  unfold Const.add; defined
@[defd] theorem Const.mul_defined (c : Cfg) (a1 : U256) (a2 : U128) : Defined (Const.mul c a1 a2) := by
  unfold Const.mul; defined
@[defd] theorem Const.nextDigit_defined (c : Cfg) (a1 : U8) (a2 : U128) : Defined (Const.nextDigit c a1 a2) := by
  unfold Const.nextDigit; defined
@[defd] theorem Const.loop_defined (c : Cfg) (r : U128) (l : List U8) (x : U256) : Defined (Const.loop c r l x) := by
  induction l generalizing x with
  | nil => exact .ok _
  | cons b l ih =>
    unfold Const.loop
    refine .ite (fun _ => ih _) (fun _ => .bind (Const.nextDigit_defined _ _ _) (fun _ => ?_))
    split
    · exact .throw _
    · exact .bind (Const.mul_defined _ _ _) (fun _ => .bind (Const.add_defined _ _ _) (fun _ => ih _))
@[defd] theorem Const.from_str_prefixed_defined (c : Cfg) (a1 : List U8) : Defined (Const.from_str_prefixed c a1) := by
  unfold Const.from_str_prefixed; defined
@[defd] theorem U256.const_from_str_prefixed_defined (c : Cfg) (a1 : List U8) : Defined (U256.const_from_str_prefixed c a1) := by
  unfold U256.const_from_str_prefixed; defined
@[defd] theorem I256.const_from_str_prefixed_defined (c : Cfg) (a1 : List U8) : Defined (I256.const_from_str_prefixed c a1) := by
  unfold I256.const_from_str_prefixed; defined

end Ethnum
