import Verif.Model.Steps

/-
Lemmas for C72: the functions of Model/Steps.lean without other threads are those of Model/Mem.lean.
-/

namespace Ethnum.Steps
open P

/-- The code by itself -/
def P.run {α : Type} : P α → M α
  | .done r => fun s => (r, s)
  | .read i p k => fun s => match (if i then M.rd1 p else M.rd0 p) s with | (r, s) => run (k r) s
  | .write i p w k => fun s => match (if i then M.wr1 p w else M.wr0 p w) s with | (r, s) => run (k r) s
  | .enter x k => fun s => run (k s.length) (s ++ [x])
  | .leave n k => fun s => run k (s.take n)

theorem run_andThen {α β : Type} (f : α → P β) (p : P α) : (andThen f p).run = (p.run >>= fun x => (f x).run) := by
  induction p with
  | done r => cases r <;> rfl
  | read i p k ih => funext s; simp only [andThen, P.run]; rw [ih]; rfl
  | write i p w k ih => funext s; simp only [andThen, P.run]; rw [ih]; rfl
  | enter x k ih => funext s; simp only [andThen, P.run]; rw [ih]; rfl
  | leave n k ih => funext s; simp only [andThen, P.run]; rw [ih]; rfl
theorem run_bind {α β : Type} (f : α → P β) (p : P α) : (p >>= f).run = (p.run >>= fun x => (f x).run) := run_andThen f p
theorem run_pure {α : Type} (x : α) : (pure x : P α).run = pure x := rfl
theorem run_lift {α : Type} (r : Res α) : (P.lift r).run = M.lift r := rfl
theorem run_leaving {α : Type} (l : Loc) (p : P α) (s : Mem) : (leaving l p).run s = ((p.run s).1, (p.run s).2.take l) := by
  induction p generalizing s with
  | done r => rfl
  | read i p k ih => simp only [leaving, P.run]; rw [ih]
  | write i p w k ih => simp only [leaving, P.run]; rw [ih]
  | enter x k ih => simp only [leaving, P.run]; rw [ih]
  | leave n k ih => simp only [leaving, P.run]; rw [ih]
theorem run_withLocal {α : Type} (x : Cell) (k : Loc → P α) : (P.withLocal x k).run = M.withLocal x fun l => (k l).run := by
  funext s; exact run_leaving _ _ _
theorem run_rd0 (p : Loc) : (P.rd0 p).run = M.rd0 p := rfl
theorem run_rd1 (p : Loc) : (P.rd1 p).run = M.rd1 p := rfl
theorem run_wr0 (p : Loc) (w : U128) : (P.wr0 p w).run = M.wr0 p w := rfl
theorem run_wr1 (p : Loc) (w : U128) : (P.wr1 p w).run = M.wr1 p w := rfl
theorem run_ite {α : Type} (b : Prop) [Decidable b] (x y : P α) : (if b then x else y).run = if b then x.run else y.run := by
  split <;> rfl
theorem run_low (c : Cfg) (p : Loc) : (P.low c p).run = M.low c p := run_ite _ _ _
theorem run_high (c : Cfg) (p : Loc) : (P.high c p).run = M.high c p := run_ite _ _ _
theorem run_setLow (c : Cfg) (p : Loc) (w : U128) : (P.setLow c p w).run = M.setLow c p w := run_ite _ _ _
theorem run_setHigh (c : Cfg) (p : Loc) (w : U128) : (P.setHigh c p w).run = M.setHigh c p w := run_ite _ _ _
theorem run_rd (p : Loc) : (P.rd p).run = M.rd p := by
  unfold P.rd M.rd; simp only [run_bind, run_rd0, run_rd1, run_pure]
theorem run_ird (p : Loc) : (P.ird p).run = M.ird p := by
  unfold P.ird M.ird; simp only [run_bind, run_rd0, run_rd1, run_pure]
theorem run_wr (p : Loc) (v : U256) : (P.wr p v).run = M.wr p v := by
  unfold P.wr M.wr; simp only [run_bind, run_wr0, run_wr1]
theorem run_iwr (p : Loc) (v : I256) : (P.iwr p v).run = M.iwr p v := by
  unfold P.iwr M.iwr; simp only [run_bind, run_wr0, run_wr1]
theorem run_prod {α β γ : Type} (e : α × β) (f : α → β → P γ) :
    (match e with | (a, b) => f a b).run = match e with | (a, b) => (f a b).run := rfl

macro "runs" "[" ls:Lean.Parser.Tactic.simpLemma,* "]" : tactic => `(tactic| simp only [run_bind, run_pure, run_lift, run_withLocal, run_rd0, run_rd1, run_wr0, run_wr1,
  run_ite, run_low, run_high, run_setLow, run_setHigh, run_rd, run_ird, run_wr, run_iwr, run_prod, $ls,*])

namespace MemNative

theorem run_add2 (c : Cfg) (r a : Loc) : (add2 c r a).run = Ethnum.MemNative.add2 c r a := by
  unfold add2 Ethnum.MemNative.add2
  runs []

theorem run_add3 (c : Cfg) (r a b : Loc) : (add3 c r a b).run = Ethnum.MemNative.add3 c r a b := by
  unfold add3 Ethnum.MemNative.add3
  runs []

theorem run_uaddc (c : Cfg) (r a b : Loc) : (uaddc c r a b).run = Ethnum.MemNative.uaddc c r a b := by
  unfold uaddc Ethnum.MemNative.uaddc
  runs []

theorem run_iaddc (c : Cfg) (r a b : Loc) : (iaddc c r a b).run = Ethnum.MemNative.iaddc c r a b := by
  unfold iaddc Ethnum.MemNative.iaddc
  runs [MemNative.run_add3]

theorem run_sub2 (c : Cfg) (r a : Loc) : (sub2 c r a).run = Ethnum.MemNative.sub2 c r a := by
  unfold sub2 Ethnum.MemNative.sub2
  runs []

theorem run_sub3 (c : Cfg) (r a b : Loc) : (sub3 c r a b).run = Ethnum.MemNative.sub3 c r a b := by
  unfold sub3 Ethnum.MemNative.sub3
  runs []

theorem run_usubc (c : Cfg) (r a b : Loc) : (usubc c r a b).run = Ethnum.MemNative.usubc c r a b := by
  unfold usubc Ethnum.MemNative.usubc
  runs []

theorem run_isubc (c : Cfg) (r a b : Loc) : (isubc c r a b).run = Ethnum.MemNative.isubc c r a b := by
  unfold isubc Ethnum.MemNative.isubc
  runs [MemNative.run_sub3]

theorem run_mul3 (c : Cfg) (res a b : Loc) : (mul3 c res a b).run = Ethnum.MemNative.mul3 c res a b := by
  unfold mul3 Ethnum.MemNative.mul3
  runs []

theorem run_mul2 (c : Cfg) (r a : Loc) : (mul2 c r a).run = Ethnum.MemNative.mul2 c r a := by
  unfold mul2 Ethnum.MemNative.mul2
  runs [MemNative.run_mul3]

theorem run_umulc (c : Cfg) (r a b : Loc) : (umulc c r a b).run = Ethnum.MemNative.umulc c r a b := by
  unfold umulc Ethnum.MemNative.umulc
  runs []

theorem run_imulc (c : Cfg) (res a b : Loc) : (imulc c res a b).run = Ethnum.MemNative.imulc c res a b := by
  unfold imulc Ethnum.MemNative.imulc
  runs [MemNative.run_mul3]

theorem run_shl2 (c : Cfg) (r : Loc) (a : U32) : (shl2 c r a).run = Ethnum.MemNative.shl2 c r a := by
  unfold shl2 Ethnum.MemNative.shl2
  runs []

theorem run_shl3 (c : Cfg) (r a : Loc) (b : U32) : (shl3 c r a b).run = Ethnum.MemNative.shl3 c r a b := by
  unfold shl3 Ethnum.MemNative.shl3
  runs []

theorem run_sar2 (c : Cfg) (r : Loc) (a : U32) : (sar2 c r a).run = Ethnum.MemNative.sar2 c r a := by
  unfold sar2 Ethnum.MemNative.sar2
  runs []

theorem run_sar3 (c : Cfg) (r a : Loc) (b : U32) : (sar3 c r a b).run = Ethnum.MemNative.sar3 c r a b := by
  unfold sar3 Ethnum.MemNative.sar3
  runs []

theorem run_shr2 (c : Cfg) (r : Loc) (a : U32) : (shr2 c r a).run = Ethnum.MemNative.shr2 c r a := by
  unfold shr2 Ethnum.MemNative.shr2
  runs []

theorem run_shr3 (c : Cfg) (r a : Loc) (b : U32) : (shr3 c r a b).run = Ethnum.MemNative.shr3 c r a b := by
  unfold shr3 Ethnum.MemNative.shr3
  runs []

theorem run_rol3 (c : Cfg) (r a : Loc) (b : U32) : (rol3 c r a b).run = Ethnum.MemNative.rol3 c r a b := by
  unfold rol3 Ethnum.MemNative.rol3
  runs []

theorem run_ror3 (c : Cfg) (r a : Loc) (b : U32) : (ror3 c r a b).run = Ethnum.MemNative.ror3 c r a b := by
  unfold ror3 Ethnum.MemNative.ror3
  runs []

end MemNative

namespace MemLlvm

theorem run_two (f : U256 → U256 → U256) (r a : Loc) :
    (two f r a).run = Ethnum.MemLlvm.two f r a := by
  unfold two Ethnum.MemLlvm.two
  runs []

theorem run_three (f : U256 → U256 → U256) (r a b : Loc) :
    (three f r a b).run = Ethnum.MemLlvm.three f r a b := by
  unfold three Ethnum.MemLlvm.three
  runs []

theorem run_carry (f : U256 → U256 → U256 × Bool) (r a b : Loc) :
    (carry f r a b).run = Ethnum.MemLlvm.carry f r a b := by
  unfold carry Ethnum.MemLlvm.carry
  runs []

theorem run_icarry (f : I256 → I256 → I256 × Bool) (r a b : Loc) :
    (icarry f r a b).run = Ethnum.MemLlvm.icarry f r a b := by
  unfold icarry Ethnum.MemLlvm.icarry
  runs []

theorem run_shift2 (f : U256 → U32 → U256) (r : Loc) (a : U32) :
    (shift2 f r a).run = Ethnum.MemLlvm.shift2 f r a := by
  unfold shift2 Ethnum.MemLlvm.shift2
  runs []

theorem run_shift3 (f : U256 → U32 → U256) (r a : Loc) (b : U32) :
    (shift3 f r a b).run = Ethnum.MemLlvm.shift3 f r a b := by
  unfold shift3 Ethnum.MemLlvm.shift3
  runs []

theorem run_ishift2 (f : I256 → U32 → I256) (r : Loc) (a : U32) :
    (ishift2 f r a).run = Ethnum.MemLlvm.ishift2 f r a := by
  unfold ishift2 Ethnum.MemLlvm.ishift2
  runs []

theorem run_ishift3 (f : I256 → U32 → I256) (r a : Loc) (b : U32) :
    (ishift3 f r a b).run = Ethnum.MemLlvm.ishift3 f r a b := by
  unfold ishift3 Ethnum.MemLlvm.ishift3
  runs []

end MemLlvm

namespace MemIntr

theorem run_add2 (c : Cfg) (r a : Loc) : (add2 c r a).run = Ethnum.MemIntr.add2 c r a := by
  unfold add2 Ethnum.MemIntr.add2
  runs [MemNative.run_add2, MemLlvm.run_two]

theorem run_add3 (c : Cfg) (r a b : Loc) : (add3 c r a b).run = Ethnum.MemIntr.add3 c r a b := by
  unfold add3 Ethnum.MemIntr.add3
  runs [MemNative.run_add3, MemLlvm.run_three]

theorem run_uaddc (c : Cfg) (r a b : Loc) : (uaddc c r a b).run = Ethnum.MemIntr.uaddc c r a b := by
  unfold uaddc Ethnum.MemIntr.uaddc
  runs [MemNative.run_uaddc, MemLlvm.run_carry]

theorem run_iaddc (c : Cfg) (r a b : Loc) : (iaddc c r a b).run = Ethnum.MemIntr.iaddc c r a b := by
  unfold iaddc Ethnum.MemIntr.iaddc
  runs [MemNative.run_iaddc, MemLlvm.run_icarry]

theorem run_sub2 (c : Cfg) (r a : Loc) : (sub2 c r a).run = Ethnum.MemIntr.sub2 c r a := by
  unfold sub2 Ethnum.MemIntr.sub2
  runs [MemNative.run_sub2, MemLlvm.run_two]

theorem run_sub3 (c : Cfg) (r a b : Loc) : (sub3 c r a b).run = Ethnum.MemIntr.sub3 c r a b := by
  unfold sub3 Ethnum.MemIntr.sub3
  runs [MemNative.run_sub3, MemLlvm.run_three]

theorem run_usubc (c : Cfg) (r a b : Loc) : (usubc c r a b).run = Ethnum.MemIntr.usubc c r a b := by
  unfold usubc Ethnum.MemIntr.usubc
  runs [MemNative.run_usubc, MemLlvm.run_carry]

theorem run_isubc (c : Cfg) (r a b : Loc) : (isubc c r a b).run = Ethnum.MemIntr.isubc c r a b := by
  unfold isubc Ethnum.MemIntr.isubc
  runs [MemNative.run_isubc, MemLlvm.run_icarry]

theorem run_mul2 (c : Cfg) (r a : Loc) : (mul2 c r a).run = Ethnum.MemIntr.mul2 c r a := by
  unfold mul2 Ethnum.MemIntr.mul2
  runs [MemNative.run_mul2, MemLlvm.run_two]

theorem run_mul3 (c : Cfg) (r a b : Loc) : (mul3 c r a b).run = Ethnum.MemIntr.mul3 c r a b := by
  unfold mul3 Ethnum.MemIntr.mul3
  runs [MemNative.run_mul3, MemLlvm.run_three]

theorem run_umulc (c : Cfg) (r a b : Loc) : (umulc c r a b).run = Ethnum.MemIntr.umulc c r a b := by
  unfold umulc Ethnum.MemIntr.umulc
  runs [MemNative.run_umulc, MemLlvm.run_carry]

theorem run_shl2 (c : Cfg) (r : Loc) (a : U32) : (shl2 c r a).run = Ethnum.MemIntr.shl2 c r a := by
  unfold shl2 Ethnum.MemIntr.shl2
  runs [MemNative.run_shl2, MemLlvm.run_shift2]

theorem run_shl3 (c : Cfg) (r a : Loc) (b : U32) : (shl3 c r a b).run = Ethnum.MemIntr.shl3 c r a b := by
  unfold shl3 Ethnum.MemIntr.shl3
  runs [MemNative.run_shl3, MemLlvm.run_shift3]

theorem run_sar2 (c : Cfg) (r : Loc) (a : U32) : (sar2 c r a).run = Ethnum.MemIntr.sar2 c r a := by
  unfold sar2 Ethnum.MemIntr.sar2
  runs [MemNative.run_sar2, MemLlvm.run_ishift2]

theorem run_sar3 (c : Cfg) (r a : Loc) (b : U32) : (sar3 c r a b).run = Ethnum.MemIntr.sar3 c r a b := by
  unfold sar3 Ethnum.MemIntr.sar3
  runs [MemNative.run_sar3, MemLlvm.run_ishift3]

theorem run_shr2 (c : Cfg) (r : Loc) (a : U32) : (shr2 c r a).run = Ethnum.MemIntr.shr2 c r a := by
  unfold shr2 Ethnum.MemIntr.shr2
  runs [MemNative.run_shr2, MemLlvm.run_shift2]

theorem run_shr3 (c : Cfg) (r a : Loc) (b : U32) : (shr3 c r a b).run = Ethnum.MemIntr.shr3 c r a b := by
  unfold shr3 Ethnum.MemIntr.shr3
  runs [MemNative.run_shr3, MemLlvm.run_shift3]

theorem run_rol3 (c : Cfg) (r a : Loc) (b : U32) : (rol3 c r a b).run = Ethnum.MemIntr.rol3 c r a b := by
  unfold rol3 Ethnum.MemIntr.rol3
  runs [MemNative.run_rol3, MemLlvm.run_shift3]

theorem run_ror3 (c : Cfg) (r a : Loc) (b : U32) : (ror3 c r a b).run = Ethnum.MemIntr.ror3 c r a b := by
  unfold ror3 Ethnum.MemIntr.ror3
  runs [MemNative.run_ror3, MemLlvm.run_shift3]

theorem run_udivmod4 (c : Cfg) (res a b : Loc) (rem : Option Loc) : (udivmod4 c res a b rem).run = Ethnum.MemIntr.udivmod4 c res a b rem := by
  cases rem <;> (unfold udivmod4 Ethnum.MemIntr.udivmod4; runs [])

theorem run_udiv2 (c : Cfg) (r a : Loc) : (udiv2 c r a).run = Ethnum.MemIntr.udiv2 c r a := by
  unfold udiv2 Ethnum.MemIntr.udiv2
  runs [MemIntr.run_udivmod4]

theorem run_udiv3 (c : Cfg) (r a b : Loc) : (udiv3 c r a b).run = Ethnum.MemIntr.udiv3 c r a b := by
  unfold udiv3 Ethnum.MemIntr.udiv3
  runs [MemIntr.run_udivmod4]

theorem run_urem2 (c : Cfg) (r a : Loc) : (urem2 c r a).run = Ethnum.MemIntr.urem2 c r a := by
  unfold urem2 Ethnum.MemIntr.urem2
  runs [MemIntr.run_udivmod4]

theorem run_urem3 (c : Cfg) (r a b : Loc) : (urem3 c r a b).run = Ethnum.MemIntr.urem3 c r a b := by
  unfold urem3 Ethnum.MemIntr.urem3
  runs [MemIntr.run_udivmod4]

theorem run_idivmodSigns (c : Cfg) (res : Loc) (rem : Option Loc) (s_a s_b : I256) (a b : Loc) : (idivmodSigns c res rem s_a s_b a b).run = Ethnum.MemIntr.idivmodSigns c res rem s_a s_b a b := by
  cases rem <;> (unfold idivmodSigns Ethnum.MemIntr.idivmodSigns; runs [MemIntr.run_udivmod4])

theorem run_idivmod4 (c : Cfg) (res a b : Loc) (rem : Option Loc) : (idivmod4 c res a b rem).run = Ethnum.MemIntr.idivmod4 c res a b rem := by
  unfold idivmod4 Ethnum.MemIntr.idivmod4
  runs [MemIntr.run_idivmodSigns]

theorem run_idiv2 (c : Cfg) (r a : Loc) : (idiv2 c r a).run = Ethnum.MemIntr.idiv2 c r a := by
  unfold idiv2 Ethnum.MemIntr.idiv2
  runs [MemIntr.run_idivmod4]

theorem run_idiv3 (c : Cfg) (r a b : Loc) : (idiv3 c r a b).run = Ethnum.MemIntr.idiv3 c r a b := by
  unfold idiv3 Ethnum.MemIntr.idiv3
  runs [MemIntr.run_idivmod4]

theorem run_irem2 (c : Cfg) (r a : Loc) : (irem2 c r a).run = Ethnum.MemIntr.irem2 c r a := by
  unfold irem2 Ethnum.MemIntr.irem2
  runs [MemIntr.run_idivmod4]

theorem run_irem3 (c : Cfg) (r a b : Loc) : (irem3 c r a b).run = Ethnum.MemIntr.irem3 c r a b := by
  unfold irem3 Ethnum.MemIntr.irem3
  runs [MemIntr.run_idivmod4]

theorem run_imulc (c : Cfg) (res a b : Loc) : (imulc c res a b).run = Ethnum.MemIntr.imulc c res a b := by
  unfold imulc Ethnum.MemIntr.imulc
  runs [MemNative.run_imulc]

theorem run_iadd2 (c : Cfg) (r a : Loc) : (iadd2 c r a).run = Ethnum.MemIntr.iadd2 c r a := by
  unfold iadd2 Ethnum.MemIntr.iadd2
  runs [MemIntr.run_add2]

theorem run_iadd3 (c : Cfg) (r a b : Loc) : (iadd3 c r a b).run = Ethnum.MemIntr.iadd3 c r a b := by
  unfold iadd3 Ethnum.MemIntr.iadd3
  runs [MemIntr.run_add3]

theorem run_isub2 (c : Cfg) (r a : Loc) : (isub2 c r a).run = Ethnum.MemIntr.isub2 c r a := by
  unfold isub2 Ethnum.MemIntr.isub2
  runs [MemIntr.run_sub2]

theorem run_isub3 (c : Cfg) (r a b : Loc) : (isub3 c r a b).run = Ethnum.MemIntr.isub3 c r a b := by
  unfold isub3 Ethnum.MemIntr.isub3
  runs [MemIntr.run_sub3]

theorem run_imul2 (c : Cfg) (r a : Loc) : (imul2 c r a).run = Ethnum.MemIntr.imul2 c r a := by
  unfold imul2 Ethnum.MemIntr.imul2
  runs [MemIntr.run_mul2]

theorem run_imul3 (c : Cfg) (r a b : Loc) : (imul3 c r a b).run = Ethnum.MemIntr.imul3 c r a b := by
  unfold imul3 Ethnum.MemIntr.imul3
  runs [MemIntr.run_mul3]

theorem run_ishl2 (c : Cfg) (r : Loc) (a : U32) : (ishl2 c r a).run = Ethnum.MemIntr.ishl2 c r a := by
  unfold ishl2 Ethnum.MemIntr.ishl2
  runs [MemIntr.run_shl2]

theorem run_ishl3 (c : Cfg) (r a : Loc) (b : U32) : (ishl3 c r a b).run = Ethnum.MemIntr.ishl3 c r a b := by
  unfold ishl3 Ethnum.MemIntr.ishl3
  runs [MemIntr.run_shl3]

theorem run_irol3 (c : Cfg) (r a : Loc) (b : U32) : (irol3 c r a b).run = Ethnum.MemIntr.irol3 c r a b := by
  unfold irol3 Ethnum.MemIntr.irol3
  runs [MemIntr.run_rol3]

theorem run_iror3 (c : Cfg) (r a : Loc) (b : U32) : (iror3 c r a b).run = Ethnum.MemIntr.iror3 c r a b := by
  unfold iror3 Ethnum.MemIntr.iror3
  runs [MemIntr.run_ror3]

end MemIntr

namespace MemOps

theorem run_binop {T : Type} (c : Cfg) (rdT : Loc → P T) (op3 : Loc → Loc → Loc → P Unit) (opc : Loc → Loc → Loc → P Bool) (p : Panic) (a b : Loc) :
    (binop c rdT op3 opc p a b).run = Ethnum.MemOps.binop c (fun x => (rdT x).run) (fun x y z => (op3 x y z).run) (fun x y z => (opc x y z).run) p a b := by
  unfold binop Ethnum.MemOps.binop
  runs []

theorem run_divmod {T : Type} (rdT : Loc → P T) (isZero : T → Bool) (op3 : Loc → Loc → Loc → P Unit) (p : Panic) (a b : Loc) :
    (divmod rdT isZero op3 p a b).run = Ethnum.MemOps.divmod (fun x => (rdT x).run) isZero (fun x y z => (op3 x y z).run) p a b := by
  unfold divmod Ethnum.MemOps.divmod
  runs []

theorem run_shift {T : Type} (c : Cfg) (rdT : Loc → P T) (op3 : Loc → Loc → U32 → P Unit) (p : Panic) (a : Loc) (b : U32) :
    (shift c rdT op3 p a b).run = Ethnum.MemOps.shift c (fun x => (rdT x).run) (fun x y z => (op3 x y z).run) p a b := by
  unfold shift Ethnum.MemOps.shift
  runs []

theorem run_assign {T : Type} (c : Cfg) (wrT : Loc → T → P Unit) (op : P T) (op2 : P Unit) (a : Loc) :
    (assign c wrT op op2 a).run = Ethnum.MemOps.assign c (fun x y => (wrT x y).run) (op.run) (op2.run) a := by
  unfold assign Ethnum.MemOps.assign
  runs []

theorem run_byValue (b : Loc) (op : Loc → P Unit) :
    (byValue b op).run = Ethnum.MemOps.byValue b (fun x => (op x).run) := by
  unfold byValue Ethnum.MemOps.byValue
  runs []

theorem run_out {T : Type} (rdT : Loc → P T) (op : Loc → P Unit) :
    (out rdT op).run = Ethnum.MemOps.out (fun x => (rdT x).run) (fun x => (op x).run) := by
  unfold out Ethnum.MemOps.out
  runs []

theorem run_outc {T : Type} (rdT : Loc → P T) (op : Loc → P Bool) :
    (outc rdT op).run = Ethnum.MemOps.outc (fun x => (rdT x).run) (fun x => (op x).run) := by
  unfold outc Ethnum.MemOps.outc
  runs []

theorem run_out2 {T : Type} (rdT : Loc → P T) (op : Loc → Option Loc → P Unit) :
    (out2 rdT op).run = Ethnum.MemOps.out2 (fun x => (rdT x).run) (fun x y => (op x y).run) := by
  unfold out2 Ethnum.MemOps.out2
  runs []

theorem run_bitwise (op : U128 → U128 → U128) (a b : Loc) :
    (bitwise op a b).run = Ethnum.MemOps.bitwise op a b := by
  unfold bitwise Ethnum.MemOps.bitwise
  runs []

end MemOps

namespace U256

theorem run_addM (c : Cfg) (a b : Loc) : (addM c a b).run = Ethnum.U256.addM c a b := by
  unfold addM Ethnum.U256.addM
  runs [MemIntr.run_add3, MemIntr.run_uaddc, MemOps.run_binop]

theorem run_add_assignM (c : Cfg) (a b : Loc) : (add_assignM c a b).run = Ethnum.U256.add_assignM c a b := by
  unfold add_assignM Ethnum.U256.add_assignM
  runs [MemIntr.run_add2, MemOps.run_assign, U256.run_addM]

theorem run_subM (c : Cfg) (a b : Loc) : (subM c a b).run = Ethnum.U256.subM c a b := by
  unfold subM Ethnum.U256.subM
  runs [MemIntr.run_sub3, MemIntr.run_usubc, MemOps.run_binop]

theorem run_sub_assignM (c : Cfg) (a b : Loc) : (sub_assignM c a b).run = Ethnum.U256.sub_assignM c a b := by
  unfold sub_assignM Ethnum.U256.sub_assignM
  runs [MemIntr.run_sub2, MemOps.run_assign, U256.run_subM]

theorem run_mulM (c : Cfg) (a b : Loc) : (mulM c a b).run = Ethnum.U256.mulM c a b := by
  unfold mulM Ethnum.U256.mulM
  runs [MemIntr.run_mul3, MemIntr.run_umulc, MemOps.run_binop]

theorem run_mul_assignM (c : Cfg) (a b : Loc) : (mul_assignM c a b).run = Ethnum.U256.mul_assignM c a b := by
  unfold mul_assignM Ethnum.U256.mul_assignM
  runs [MemIntr.run_mul2, MemOps.run_assign, U256.run_mulM]

theorem run_divM (c : Cfg) (a b : Loc) : (divM c a b).run = Ethnum.U256.divM c a b := by
  unfold divM Ethnum.U256.divM
  runs [MemIntr.run_udiv3, MemOps.run_divmod]

theorem run_div_assignM (c : Cfg) (a b : Loc) : (div_assignM c a b).run = Ethnum.U256.div_assignM c a b := by
  unfold div_assignM Ethnum.U256.div_assignM
  runs [MemIntr.run_udiv2, MemOps.run_assign, U256.run_divM]

theorem run_remM (c : Cfg) (a b : Loc) : (remM c a b).run = Ethnum.U256.remM c a b := by
  unfold remM Ethnum.U256.remM
  runs [MemIntr.run_urem3, MemOps.run_divmod]

theorem run_rem_assignM (c : Cfg) (a b : Loc) : (rem_assignM c a b).run = Ethnum.U256.rem_assignM c a b := by
  unfold rem_assignM Ethnum.U256.rem_assignM
  runs [MemIntr.run_urem2, MemOps.run_assign, U256.run_remM]

theorem run_shlM (c : Cfg) (a : Loc) (b : U32) : (shlM c a b).run = Ethnum.U256.shlM c a b := by
  unfold shlM Ethnum.U256.shlM
  runs [MemIntr.run_shl3, MemOps.run_shift]

theorem run_shl_assignM (c : Cfg) (a : Loc) (b : U32) : (shl_assignM c a b).run = Ethnum.U256.shl_assignM c a b := by
  unfold shl_assignM Ethnum.U256.shl_assignM
  runs [MemIntr.run_shl2, MemOps.run_assign, U256.run_shlM]

theorem run_shrM (c : Cfg) (a : Loc) (b : U32) : (shrM c a b).run = Ethnum.U256.shrM c a b := by
  unfold shrM Ethnum.U256.shrM
  runs [MemIntr.run_shr3, MemOps.run_shift]

theorem run_shr_assignM (c : Cfg) (a : Loc) (b : U32) : (shr_assignM c a b).run = Ethnum.U256.shr_assignM c a b := by
  unfold shr_assignM Ethnum.U256.shr_assignM
  runs [MemIntr.run_shr2, MemOps.run_assign, U256.run_shrM]

theorem run_bitand_assignM (a b : Loc) : (bitand_assignM a b).run = Ethnum.U256.bitand_assignM a b := by
  unfold bitand_assignM Ethnum.U256.bitand_assignM
  runs [MemOps.run_bitwise]

theorem run_bitor_assignM (a b : Loc) : (bitor_assignM a b).run = Ethnum.U256.bitor_assignM a b := by
  unfold bitor_assignM Ethnum.U256.bitor_assignM
  runs [MemOps.run_bitwise]

theorem run_bitxor_assignM (a b : Loc) : (bitxor_assignM a b).run = Ethnum.U256.bitxor_assignM a b := by
  unfold bitxor_assignM Ethnum.U256.bitxor_assignM
  runs [MemOps.run_bitwise]

theorem run_wrapping_addM (c : Cfg) (a b : Loc) : (wrapping_addM c a b).run = Ethnum.U256.wrapping_addM c a b := by
  unfold wrapping_addM Ethnum.U256.wrapping_addM
  runs [MemIntr.run_add3, MemOps.run_out]

theorem run_overflowing_addM (c : Cfg) (a b : Loc) : (overflowing_addM c a b).run = Ethnum.U256.overflowing_addM c a b := by
  unfold overflowing_addM Ethnum.U256.overflowing_addM
  runs [MemIntr.run_uaddc, MemOps.run_outc]

theorem run_wrapping_subM (c : Cfg) (a b : Loc) : (wrapping_subM c a b).run = Ethnum.U256.wrapping_subM c a b := by
  unfold wrapping_subM Ethnum.U256.wrapping_subM
  runs [MemIntr.run_sub3, MemOps.run_out]

theorem run_overflowing_subM (c : Cfg) (a b : Loc) : (overflowing_subM c a b).run = Ethnum.U256.overflowing_subM c a b := by
  unfold overflowing_subM Ethnum.U256.overflowing_subM
  runs [MemIntr.run_usubc, MemOps.run_outc]

theorem run_wrapping_mulM (c : Cfg) (a b : Loc) : (wrapping_mulM c a b).run = Ethnum.U256.wrapping_mulM c a b := by
  unfold wrapping_mulM Ethnum.U256.wrapping_mulM
  runs [MemIntr.run_mul3, MemOps.run_out]

theorem run_overflowing_mulM (c : Cfg) (a b : Loc) : (overflowing_mulM c a b).run = Ethnum.U256.overflowing_mulM c a b := by
  unfold overflowing_mulM Ethnum.U256.overflowing_mulM
  runs [MemIntr.run_umulc, MemOps.run_outc]

theorem run_wrapping_shlM (c : Cfg) (a : Loc) (b : U32) : (wrapping_shlM c a b).run = Ethnum.U256.wrapping_shlM c a b := by
  unfold wrapping_shlM Ethnum.U256.wrapping_shlM
  runs [MemIntr.run_shl3, MemOps.run_out]

theorem run_wrapping_shrM (c : Cfg) (a : Loc) (b : U32) : (wrapping_shrM c a b).run = Ethnum.U256.wrapping_shrM c a b := by
  unfold wrapping_shrM Ethnum.U256.wrapping_shrM
  runs [MemIntr.run_shr3, MemOps.run_out]

theorem run_rotate_leftM (c : Cfg) (a : Loc) (b : U32) : (rotate_leftM c a b).run = Ethnum.U256.rotate_leftM c a b := by
  unfold rotate_leftM Ethnum.U256.rotate_leftM
  runs [MemIntr.run_rol3, MemOps.run_out]

theorem run_rotate_rightM (c : Cfg) (a : Loc) (b : U32) : (rotate_rightM c a b).run = Ethnum.U256.rotate_rightM c a b := by
  unfold rotate_rightM Ethnum.U256.rotate_rightM
  runs [MemIntr.run_ror3, MemOps.run_out]

theorem run_div_remM (c : Cfg) (a b : Loc) : (div_remM c a b).run = Ethnum.U256.div_remM c a b := by
  unfold div_remM Ethnum.U256.div_remM
  runs [MemIntr.run_udivmod4, MemOps.run_out2]

end U256

namespace I256

theorem run_addM (c : Cfg) (a b : Loc) : (addM c a b).run = Ethnum.I256.addM c a b := by
  unfold addM Ethnum.I256.addM
  runs [MemIntr.run_iaddc, MemIntr.run_iadd3, MemOps.run_binop]

theorem run_add_assignM (c : Cfg) (a b : Loc) : (add_assignM c a b).run = Ethnum.I256.add_assignM c a b := by
  unfold add_assignM Ethnum.I256.add_assignM
  runs [MemIntr.run_iadd2, MemOps.run_assign, I256.run_addM]

theorem run_subM (c : Cfg) (a b : Loc) : (subM c a b).run = Ethnum.I256.subM c a b := by
  unfold subM Ethnum.I256.subM
  runs [MemIntr.run_isubc, MemIntr.run_isub3, MemOps.run_binop]

theorem run_sub_assignM (c : Cfg) (a b : Loc) : (sub_assignM c a b).run = Ethnum.I256.sub_assignM c a b := by
  unfold sub_assignM Ethnum.I256.sub_assignM
  runs [MemIntr.run_isub2, MemOps.run_assign, I256.run_subM]

theorem run_mulM (c : Cfg) (a b : Loc) : (mulM c a b).run = Ethnum.I256.mulM c a b := by
  unfold mulM Ethnum.I256.mulM
  runs [MemIntr.run_imulc, MemIntr.run_imul3, MemOps.run_binop]

theorem run_mul_assignM (c : Cfg) (a b : Loc) : (mul_assignM c a b).run = Ethnum.I256.mul_assignM c a b := by
  unfold mul_assignM Ethnum.I256.mul_assignM
  runs [MemIntr.run_imul2, MemOps.run_assign, I256.run_mulM]

theorem run_divM (c : Cfg) (a b : Loc) : (divM c a b).run = Ethnum.I256.divM c a b := by
  unfold divM Ethnum.I256.divM
  runs [MemIntr.run_idiv3, MemOps.run_divmod]

theorem run_div_assignM (c : Cfg) (a b : Loc) : (div_assignM c a b).run = Ethnum.I256.div_assignM c a b := by
  unfold div_assignM Ethnum.I256.div_assignM
  runs [MemIntr.run_idiv2, MemOps.run_assign, I256.run_divM]

theorem run_remM (c : Cfg) (a b : Loc) : (remM c a b).run = Ethnum.I256.remM c a b := by
  unfold remM Ethnum.I256.remM
  runs [MemIntr.run_irem3, MemOps.run_divmod]

theorem run_rem_assignM (c : Cfg) (a b : Loc) : (rem_assignM c a b).run = Ethnum.I256.rem_assignM c a b := by
  unfold rem_assignM Ethnum.I256.rem_assignM
  runs [MemIntr.run_irem2, MemOps.run_assign, I256.run_remM]

theorem run_shlM (c : Cfg) (a : Loc) (b : U32) : (shlM c a b).run = Ethnum.I256.shlM c a b := by
  unfold shlM Ethnum.I256.shlM
  runs [MemIntr.run_ishl3, MemOps.run_shift]

theorem run_shl_assignM (c : Cfg) (a : Loc) (b : U32) : (shl_assignM c a b).run = Ethnum.I256.shl_assignM c a b := by
  unfold shl_assignM Ethnum.I256.shl_assignM
  runs [MemIntr.run_ishl2, MemOps.run_assign, I256.run_shlM]

theorem run_shrM (c : Cfg) (a : Loc) (b : U32) : (shrM c a b).run = Ethnum.I256.shrM c a b := by
  unfold shrM Ethnum.I256.shrM
  runs [MemIntr.run_sar3, MemOps.run_shift]

theorem run_shr_assignM (c : Cfg) (a : Loc) (b : U32) : (shr_assignM c a b).run = Ethnum.I256.shr_assignM c a b := by
  unfold shr_assignM Ethnum.I256.shr_assignM
  runs [MemIntr.run_sar2, MemOps.run_assign, I256.run_shrM]

theorem run_bitand_assignM (a b : Loc) : (bitand_assignM a b).run = Ethnum.I256.bitand_assignM a b := by
  unfold bitand_assignM Ethnum.I256.bitand_assignM
  runs [MemOps.run_bitwise]

theorem run_bitor_assignM (a b : Loc) : (bitor_assignM a b).run = Ethnum.I256.bitor_assignM a b := by
  unfold bitor_assignM Ethnum.I256.bitor_assignM
  runs [MemOps.run_bitwise]

theorem run_bitxor_assignM (a b : Loc) : (bitxor_assignM a b).run = Ethnum.I256.bitxor_assignM a b := by
  unfold bitxor_assignM Ethnum.I256.bitxor_assignM
  runs [MemOps.run_bitwise]

theorem run_wrapping_addM (c : Cfg) (a b : Loc) : (wrapping_addM c a b).run = Ethnum.I256.wrapping_addM c a b := by
  unfold wrapping_addM Ethnum.I256.wrapping_addM
  runs [MemIntr.run_iadd3, MemOps.run_out]

theorem run_overflowing_addM (c : Cfg) (a b : Loc) : (overflowing_addM c a b).run = Ethnum.I256.overflowing_addM c a b := by
  unfold overflowing_addM Ethnum.I256.overflowing_addM
  runs [MemIntr.run_iaddc, MemOps.run_outc]

theorem run_wrapping_subM (c : Cfg) (a b : Loc) : (wrapping_subM c a b).run = Ethnum.I256.wrapping_subM c a b := by
  unfold wrapping_subM Ethnum.I256.wrapping_subM
  runs [MemIntr.run_isub3, MemOps.run_out]

theorem run_overflowing_subM (c : Cfg) (a b : Loc) : (overflowing_subM c a b).run = Ethnum.I256.overflowing_subM c a b := by
  unfold overflowing_subM Ethnum.I256.overflowing_subM
  runs [MemIntr.run_isubc, MemOps.run_outc]

theorem run_wrapping_mulM (c : Cfg) (a b : Loc) : (wrapping_mulM c a b).run = Ethnum.I256.wrapping_mulM c a b := by
  unfold wrapping_mulM Ethnum.I256.wrapping_mulM
  runs [MemIntr.run_imul3, MemOps.run_out]

theorem run_overflowing_mulM (c : Cfg) (a b : Loc) : (overflowing_mulM c a b).run = Ethnum.I256.overflowing_mulM c a b := by
  unfold overflowing_mulM Ethnum.I256.overflowing_mulM
  runs [MemIntr.run_imulc, MemOps.run_outc]

theorem run_wrapping_shlM (c : Cfg) (a : Loc) (b : U32) : (wrapping_shlM c a b).run = Ethnum.I256.wrapping_shlM c a b := by
  unfold wrapping_shlM Ethnum.I256.wrapping_shlM
  runs [MemIntr.run_ishl3, MemOps.run_out]

theorem run_wrapping_shrM (c : Cfg) (a : Loc) (b : U32) : (wrapping_shrM c a b).run = Ethnum.I256.wrapping_shrM c a b := by
  unfold wrapping_shrM Ethnum.I256.wrapping_shrM
  runs [MemIntr.run_sar3, MemOps.run_out]

theorem run_rotate_leftM (c : Cfg) (a : Loc) (b : U32) : (rotate_leftM c a b).run = Ethnum.I256.rotate_leftM c a b := by
  unfold rotate_leftM Ethnum.I256.rotate_leftM
  runs [MemIntr.run_irol3, MemOps.run_out]

theorem run_rotate_rightM (c : Cfg) (a : Loc) (b : U32) : (rotate_rightM c a b).run = Ethnum.I256.rotate_rightM c a b := by
  unfold rotate_rightM Ethnum.I256.rotate_rightM
  runs [MemIntr.run_iror3, MemOps.run_out]

theorem run_wrapping_div_remM (c : Cfg) (a b : Loc) : (wrapping_div_remM c a b).run = Ethnum.I256.wrapping_div_remM c a b := by
  unfold wrapping_div_remM Ethnum.I256.wrapping_div_remM
  runs [MemIntr.run_idivmod4, MemOps.run_out2]

theorem run_checked_div_remM (c : Cfg) (a b : Loc) : (checked_div_remM c a b).run = Ethnum.I256.checked_div_remM c a b := by
  unfold checked_div_remM Ethnum.I256.checked_div_remM
  runs [MemIntr.run_idivmod4, MemOps.run_out2]

theorem run_checked_divM (c : Cfg) (a b : Loc) : (checked_divM c a b).run = Ethnum.I256.checked_divM c a b := by
  unfold checked_divM Ethnum.I256.checked_divM
  runs [MemIntr.run_idiv3, MemOps.run_out]

theorem run_checked_remM (c : Cfg) (a b : Loc) : (checked_remM c a b).run = Ethnum.I256.checked_remM c a b := by
  unfold checked_remM Ethnum.I256.checked_remM
  runs [MemIntr.run_irem3, MemOps.run_out]

end I256

end Ethnum.Steps
