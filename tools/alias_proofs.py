# Writes the case distinctions of lean/Verif/Proofs/Alias{Run,Ops,Mul,Div,IDiv,IRem,Shift,Calls}.lean, which are committed.
head='''import Verif.Proofs.Alias

/-
Lemmas for C69: the log of each operator and method, on every path that it can take, passes the check. The programs are run
symbolically: the conditions they branch on are split first, and what they log does not depend on anything else.
-/

namespace Ethnum.Alias
open Borrow Borrow.Event

theorem bind_run {α β : Type} (m : T α) (k : α → T β) (w : World) : (m >>= k) w = match m w with
    | (.ok x, w) => k x w
    | (.error e, w) => (.error e, w) := rfl
theorem pure_run {α : Type} (x : α) (w : World) : (pure x : T α) w = (.ok x, w) := rfl
theorem lift_run {α : Type} (r : Res α) (w : World) : lift r w = (r, w) := rfl
theorem note_run (r : Ref) (e : Event) (m : Mem) (l : List (Nat × Event)) (n : Nat) :
    note r e ⟨m, l, n⟩ = (.ok (), ⟨m, (r.id, e) :: l, n⟩) := rfl
theorem ref_run (k : Kind) (r : Ref) (p : Bool) (m : Mem) (l : List (Nat × Event)) (n : Nat) :
    ref k r p ⟨m, l, n⟩ = (.ok ⟨r.loc, r.id, n⟩, ⟨m, (r.id, .ref k r.tag n 0 32 p) :: l, n + 1⟩) := rfl
theorem refWord_run (k : Kind) (i : Nat) (r : Ref) (m : Mem) (l : List (Nat × Event)) (n : Nat) :
    refWord k i r ⟨m, l, n⟩ = (.ok ⟨r.loc, r.id, n⟩, ⟨m, (r.id, .ref k r.tag n (16 * i) 16 false) :: l, n + 1⟩) := rfl
theorem raw_run (k : Kind) (r : Ref) (m : Mem) (l : List (Nat × Event)) (n : Nat) :
    raw k r ⟨m, l, n⟩ = (.ok ⟨r.loc, r.id, n⟩, ⟨m, (r.id, .raw k r.tag n 0 32) :: l, n + 1⟩) := rfl
theorem returning_run {α : Type} (rs : List Ref) (t : T α) (w : World) : returning rs t w = match t w with
  | (x, w) => (x, { w with log := (rs.map fun r => (r.id, .ret [r.tag])) ++ w.log }) := rfl
theorem mem_run {α : Type} (t : M α) (m : Mem) (l : List (Nat × Event)) (n : Nat) :
    mem t ⟨m, l, n⟩ = match t m with | (r, s) => (r, ⟨s, l, n⟩) := rfl
theorem withLocal_run {α : Type} (x : Cell) (k : Ref → T α) (m : Mem) (l : List (Nat × Event)) (n : Nat) :
    withLocal x k ⟨m, l, n⟩ = match k ⟨m.length, n, owner⟩ ⟨m ++ [x], l, n + 1⟩ with
      | (r, w') => (r, { w' with mem := w'.mem.take m.length, log := (n, .access .write owner 0 32) :: w'.log }) := rfl
theorem mbind_run {α β : Type} (m : M α) (k : α → M β) (w : Mem) : (m >>= k) w = match m w with
    | (.ok x, w) => k x w
    | (.error e, w) => (.error e, w) := rfl
theorem mpure_run {α : Type} (x : α) (w : Mem) : (pure x : M α) w = (.ok x, w) := rfl

/-- Runs a program symbolically; then its log is checked by computation. -/
macro "evalT" "[" t:Lean.Parser.Tactic.simpLemma,* "]" : tactic => `(tactic| simp only [$t,*, assigning, assigningShift, calling,
    callingShift, Ops.assign, Ops.shiftAssign, Ops.binop, Ops.divmod, Ops.shift, Ops.bitwise, out, outc, outShift, out2,
    call1, call2, call3, call4, bind_run, pure_run, lift_run, note_run, ref_run, refWord_run, raw_run, returning_run, mem_run,
    withLocal_run, mbind_run, mpure_run, castMut, castRef, castUninit, castOpt, iassumeRef, again, wr, iwr, set, iset, rd, ird,
    start, var, low, high, setLow, setHigh, word, setWord, Bool.false_eq_true, if_false, if_true, ↓reduceIte, eq_self, throwPanic,
    Intr.signed2, Intr.signed3, Intr.signedShift3, Intr.ishl2, Llvm.two, Llvm.three, Llvm.carry, Llvm.icarry, Llvm.shift2,
    Llvm.shift3, Llvm.ishift2, Llvm.ishift3,
    M.rd0, M.rd1, M.wr0, M.wr1, M.wr, M.iwr, M.ird, M.rd, List.getElem?_cons_zero, List.getElem?_cons_succ, List.set_cons_zero,
    List.set_cons_succ, Cell.ofU, Cell.ofI, Cell.uninit, List.map_cons, List.map_nil, List.cons_append, List.nil_append,
    Nat.reduceAdd, Nat.reduceMul, Nat.one_ne_zero, List.length_cons, List.length_nil, List.take_succ_cons, List.take_zero])
/-- The same, with a case distinction on the conditions that are left -/
macro "runT" "[" t:Lean.Parser.Tactic.simpLemma,* "]" : tactic => `(tactic|
  (evalT [$t,*]; first | decide +kernel | (split_ifs <;> (evalT [$t,*]; decide +kernel))))

/-- The same, with a case distinction on a computation whose outcome is not known -/
macro "splitT" "[" t:Lean.Parser.Tactic.simpLemma,* "]" : tactic => `(tactic|
  (evalT [$t,*]; first | decide +kernel | (generalize (@bind Res _ _ _ _ _) = z; cases z <;> (evalT [$t,*]; decide +kernel))))

/-- The log of a program on two variables passes the check. -/
def Passes {R : Type} (t : T R) (x y : Cell) : Prop := checkLog 32 (t (start x y)).2.log.reverse = true

theorem Passes.obeys {R : Type} {t : T R} {x y : Cell} (h : Passes t x y) : Obeys 32 (t (start x y)).2.log.reverse :=
  obeys_of_check h

/-- The two possible outcomes of a computation on values -/
theorem outcome {α : Type} (r : Res α) : (∃ e, r = .error e) ∨ ∃ x, r = .ok x := by
  cases r
  · exact .inl ⟨_, rfl⟩
  · exact .inr ⟨_, rfl⟩

/-- The paths through `udivmod4` -/
theorem paths (c : Cfg) (xh xl yh yl : U128) (x y : Ethnum.U256) :
    (∃ e, xh ||| yh = 0 ∧ divC xl yl = .error e)
    ∨ (∃ q e, xh ||| yh = 0 ∧ divC xl yl = .ok q ∧ remC xl yl = .error e)
    ∨ (∃ q r, xh ||| yh = 0 ∧ divC xl yl = .ok q ∧ remC xl yl = .ok r)
    ∨ (¬ xh ||| yh = 0 ∧ y.gt c x = true)
    ∨ (∃ e, ¬ xh ||| yh = 0 ∧ y.gt c x = false ∧ (if y.high c = 0 then Ethnum.Intr.udivmodNarrow c x y
        else Ethnum.Intr.div_mod_knuth c x y) = .error e)
    ∨ (∃ q r, ¬ xh ||| yh = 0 ∧ y.gt c x = false ∧ (if y.high c = 0 then Ethnum.Intr.udivmodNarrow c x y
        else Ethnum.Intr.div_mod_knuth c x y) = .ok (q, r)) := by
  by_cases h : xh ||| yh = 0
  · rcases outcome (divC xl yl) with ⟨e, h1⟩ | ⟨q, h1⟩
    · exact .inl ⟨e, h, h1⟩
    · rcases outcome (remC xl yl) with ⟨e, h2⟩ | ⟨r, h2⟩
      · exact .inr (.inl ⟨q, e, h, h1, h2⟩)
      · exact .inr (.inr (.inl ⟨q, r, h, h1, h2⟩))
  · cases h1 : y.gt c x with
    | true => exact .inr (.inr (.inr (.inl ⟨h, rfl⟩)))
    | false =>
      rcases outcome (if y.high c = 0 then Ethnum.Intr.udivmodNarrow c x y else Ethnum.Intr.div_mod_knuth c x y)
        with ⟨e, h2⟩ | ⟨⟨q, r⟩, h2⟩
      · exact .inr (.inr (.inr (.inr (.inl ⟨e, h, rfl, h2⟩))))
      · exact .inr (.inr (.inr (.inr (.inr ⟨q, r, h, rfl, h2⟩))))

'''

D='/verif/lean/Verif/Proofs/'
open(D+'AliasRun.lean','w').write(head.replace('the log of each operator and method, on every path that it can take, passes the check. The programs','running the programs symbolically. The log of each operator\nand method, on every path that it can take, passes the check (Proofs/AliasOps.lean and on): the programs')+'end Ethnum.Alias\n')
def mod(name,what,body):
    open(D+name+'.lean','w').write(f"""import Verif.Proofs.AliasRun

/-
Lemmas for C69: {what}, on every path that it can take, has a log that passes the check.
-/

namespace Ethnum.Alias
set_option maxHeartbeats 4000000

{body}
end Ethnum.Alias
""")
HEADX=' (x0 x1 y0 y1 : U128) :\n    Passes ({prog}) ⟨some x0, some x1⟩ ⟨some y0, some y1⟩ := by\n  unfold Passes\n'
def thm(name,prog,body,c=True):
    return f"theorem {name}_passes"+(' (c : Cfg)' if c else '')+HEADX.replace('{prog}',prog)+body
out=''
for ns in ['U256','I256']:
    for n in ['bitand','bitor','bitxor']:
        out+=thm(f'{ns}.{n}_assign',f'assigning {ns}.{n}_assign',f'  runT [{ns}.{n}_assign]\n',False)
CFG='cases hb : c.bigEndian <;> cases hd : c.debugAssertions <;> cases hl : c.llvm'
for ns,n,op3,opc,op2 in [('U256','add','add3','uaddc','add2'),('I256','add','add3','iaddc','add2'),('U256','sub','sub3','usubc','sub2'),('I256','sub','sub3','isubc','sub2')]:
    for nm,prog in [(f'{ns}.{n}_assign',f'assigning ({ns}.{n}_assign c)'),(f'{ns}.{n}',f'calling ({ns}.{n} c)'),(f'{ns}.wrapping_{n}',f'calling ({ns}.wrapping_{n} c)'),(f'{ns}.overflowing_{n}',f'calling ({ns}.overflowing_{n} c)')]:
        out+=thm(nm,prog,f"""  {CFG} <;>
    runT [hb, hd, hl, {ns}.{n}_assign, {ns}.{n}, {ns}.wrapping_{n}, {ns}.overflowing_{n}, Intr.{op3}, Intr.{opc}, Intr.{op2}, Native.{op3}, Native.{opc}, Native.{op2}]
""")
mod('AliasOps','each of `+`, `-`, `&`, `|` and `^`',out)
out=''
def ends(f):
    o=''
    for b,(xh,xl,yh,yl) in [('false',('x1','x0','y1','y0')),('true',('x0','x1','y0','y1'))]:
        o+='  · '+f(xh,xl,yh,yl)
    return o
for nm,prog in [('mul_assign','assigning (U256.mul_assign c)'),('mul','calling (U256.mul c)'),('wrapping_mul','calling (U256.wrapping_mul c)'),('overflowing_mul','calling (U256.overflowing_mul c)')]:
    ls='hb, hd, hl, U256.mul_assign, U256.mul, U256.wrapping_mul, U256.overflowing_mul, Intr.mul3, Intr.umulc, Intr.mul2, Native.mul3, Native.umulc, Native.mul2, h1'
    out+=thm('U256.'+nm,prog,"  cases hb : c.bigEndian\n"+ends(lambda xh,xl,yh,yl: f"""rcases outcome (Ethnum.Native.umulddi3 c {xl} {yl}) with ⟨e, h1⟩ | ⟨q, h1⟩ <;>
      cases hd : c.debugAssertions <;> cases hl : c.llvm <;> runT [{ls}]
"""))
for nm,prog in [('mul_assign','assigning (I256.mul_assign c)'),('mul','calling (I256.mul c)'),('wrapping_mul','calling (I256.wrapping_mul c)'),('overflowing_mul','calling (I256.overflowing_mul c)')]:
    ls='hb, hd, hl, I256.mul_assign, I256.mul, I256.wrapping_mul, I256.overflowing_mul, Intr.mul3, Native.imulc, Intr.mul2, Native.mul3, Native.mul2, h1'
    out+=thm('I256.'+nm,prog,"  cases hb : c.bigEndian\n"+ends(lambda xh,xl,yh,yl: f"""rcases outcome (Ethnum.Native.umulddi3 c {xl} {yl}) with ⟨e, h1⟩ | ⟨q, h1⟩ <;> cases hl : c.llvm <;>
      cases hd : c.debugAssertions
    all_goals first
      | runT [{ls}]
      | (rcases outcome (MemNative.imulcFlag c ⟨x0, x1⟩ ⟨y0, y1⟩) with ⟨e, h2⟩ | ⟨q, h2⟩ <;> runT [{ls}, h2])
"""))
mod('AliasMul','each form of `*`',out)
PATHS='⟨e, h, h1⟩ | ⟨q, e, h, h1, h2⟩ | ⟨q, r, h, h1, h2⟩ | ⟨h, h1⟩ | ⟨e, h, h1, h2⟩ | ⟨q, r, h, h1, h2⟩'
def paths(ls,ind='    '):
    def f(xh,xl,yh,yl):
        return f"""rcases paths c {xh} {xl} {yh} {yl} ⟨x0, x1⟩ ⟨y0, y1⟩ with
      {PATHS}
{ind}· runT [{ls}, h, h1]
{ind}· runT [{ls}, h, h1, h2]
{ind}· runT [{ls}, h, h1, h2]
{ind}· runT [{ls}, h, h1]
{ind}· runT [{ls}, h, h1, h2]
{ind}· runT [{ls}, h, h1, h2]
"""
    return f
def ipaths(ls,ind='    '):
    def f(xh,xl,yh,yl):
        w=lambda a:a.replace('x','p').replace('y','q')
        return f"""rcases outcome (Ethnum.I256.shr c ⟨x0, x1⟩ 255) with ⟨e, h3⟩ | ⟨s, h3⟩
{ind}· runT [{ls}, h3]
{ind}rcases outcome (Ethnum.I256.shr c ⟨y0, y1⟩ 255) with ⟨e, h4⟩ | ⟨t, h4⟩
{ind}· runT [{ls}, h3, h4]
{ind}obtain ⟨⟨p0, p1⟩, hp⟩ : ∃ z, ((⟨x0, x1⟩ : Ethnum.I256).bitxor s).wrapping_sub c s = z := ⟨_, rfl⟩
{ind}obtain ⟨⟨q0, q1⟩, hq⟩ : ∃ z, ((⟨y0, y1⟩ : Ethnum.I256).bitxor t).wrapping_sub c t = z := ⟨_, rfl⟩
{ind}rcases paths c {w(xh)} {w(xl)} {w(yh)} {w(yl)} ⟨p0, p1⟩ ⟨q0, q1⟩ with
      {PATHS}
{ind}· runT [{ls}, h3, h4, hp, hq, h, h1]
{ind}· runT [{ls}, h3, h4, hp, hq, h, h1, h2]
{ind}· runT [{ls}, h3, h4, hp, hq, h, h1, h2]
{ind}· runT [{ls}, h3, h4, hp, hq, h, h1]
{ind}· runT [{ls}, h3, h4, hp, hq, h, h1, h2]
{ind}· runT [{ls}, h3, h4, hp, hq, h, h1, h2]
"""
    return f
def div(ns,n,pf,defs):
    o=''
    o+=thm(f'{ns}.{n}_assign',f'assigning ({ns}.{n}_assign c)',
      "  cases hb : c.bigEndian <;> cases hd : c.debugAssertions\n  rotate_left\n"
      +"".join(x for x in [
       debugged(ns,pf,f'hb, hd, hz, {defs}','x1','x0','y1','y0'),
       '  rotate_left\n',
       debugged(ns,pf,f'hb, hd, hz, {defs}','x0','x1','y0','y1'),
       '  · '+pf(f'hb, hd, {defs}')('x1','x0','y1','y0'),
       '  · '+pf(f'hb, hd, {defs}')('x0','x1','y0','y1')]))
    o+=thm(f'{ns}.{n}',f'calling ({ns}.{n} c)',"  cases hb : c.bigEndian\n"
       +debugged(ns,pf,f'hb, hz, {defs}','x1','x0','y1','y0')
       +debugged(ns,pf,f'hb, hz, {defs}','x0','x1','y0','y1'))
    return o
def debugged(ns,pf,ls,*ws):
    return f"""  · cases hz : Ethnum.{ns}.eq_prim c ⟨y0, y1⟩ 0
    rotate_left
    · runT [{ls}]
    """+pf(ls)(*ws)
out=div('U256','div',paths,'U256.div_assign, U256.div, Intr.udiv2, Intr.udiv3, Intr.udivmod4')
out+=div('U256','rem',paths,'U256.rem_assign, U256.rem, Intr.urem2, Intr.urem3, Intr.udivmod4')
mod('AliasDiv','each form of `/` and `%` of `U256`',out)
out=div('I256','div',ipaths,'I256.div_assign, I256.div, Intr.idiv2, Intr.idiv3, Intr.idivmod4, Intr.idivmodSigns, Intr.udivmod4')
mod('AliasIDiv','each form of `/` of `I256`',out)
out=div('I256','rem',ipaths,'I256.rem_assign, I256.rem, Intr.irem2, Intr.irem3, Intr.idivmod4, Intr.idivmodSigns, Intr.udivmod4')
mod('AliasIRem','each form of `%` of `I256`',out)

def thms(name,prog,body):
    return f"theorem {name}_passes (c : Cfg) (n : U32) (x0 x1 y0 y1 : U128) :\n    Passes ({prog}) ⟨some x0, some x1⟩ ⟨some y0, some y1⟩ := by\n  unfold Passes\n"+body
out=''
for ns in ['U256','I256']:
    for n in ['shl','shr']:
        k='sar' if (ns,n)==('I256','shr') else n
        defs=f'{ns}.{n}_assign, {ns}.{n}, Intr.{k}2, Intr.{k}3, Native.{k}2, Native.{k}3'
        terms={'shl':('U256',lambda h,l:f'let hi := (← shlC c {h} n) ||| (← shrC c {l} (← subC c 128 n)); let lo ← shlC c {l} n; return U256.from_words c hi lo',
                 lambda h,l:f'let hi ← shlC c {l} (n &&& 0x7f); return U256.from_words c hi 0'),
          'shr':('U256',lambda h,l:f'let hi ← shrC c {h} n; let lo := (← shrC c {l} n) ||| (← shlC c {h} (← subC c 128 n)); return U256.from_words c hi lo',
                 lambda h,l:f'let lo ← shrC c {h} (n &&& 0x7f); return U256.from_words c 0 lo'),
          'sar':('I256',lambda h,l:f'let hi ← sarC c {h} n; let lo := (← shrC c {l} n) ||| (← shlC c {h} (← subC c 128 n)); return I256.from_words c hi lo',
                 lambda h,l:f'let hi ← sarC c {h} 127; let lo ← sarC c {h} (n &&& 0x7f); return I256.from_words c hi lo')}[k]
        OUT=''
        for h,l in [('x1','x0'),('x0','x1')]:
            for f in terms[1:]:
                OUT+=f'''    | (rcases outcome (do {f(h,l)} : Res Ethnum.{terms[0]}) with ⟨e, h3⟩ | ⟨v, h3⟩ <;>
        runT [hd, hg, hl, h0, hb, h1, h2, h3, {defs}, Bool.true_and, Bool.false_and])
'''.replace('return U256','return Ethnum.U256').replace('return I256','return Ethnum.I256')
        for nm,prog in [(f'{ns}.{n}_assign',f'assigningShift ({ns}.{n}_assign c) n'),(f'{ns}.{n}',f'callingShift ({ns}.{n} c) n'),(f'{ns}.{n}Out',f'callingShift (outShift {"ird" if ns=="I256" else "rd"} ({"Intr.signedShift3 (Intr.shl3 c)" if (ns,n)==("I256","shl") else "Intr."+k+"3 c"})) n')]:
            out+=thms(nm,prog,f"""  cases hd : c.debugAssertions <;> cases hg : decide (n > 0xff) <;> cases hl : c.llvm
  all_goals first
    | runT [hd, hg, hl, {defs}, Bool.true_and, Bool.false_and]
    | skip
  all_goals rcases outcome (debugAssert c (decide (n < 256))) with ⟨e, h0⟩ | ⟨u, h0⟩
  all_goals first
    | runT [hd, hg, hl, h0, {defs}, Bool.true_and, Bool.false_and]
    | skip
  all_goals cases hb : c.bigEndian <;> by_cases h1 : n = 0
  all_goals first
    | (subst h1; runT [hd, hg, hl, h0, hb, {defs}, Bool.true_and, Bool.false_and])
    | skip
  all_goals by_cases h2 : n < 128
  all_goals first
{OUT}""")
for ns in ['U256','I256']:
    for n in ['shl','shr']:
        out+=f'''theorem {ns}.wrapping_{n}_passes (c : Cfg) (n : U32) (x0 x1 y0 y1 : U128) :
    Passes (callingShift ({ns}.wrapping_{n} c) n) ⟨some x0, some x1⟩ ⟨some y0, some y1⟩ :=
  {ns}.{n}Out_passes c (n &&& 0xff) x0 x1 y0 y1
'''
mod('AliasShift','each form of `<<` and `>>`',out)
out=''
for ns in ['U256','I256']:
    for n,k in [('rotate_left','rol3'),('rotate_right','ror3')]:
        out+=thms(f'{ns}.{n}',f'callingShift ({ns}.{n} c) n',f"""  rcases outcome (Ethnum.Native.{k} c ⟨x0, x1⟩ n) with ⟨e, h⟩ | ⟨v, h⟩ <;> cases hl : c.llvm <;>
    runT [hl, h, {ns}.{n}, Intr.{k}, Native.{k}]
""")
def dr(ns,f,pf,defs):
    global out
    b=pf('hb, hz, '+defs)
    b2=lambda *a: b(*a).replace('runT','splitT')
    out+=thm(f'{ns}.{f}',f'calling ({ns}.{f} c)',f"""  cases hb : c.bigEndian
"""+''.join(f"""  · cases hz : Ethnum.{ns}.eq_prim c ⟨y0, y1⟩ 0
    rotate_left
    · splitT [hb, hz, {defs}]
    rcases outcome ({unr}) with ⟨e, hu⟩ | ⟨u, hu⟩
    · splitT [hb, hz, hu, {defs}]
    """.replace('{unr}','') +b2(*w).replace('hb, hz','hb, hz, hu') for w in [('x1','x0','y1','y0'),('x0','x1','y0','y1')]
    for unr in ['unreachableIf (Ethnum.U256.le_prim c ⟨y0, y1⟩ 0)' if ns=='U256' else 'unreachableIf (Ethnum.I256.cmp c ⟨y0, y1⟩ Ethnum.I256.ZERO == .eq)']))
dr('U256','div_rem',paths,'U256.div_rem, Intr.udivmod4')
dr('I256','wrapping_div_rem',ipaths,'I256.wrapping_div_rem, Intr.idivmod4, Intr.idivmodSigns, Intr.udivmod4')
mod('AliasCalls','each of the methods that rotate or divide',out)
