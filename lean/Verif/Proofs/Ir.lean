import Verif.SpecIr
import Verif.Proofs.Llvm
import Verif.Proofs.Bits

/-! The build script: `str::replace`, the text of the IR, and the meaning of the template functions. -/

namespace Ethnum
namespace Build

theorem replaceFrom_drop (pat rep : List Char) : ∀ (k : Nat) (s : List Char),
    replaceFrom pat rep k s = replaceFrom pat rep 0 (s.drop k)
  | 0, s => rfl
  | k + 1, [] => by simp [replaceFrom]
  | k + 1, c :: s => by rw [replaceFrom, replaceFrom_drop pat rep k s]; simp

theorem infix_cons_cases {p : List Char} {c : Char} {s : List Char} (h : p <:+: c :: s) : p <+: c :: s ∨ p <:+: s := by
  exact List.infix_cons_iff.mp h

/-- What `str::replace` does. -/
theorem replace_spec (pat rep : List Char) (hp : pat ≠ []) : ∀ (n : Nat) (s : List Char), s.length ≤ n →
    ∃ (pieces : List (List Char)) (last : List Char), s = (pieces.map (· ++ pat)).flatten ++ last
      ∧ replaceFrom pat rep 0 s = (pieces.map (· ++ rep)).flatten ++ last
      ∧ (∀ p ∈ pieces, ¬ pat <:+: p ++ pat.dropLast) ∧ ¬ pat <:+: last := by
  have hnil : ¬ pat <:+: [] := by simpa using hp
  intro n
  induction n with
  | zero =>
    intro s hs
    have : s = [] := List.length_eq_zero_iff.mp (Nat.le_zero.mp hs)
    subst this
    exact ⟨[], [], rfl, by simp [replaceFrom], by simp, hnil⟩
  | succ n ih =>
    intro s hs
    cases s with
    | nil => exact ⟨[], [], rfl, by simp [replaceFrom], by simp, hnil⟩
    | cons c s =>
      have hlen : 0 < pat.length := List.length_pos_iff.mpr hp
      by_cases hpre : pat <+: c :: s
      · obtain ⟨t, ht⟩ := hpre
        have htl : t.length ≤ n := by
          have := congrArg List.length ht
          simp at this hs; omega
        obtain ⟨ps, l, e1, e2, e3, e4⟩ := ih t htl
        refine ⟨[] :: ps, l, ?_, ?_, ?_, e4⟩
        · simp only [List.map_cons, List.flatten_cons, List.nil_append, List.append_assoc]
          rw [← e1, ht]
        · have hb : pat.isPrefixOf (c :: s) = true := List.isPrefixOf_iff_prefix.mpr ⟨t, ht⟩
          rw [replaceFrom, if_pos hb, replaceFrom_drop]
          have : s.drop (pat.length - 1) = t := by
            cases pat with
            | nil => exact absurd rfl hp
            | cons q ps =>
              simp only [List.cons_append, List.cons.injEq] at ht
              rw [← ht.2]; simp
          rw [this, e2]; simp
        · intro p hpm
          rcases List.mem_cons.mp hpm with rfl | hpm
          · intro h
            have := h.length_le
            simp at this; omega
          · exact e3 p hpm
      · have hb : ¬ pat.isPrefixOf (c :: s) = true := fun h => hpre (List.isPrefixOf_iff_prefix.mp h)
        obtain ⟨ps, l, e1, e2, e3, e4⟩ := ih s (by simp at hs; omega)
        cases ps with
        | nil =>
          simp only [List.map_nil, List.flatten_nil, List.nil_append] at e1 e2
          refine ⟨[], c :: l, by simp [e1], ?_, by simp, ?_⟩
          · rw [replaceFrom, if_neg hb, e2]; simp
          · rw [← e1] at e4 ⊢
            intro h
            rcases infix_cons_cases h with h | h
            · exact hpre h
            · exact e4 h
        | cons p ps =>
          refine ⟨(c :: p) :: ps, l, by simp [e1], ?_, ?_, e4⟩
          · rw [replaceFrom, if_neg hb, e2]; simp
          · intro q hq
            rcases List.mem_cons.mp hq with rfl | hq
            · intro h
              rcases infix_cons_cases h with h | h
              · apply hpre
                have h2 : (c :: p) ++ pat.dropLast <+: c :: s := by
                  rw [e1]
                  have : pat.dropLast <+: pat := List.dropLast_prefix pat
                  obtain ⟨u, hu⟩ := this
                  refine ⟨u ++ (ps.map (· ++ pat)).flatten ++ l, ?_⟩
                  simp only [List.map_cons, List.flatten_cons, List.cons_append, List.append_assoc, List.cons.injEq,
                    true_and]
                  rw [← List.append_assoc pat.dropLast, hu]
                exact h.trans h2
              · exact e3 p (by simp) h
            · exact e3 q (by simp [hq])

theorem replaceFrom_append {pat : List Char} (rep : List Char) {t : List Char} (hp : pat ≠ [])
    (ht : ∀ c ∈ t.head?, c ∉ pat.tail) : ∀ (s : List Char) (k : Nat), k ≤ s.length →
    replaceFrom pat rep k (s ++ t) = replaceFrom pat rep k s ++ replaceFrom pat rep 0 t
  | [], k, hk => by
    have : k = 0 := Nat.le_zero.mp hk
    subst this; simp [replaceFrom]
  | c :: s, k + 1, hk => by
    rw [List.cons_append, replaceFrom, replaceFrom]
    exact replaceFrom_append rep hp ht s k (by simpa using hk)
  | c :: s, 0, _ => by
    have key : pat <+: (c :: s) ++ t ↔ pat <+: c :: s := by
      constructor
      · intro h
        rcases List.prefix_or_prefix_of_prefix h (List.prefix_append (c :: s) t) with h1 | ⟨u, hu⟩
        · exact h1
        · cases u with
          | nil => rw [List.append_nil] at hu; rw [hu]; exact List.prefix_refl _
          | cons x u =>
            exfalso
            rw [← hu] at h
            obtain ⟨v, hv⟩ := h
            rw [List.append_assoc] at hv
            have := List.append_cancel_left hv
            refine ht x ?_ ?_
            · rw [← this]; simp
            · rw [← hu]; simp
      · intro h; exact h.trans (List.prefix_append _ _)
    rw [List.cons_append, replaceFrom, replaceFrom]
    by_cases h : pat <+: c :: s
    · have h1 : pat.isPrefixOf (c :: s) = true := List.isPrefixOf_iff_prefix.mpr h
      have h2 : pat.isPrefixOf (c :: (s ++ t)) = true := List.isPrefixOf_iff_prefix.mpr (key.mpr h)
      have hl := h.length_le
      rw [if_pos h1, if_pos h2, replaceFrom_append rep hp ht s _ (by simp at hl; omega), List.append_assoc]
    · have h1 : ¬ pat.isPrefixOf (c :: s) = true := fun e => h (List.isPrefixOf_iff_prefix.mp e)
      have h2 : ¬ pat.isPrefixOf (c :: (s ++ t)) = true := fun e => h (key.mp (List.isPrefixOf_iff_prefix.mp e))
      rw [if_neg h1, if_neg h2, replaceFrom_append rep hp ht s 0 (by omega), List.cons_append]

theorem replaceFrom_of_not_mem {pat rep : List Char} {q : Char} (hq : q ∈ pat) : ∀ {s : List Char}, q ∉ s →
    replaceFrom pat rep 0 s = s
  | [], _ => by simp [replaceFrom]
  | c :: s, h => by
    have h1 : ¬ pat.isPrefixOf (c :: s) = true :=
      fun e => h ((List.isPrefixOf_iff_prefix.mp e).subset hq)
    rw [replaceFrom, if_neg h1, replaceFrom_of_not_mem hq (fun e => h (by simp [e]))]

theorem ws_replace1 {x : List Char} (h : Ws x) : Ws (replace x "i128" "i256") := by
  cases x with
  | nil => simpa [replace, replaceFrom] using h
  | cons c s =>
    have hc := h c (by simp)
    have : ¬ "i128".toList.isPrefixOf (c :: s) = true := by
      rcases hc with rfl | rfl <;> simp
    unfold replace
    rw [replaceFrom, if_neg this]
    intro d hd
    simp at hd; subst hd; exact hc

theorem ws_replace3 {x : List Char} (h : Ws x) : Ws (replace x "dereferenceable(16)" "dereferenceable(32)") := by
  cases x with
  | nil => simpa [replace, replaceFrom] using h
  | cons c s =>
    have hc := h c (by simp)
    have : ¬ "dereferenceable(16)".toList.isPrefixOf (c :: s) = true := by
      rcases hc with rfl | rfl <;> simp
    unfold replace
    rw [replaceFrom, if_neg this]
    intro d hd
    simp at hd; subst hd; exact hc

theorem ws_replace2 {x : List Char} (h : Ws x) : Ws (replace x " 127" " 255") := by
  cases x with
  | nil => simpa [replace, replaceFrom] using h
  | cons c s =>
    have hc := h c (by simp)
    unfold replace
    rw [replaceFrom]
    split
    · intro d hd
      simp at hd; subst hd; simp
    · intro d hd
      simp at hd; subst hd; exact hc

theorem ws_rewrite {x : List Char} (h : Ws x) : Ws (rewrite x) := ws_replace3 (ws_replace2 (ws_replace1 h))

theorem replace_append {pat rep : String} {t : List Char} (hp : pat.toList ≠ [])
    (h1 : ' ' ∉ pat.toList.tail) (h2 : '\n' ∉ pat.toList.tail) (h : Ws t) (s : List Char) :
    replace (s ++ t) pat rep = replace s pat rep ++ replace t pat rep :=
  replaceFrom_append _ hp (fun c hc => by rcases h c hc with rfl | rfl <;> assumption) s 0 (by omega)

theorem rewrite_append {t : List Char} (h : Ws t) (s : List Char) : rewrite (s ++ t) = rewrite s ++ rewrite t := by
  unfold rewrite
  rw [replace_append (by decide) (by decide) (by decide) h,
    replace_append (by decide) (by decide) (by decide) (ws_replace1 h),
    replace_append (by decide) (by decide) (by decide) (ws_replace2 (ws_replace1 h))]

theorem rewrite_nil : rewrite [] = [] := by decide

theorem ws_flatten {l : List (List Char)} (h : ∀ x ∈ l, Ws x) : Ws l.flatten := by
  induction l with
  | nil => intro c hc; simp at hc
  | cons x l ih =>
    have ih := ih (fun y hy => h y (by simp [hy]))
    cases x with
    | nil => simpa using ih
    | cons c x =>
      intro d hd
      simp at hd; subst hd
      exact h (c :: x) (by simp) c (by simp)

theorem rewrite_flatten {l : List (List Char)} (h : ∀ x ∈ l, Ws x) : rewrite l.flatten = (l.map rewrite).flatten := by
  induction l with
  | nil => exact rewrite_nil
  | cons x l ih =>
    have h' : ∀ y ∈ l, Ws y := fun y hy => h y (by simp [hy])
    rw [List.flatten_cons, rewrite_append (ws_flatten h'), ih h', List.map_cons, List.flatten_cons]

/-- A text without the digit 1 stays as it is. -/
theorem rewrite_no_one {x : List Char} (h : '1' ∉ x) : rewrite x = x := by
  unfold rewrite replace
  rw [replaceFrom_of_not_mem (q := '1') (by decide) h, replaceFrom_of_not_mem (q := '1') (by decide) h,
    replaceFrom_of_not_mem (q := '1') (by decide) h]

theorem rewrite_keep {x : List Char} (hs : ' ' ∉ x) (hi : 'i' ∉ x) (hd : 'd' ∉ x) (h : ¬ ['1', '2', '7'] <+: x) :
    rewrite (' ' :: x) = ' ' :: x := by
  unfold rewrite replace
  rw [replaceFrom_of_not_mem (pat := "i128".toList) (q := 'i') (by decide) (by simp [hi])]
  have e : ¬ " 127".toList.isPrefixOf (' ' :: x) = true := by
    intro e
    have := List.isPrefixOf_iff_prefix.mp e
    have e2 : " 127".toList = ' ' :: ['1', '2', '7'] := by decide
    rw [e2] at this
    exact h ((List.cons_prefix_cons.mp this).2)
  rw [replaceFrom, if_neg e, replaceFrom_of_not_mem (q := ' ') (by decide) hs,
    replaceFrom_of_not_mem (q := 'd') (by decide) (by simp [hd])]

end Build

namespace Ir
open Build

theorem digit_of_mem_num {n : Nat} {c : Char} (h : c ∈ num n) : c.isDigit = true :=
  Nat.isDigit_of_mem_toDigits (by decide) (by decide) h

theorem not_mem_num {n : Nat} {c : Char} (h : c.isDigit = false) : c ∉ num n := fun e => by
  rw [digit_of_mem_num e] at h; exact absurd h (by decide)

theorem not_mem_opd (x : Opd) {c : Char} (h : c.isDigit = false) (h1 : c ≠ '%') (h2 : c ≠ 'r') (h3 : c ≠ 'a')
    (h4 : c ≠ 'b') : c ∉ x.text := by
  cases x with
  | reg n => simp [Opd.text, not_mem_num h, h1]
  | arg p => cases p <;> simp [Opd.text, Param.name, *]

theorem opd_head (x : Opd) (e : List Char) : ¬ ['1', '2', '7'] <+: x.text ++ e := by
  cases x with
  | reg n => simp [Opd.text]
  | arg p => simp [Opd.text]

theorem rewrite_opd (x : Opd) : rewrite (' ' :: x.text) = ' ' :: x.text :=
  rewrite_keep (not_mem_opd x (by decide) (by decide) (by decide) (by decide) (by decide))
    (not_mem_opd x (by decide) (by decide) (by decide) (by decide) (by decide))
    (not_mem_opd x (by decide) (by decide) (by decide) (by decide) (by decide))
    (by simpa using opd_head x [])

theorem rewrite_opd_comma (x : Opd) : rewrite (' ' :: x.text ++ [',']) = ' ' :: x.text ++ [','] := by
  apply rewrite_keep
  · simp [not_mem_opd x (c := ' ') (by decide) (by decide) (by decide) (by decide) (by decide)]
  · simp [not_mem_opd x (c := 'i') (by decide) (by decide) (by decide) (by decide) (by decide)]
  · simp [not_mem_opd x (c := 'd') (by decide) (by decide) (by decide) (by decide) (by decide)]
  · exact opd_head x _

theorem rewrite_opd_paren (x : Opd) : rewrite (' ' :: x.text ++ [')']) = ' ' :: x.text ++ [')'] := by
  apply rewrite_keep
  · simp [not_mem_opd x (c := ' ') (by decide) (by decide) (by decide) (by decide) (by decide)]
  · simp [not_mem_opd x (c := 'i') (by decide) (by decide) (by decide) (by decide) (by decide)]
  · simp [not_mem_opd x (c := 'd') (by decide) (by decide) (by decide) (by decide) (by decide)]
  · exact opd_head x _

theorem rewrite_define (d : Nat) : rewrite (" %".toList ++ num d) = " %".toList ++ num d := by
  have e : " %".toList ++ num d = ' ' :: (Opd.reg d).text := rfl
  rw [e, rewrite_opd]

theorem rewrite_hi {n : Nat} (h : ¬ ['1', '2', '7'] <+: num n) :
    rewrite (' ' :: (num n ++ [')'])) = ' ' :: (num n ++ [')']) := by
  apply rewrite_keep
  · simp [not_mem_num (n := n) (c := ' ') (by decide)]
  · simp [not_mem_num (n := n) (c := 'i') (by decide)]
  · simp [not_mem_num (n := n) (c := 'd') (by decide)]
  · intro e
    apply h
    rcases List.prefix_or_prefix_of_prefix e (List.prefix_append (num n) [')']) with h1 | ⟨u, hu⟩
    · exact h1
    · obtain ⟨v, hv⟩ := e
      rw [← hu, List.append_assoc] at hv
      have h2 := List.append_cancel_left hv
      cases u with
      | nil => rw [List.append_nil] at hu; rw [hu]; exact List.prefix_refl _
      | cons y u =>
        exfalso
        simp only [List.cons_append, List.cons.injEq] at h2
        have : ')' ∈ ['1', '2', '7'] := by rw [← hu, ← h2.1]; simp
        revert this; decide

theorem ws_cons {x : List Char} {c : Char} (h : c = ' ' ∨ c = '\n') : Ws (c :: x) := by
  intro d hd; simp at hd; subst hd; exact h

/-- The words of a text, and what they become. -/
def Becomes (l l' : List (List Char)) : Prop := (∀ x ∈ l, Ws x) ∧ l.map rewrite = l'

theorem Becomes.append {a a' b b' : List (List Char)} (h : Becomes a a') (k : Becomes b b') : Becomes (a ++ b) (a' ++ b') :=
  ⟨fun x hx => (List.mem_append.mp hx).elim (h.1 x) (k.1 x), by rw [List.map_append, h.2, k.2]⟩
theorem Becomes.nil : Becomes [] [] := ⟨by simp, rfl⟩
theorem Becomes.cons {x x' : List Char} {a a' : List (List Char)} (h : rewrite x = x') (w : Ws x) (k : Becomes a a') :
    Becomes (x :: a) (x' :: a') :=
  ⟨fun y hy => (List.mem_cons.mp hy).elim (fun e => e ▸ w) (k.1 y), by rw [List.map_cons, h, k.2]⟩
theorem Becomes.flatten {α : Type} {f g : α → List (List Char)} {l : List α} (h : ∀ x ∈ l, Becomes (f x) (g x)) :
    Becomes (l.map f).flatten (l.map g).flatten := by
  induction l with
  | nil => exact .nil
  | cons x l ih =>
    simp only [List.map_cons, List.flatten_cons]
    exact (h x (by simp)).append (ih (fun y hy => h y (by simp [hy])))
theorem Becomes.text {a a' : List (List Char)} (h : Becomes a a') : rewrite a.flatten = a'.flatten := by
  rw [rewrite_flatten h.1, h.2]

/-- Closes a list of words. -/
macro "words" : tactic => `(tactic| repeat' (first
  | exact Becomes.nil
  | (refine Becomes.cons ?_ (ws_cons (by decide)) ?_)
  | (with_reducible exact rewrite_opd _)
  | (with_reducible exact rewrite_opd_comma _)
  | (with_reducible exact rewrite_opd_paren _)
  | (with_reducible exact rewrite_define _)
  | decide +kernel))

theorem define_becomes (d : Nat) : Becomes (define d) (define d) := by
  unfold define; words

theorem range_becomes {t t' : List Char} (ht : rewrite (" range(".toList ++ t) = " range(".toList ++ t') {hi : Option Nat}
    (h : OkHi hi) : Becomes (range t hi) (range t' hi) := by
  cases hi with
  | none => exact .nil
  | some n =>
    refine .cons ht (ws_cons (by decide)) (.cons (by decide +kernel) (ws_cons (by decide)) (.cons ?_ (ws_cons (by decide)) .nil))
    exact rewrite_hi (h n rfl)

theorem instr_becomes (i : Instr) (h : OkInstr i) : Becomes (i.words 128) (i.words 256) := by
  cases i with
  | load d p => refine (define_becomes d).append ?_; cases p <;> words
  | store x p => cases p <;> (dsimp only [Instr.words]; words)
  | bin op d x y => refine (define_becomes d).append ?_; cases op <;> words
  | mask d x => refine (define_becomes d).append ?_; words
  | zext d x => refine (define_becomes d).append ?_; words
  | trunc d x => refine (define_becomes d).append ?_; words
  | ov op d x y => refine (define_becomes d).append ?_; cases op <;> words
  | extract s d x => refine (define_becomes d).append ?_; cases s <;> words
  | rotate l d x y => refine (define_becomes d).append ?_; cases l <;> words
  | count l d x hi =>
    refine (((define_becomes d).append ?_).append (range_becomes (by decide +kernel) h)).append ?_
    · words
    · cases l <;> words

theorem param_becomes (p : Param × PType) : Becomes (paramWords 128 p) (paramWords 256 p) := by
  obtain ⟨p, t⟩ := p
  cases t <;> cases p <;> (dsimp only [paramWords]; words)

theorem params_becomes : ∀ l : List (Param × PType), Becomes (paramsWords 128 l) (paramsWords 256 l)
  | [] => .nil
  | [p] => param_becomes p
  | p :: q :: l => by
    show Becomes (paramWords 128 p ++ [" ,".toList] ++ paramsWords 128 (q :: l))
      (paramWords 256 p ++ [" ,".toList] ++ paramsWords 256 (q :: l))
    exact ((param_becomes p).append (by words)).append (params_becomes (q :: l))

theorem fn_becomes (f : Fn) (h : OkFn f) : Becomes (f.words 128) (f.words 256) := by
  obtain ⟨h1, h2, h3⟩ := h
  unfold Fn.words
  refine ((((((Becomes.append ?_ ?_).append ?_).append (params_becomes _)).append ?_).append
    (Becomes.flatten fun i hi => instr_becomes i (h2 i hi))).append ?_).append ?_
  · words
  · cases hr : f.ret with
    | void => dsimp only [Ret.typeWords]; words
    | bit x => dsimp only [Ret.typeWords]; words
    | word x hi =>
      rw [hr] at h3
      exact (Becomes.append (by words) (range_becomes (by decide +kernel) h3)).append (by words)
  · refine .cons ?_ (ws_cons (by decide)) (by words)
    apply rewrite_no_one
    simp [h1]
  · words
  · cases hr : f.ret <;> (dsimp only [Ret.words]; words)
  · words

open Template in
theorem okFn_functions {hi hi' : Option Nat} (h : OkHi hi) (h' : OkHi hi') : ∀ f ∈ functions hi hi', OkFn f := by
  have h2 : ∀ n op, '1' ∉ symbol n → OkFn (op2 n op) := fun n op e => ⟨e, by simp [op2, OkInstr], trivial⟩
  have h3 : ∀ n op, '1' ∉ symbol n → OkFn (op3 n op) := fun n op e => ⟨e, by simp [op3, OkInstr], trivial⟩
  have hc : ∀ n op, '1' ∉ symbol n → OkFn (opc n op) := fun n op e => ⟨e, by simp [opc, OkInstr], trivial⟩
  have s2 : ∀ n op, '1' ∉ symbol n → OkFn (shift2 n op) := fun n op e => ⟨e, by simp [shift2, OkInstr], trivial⟩
  have s3 : ∀ n op, '1' ∉ symbol n → OkFn (shift3 n op) := fun n op e => ⟨e, by simp [shift3, OkInstr], trivial⟩
  have r3 : ∀ n l, '1' ∉ symbol n → OkFn (rot3 n l) := fun n l e => ⟨e, by simp [rot3, OkInstr], trivial⟩
  have c1 : ∀ n l, '1' ∉ symbol n → OkFn (countFn n l hi hi') := fun n l e => ⟨e, by simp [countFn, OkInstr, h], h'⟩
  intro f hf
  simp only [functions, List.mem_cons, List.not_mem_nil, or_false] at hf
  rcases hf with rfl | rfl | rfl | rfl | rfl | rfl | rfl | rfl | rfl | rfl | rfl | rfl | rfl | rfl | rfl | rfl | rfl
    | rfl | rfl | rfl | rfl <;>
  first
  | exact h2 _ _ (by decide)
  | exact h3 _ _ (by decide)
  | exact hc _ _ (by decide)
  | exact s2 _ _ (by decide)
  | exact s3 _ _ (by decide)
  | exact r3 _ _ (by decide)
  | exact c1 _ _ (by decide)

/- Meaning. -/

variable {w : Nat}

theorem run_op2 (n : String) (op : BinOp) {m : Param → Option (BitVec w)} (args : Param → Option U32) {x y z : BitVec w}
    (hr : m .r = some x) (ha : m .a = some y) (h : op.eval x y = some z) :
    (Template.op2 n op).run m args = some (some z, .void) := by
  simp [Template.op2, Fn.run, runBody, Instr.step, State.set, State.wide, State.get, hr, ha, h, Ret.eval]

theorem run_op3 (n : String) (op : BinOp) {m : Param → Option (BitVec w)} (args : Param → Option U32) {x y z : BitVec w}
    (hr : m .a = some x) (ha : m .b = some y) (h : op.eval x y = some z) :
    (Template.op3 n op).run m args = some (some z, .void) := by
  simp [Template.op3, Fn.run, runBody, Instr.step, State.set, State.wide, State.get, hr, ha, h, Ret.eval]

theorem run_opc (n : String) (op : OvOp) {m : Param → Option (BitVec w)} (args : Param → Option U32) {x y : BitVec w}
    (hr : m .a = some x) (ha : m .b = some y) :
    (Template.opc n op).run m args = some (some (op.eval x y).1, .bit (op.eval x y).2) := by
  simp [Template.opc, Fn.run, runBody, Instr.step, State.set, State.wide, State.pair, State.bit, State.get, hr, ha,
    Ret.eval]

theorem amount_lt (hw : 0 < w) (b : U32) : Template.amount w b < w := by
  unfold Template.amount
  have : b.toNat &&& (w - 1) ≤ w - 1 := Nat.and_le_right
  omega

theorem toNat_amount (h1 : 32 ≤ w) (h2 : w < 2 ^ 32) (b : U32) :
    ((b &&& BitVec.ofNat 32 (w - 1)).setWidth w).toNat = Template.amount w b := by
  unfold Template.amount
  rw [BitVec.toNat_setWidth, BitVec.toNat_and, BitVec.toNat_ofNat, Nat.mod_eq_of_lt (by omega : w - 1 < 2 ^ 32)]
  apply Nat.mod_eq_of_lt
  have : b.toNat &&& (w - 1) ≤ w - 1 := Nat.and_le_right
  have : w < 2 ^ w := Nat.lt_two_pow_self
  omega

theorem run_shift2 (n : String) (op : BinOp) {m : Param → Option (BitVec w)} {args : Param → Option U32} {x z : BitVec w}
    {k : U32} (hr : m .r = some x) (ha : args .a = some k)
    (h : op.eval x ((k &&& BitVec.ofNat 32 (w - 1)).setWidth w) = some z) :
    (Template.shift2 n op).run m args = some (some z, .void) := by
  simp [Template.shift2, Fn.run, runBody, Instr.step, State.set, State.wide, State.word, State.get, hr, ha, h, Ret.eval,
    -BitVec.setWidth_and]

theorem run_shift3 (n : String) (op : BinOp) {m : Param → Option (BitVec w)} {args : Param → Option U32} {x z : BitVec w}
    {k : U32} (hr : m .a = some x) (ha : args .b = some k)
    (h : op.eval x ((k &&& BitVec.ofNat 32 (w - 1)).setWidth w) = some z) :
    (Template.shift3 n op).run m args = some (some z, .void) := by
  simp [Template.shift3, Fn.run, runBody, Instr.step, State.set, State.wide, State.word, State.get, hr, ha, h, Ret.eval,
    -BitVec.setWidth_and]

theorem eval_shl (h1 : 32 ≤ w) (h2 : w < 2 ^ 32) (x : BitVec w) (b : U32) :
    BinOp.shl.eval x ((b &&& BitVec.ofNat 32 (w - 1)).setWidth w) = some (Template.shl x b) := by
  unfold BinOp.eval Template.shl
  dsimp only
  rw [toNat_amount h1 h2, if_pos (amount_lt (by omega) b)]
theorem eval_lshr (h1 : 32 ≤ w) (h2 : w < 2 ^ 32) (x : BitVec w) (b : U32) :
    BinOp.lshr.eval x ((b &&& BitVec.ofNat 32 (w - 1)).setWidth w) = some (Template.shr x b) := by
  unfold BinOp.eval Template.shr
  dsimp only
  rw [toNat_amount h1 h2, if_pos (amount_lt (by omega) b)]
theorem eval_ashr (h1 : 32 ≤ w) (h2 : w < 2 ^ 32) (x : BitVec w) (b : U32) :
    BinOp.ashr.eval x ((b &&& BitVec.ofNat 32 (w - 1)).setWidth w) = some (Template.sar x b) := by
  unfold BinOp.eval Template.sar
  dsimp only
  rw [toNat_amount h1 h2, if_pos (amount_lt (by omega) b)]

theorem toNat_zext (h : 32 ≤ w) (b : U32) : (b.setWidth w).toNat = b.toNat := by
  rw [BitVec.toNat_setWidth]
  apply Nat.mod_eq_of_lt
  have := b.isLt
  have : 2 ^ 32 ≤ 2 ^ w := Nat.pow_le_pow_right (by decide) h
  omega

theorem run_rot3 (n : String) (left : Bool) {m : Param → Option (BitVec w)} {args : Param → Option U32} {x : BitVec w}
    {k : U32} (h : 32 ≤ w) (hr : m .a = some x) (ha : args .b = some k) :
    (Template.rot3 n left).run m args =
      some (some (if left then x.rotateLeft k.toNat else x.rotateRight k.toNat), .void) := by
  simp [Template.rot3, Fn.run, runBody, Instr.step, State.set, State.wide, State.word, State.get, hr, ha, toNat_zext h,
    Ret.eval]

theorem run_count (n : String) (leading : Bool) (hi hi' : Option Nat) {m : Param → Option (BitVec w)}
    (args : Param → Option U32) {x : BitVec w} (h1 : 32 ≤ w) (h2 : w < 2 ^ 32) (hr : m .a = some x) :
    (Template.countFn n leading hi hi').run m args =
      (let k := if leading then leadingZeros x else trailingZeros x
       if inRange k hi ∧ inRange k hi' then some (m .r, .word (BitVec.ofNat 32 k)) else none) := by
  have hk : (if leading then leadingZeros x else trailingZeros x) ≤ w := by
    split
    · exact leadingZeros_le x
    · exact trailingZeros_le x
  revert hk
  simp only [Template.countFn, Fn.run, runBody, Instr.step, State.set, State.wide, State.word, State.get, hr,
    Option.bind_eq_bind, Option.bind_some, Option.pure_def, if_true]
  generalize (if leading then leadingZeros x else trailingZeros x) = k
  intro hk
  have hw : w < 2 ^ w := Nat.lt_two_pow_self
  have e : (BitVec.ofNat w k).setWidth 32 = BitVec.ofNat 32 k := by
    apply BitVec.eq_of_toNat_eq
    rw [BitVec.toNat_setWidth, BitVec.toNat_ofNat, BitVec.toNat_ofNat, Nat.mod_eq_of_lt (by omega : k < 2 ^ w)]
  have e2 : (BitVec.ofNat 32 k).toNat = k := by
    rw [BitVec.toNat_ofNat, Nat.mod_eq_of_lt (by omega)]
  by_cases h : inRange k hi = true
  · rw [if_pos h]
    by_cases h' : inRange k hi' = true
    · simp [h, h', Ret.eval, State.word, State.get, e, e2]
    · simp [h', Ret.eval, State.word, State.get, e, e2]
  · rw [if_neg h]
    simp [h]

theorem sadd_flag (x y : BitVec 256) : decide ((x + y).toInt ≠ x.toInt + y.toInt) = decide (¬ InI256 (x.toInt + y.toInt)) := by
  apply decide_eq_decide.mpr
  rw [BitVec.toInt_add, Int.bmod_def]
  have := BitVec.toInt_lt (x := x); have := BitVec.le_toInt (x := x)
  have := BitVec.toInt_lt (x := y); have := BitVec.le_toInt (x := y)
  unfold InI256
  omega
theorem ssub_flag (x y : BitVec 256) : decide ((x - y).toInt ≠ x.toInt - y.toInt) = decide (¬ InI256 (x.toInt - y.toInt)) := by
  apply decide_eq_decide.mpr
  rw [BitVec.toInt_sub, Int.bmod_def]
  have := BitVec.toInt_lt (x := x); have := BitVec.le_toInt (x := x)
  have := BitVec.toInt_lt (x := y); have := BitVec.le_toInt (x := y)
  unfold InI256
  omega

end Ir
end Ethnum
