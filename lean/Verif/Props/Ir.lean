import Verif.Proofs.Ir
import Verif.Props.Llvm

/-
C60: the build script of the LLVM back-end turns the 128-bit template into the 256-bit functions.
-/

namespace Ethnum
open Ir Build

/-- C60: each of the three replacements of the script, on any text: the text is cut at the leftmost occurrence of the
pattern, then at the leftmost one in what follows, and so on until there is none; the result is the same pieces with the
replacement between them. -/
theorem C60_replace (s : List Char) (pat rep : String) (h : pat ≠ "") :
    ∃ (pieces : List (List Char)) (last : List Char),
      s = (pieces.map (· ++ pat.toList)).flatten ++ last
      ∧ Build.replace s pat rep = (pieces.map (· ++ rep.toList)).flatten ++ last
      ∧ (∀ p ∈ pieces, ¬ pat.toList <:+: p ++ pat.toList.dropLast) ∧ ¬ pat.toList <:+: last :=
  replace_spec _ _ (by simpa using h) s.length s (Nat.le_refl _)

example : Build.replace "and i32 %1, 127 ; 1127 127".toList " 127" " 255" = "and i32 %1, 255 ; 1127 255".toList
    ∧ Build.replace "aaaaa".toList "aa" "b" = "bba".toList := by decide +kernel

/-- C60: the script turns the text of a module at 128 bits into the text of the same module at 256 bits: for every module
of the fragment, with any number of functions of any length. -/
theorem C60_rewrite (m : List Item) (h : OkModule m) : rewrite (text 128 m) = text 256 m := by
  induction m with
  | nil => exact rewrite_nil
  | cons i m ih =>
    have ih := ih (fun j hj => h j (by simp [hj]))
    have hws : Ws (text 128 m) := by
      apply ws_flatten
      intro x hx
      obtain ⟨j, hj, rfl⟩ := List.mem_map.mp hx
      have hj := h j (by simp [hj])
      cases j with
      | fn f => exact ws_flatten (fn_becomes f hj).1
      | other l => exact ws_flatten (fun x hx => (hj x hx).1)
    have e : ∀ w, text w (i :: m) = i.text w ++ text w m := fun w => rfl
    rw [e, e, rewrite_append hws, ih]
    congr 1
    have hi := h i (by simp)
    cases i with
    | fn f => exact (fn_becomes f hi).text
    | other l =>
      refine (rewrite_flatten (fun x hx => (hi x hx).1)).trans ?_
      exact congrArg List.flatten ((List.map_congr_left (fun x hx => (hi x hx).2)).trans (List.map_id' l))

/-- The functions of the template, and their texts, for the bounds that no attribute or the attribute of a 128-bit count
has. -/
theorem C60_template (hi hi' : Option Nat) (h : OkHi hi) (h' : OkHi hi') :
    rewrite (text 128 ((Template.functions hi hi').map .fn)) = text 256 ((Template.functions hi hi').map .fn) := by
  apply C60_rewrite
  intro i hi
  obtain ⟨f, hf, rfl⟩ := List.mem_map.mp hi
  exact okFn_functions h h' f hf

example : OkHi none ∧ OkHi (some 129) ∧ ¬ OkHi (some 1270) := by decide +kernel
example : OkModule [.other ["\n;".toList, " ModuleID".toList, " =".toList, " 'template'".toList], .fn Template.irShl2,
    .other ["\nattributes".toList, " #0".toList, " \"target-cpu\"=\"x86-64\"".toList]] := by decide +kernel
/-- The text of a function before and after. -/
example : Template.irShl2.text 128 = ("\ndefine void @__ethnum_shl2 ( ptr noalias noundef align 16 dereferenceable(16) %r , i32 noundef %a ) unnamed_addr {\nstart:" ++
      "\n  %0 = load i128, ptr %r, align 16\n  %1 = and i32 %a, 127\n  %2 = zext i32 %1 to i128\n  %3 = shl i128 %0, %2" ++
      "\n  store i128 %3, ptr %r, align 16\n  ret void\n}").toList
    ∧ rewrite (Template.irShl2.text 128) = ("\ndefine void @__ethnum_shl2 ( ptr noalias noundef align 16 dereferenceable(32) %r , i32 noundef %a ) unnamed_addr {\nstart:" ++
      "\n  %0 = load i256, ptr %r, align 16\n  %1 = and i32 %a, 255\n  %2 = zext i32 %1 to i256\n  %3 = shl i256 %0, %2" ++
      "\n  store i256 %3, ptr %r, align 16\n  ret void\n}").toList := by decide +kernel

/-- C60: the generated module defines exactly the functions that are declared to the crate, each once, with the declared
parameters and result. -/
theorem C60_symbols (hi hi' : Option Nat) :
    ((Template.functions hi hi').map (fun f => (String.ofList f.name, f.params.map Prod.snd, f.ret.type))).Perm
      declarations
    ∧ (declarations.map Prod.fst).Nodup := by
  refine ⟨?_, by decide +kernel⟩
  have : ((Template.functions hi hi').map (fun f => (String.ofList f.name, f.params.map Prod.snd, f.ret.type))) =
    ((Template.functions none none).map (fun f => (String.ofList f.name, f.params.map Prod.snd, f.ret.type))) := rfl
  rw [this]
  decide +kernel

/-- C60: what the 256-bit functions do when they are called with pointers to 256-bit objects, on every target. The object
that is only written need not be initialised. No call has undefined behaviour. -/
theorem C60_calls (c : Cfg) (r : Option U256) (x a b : U256) (s t : I256) (n : U32) :
    Llvm.call c Template.irAdd2 (some x) (some a) none none none
      = some (some (U256.ofNat c (x.toNat c + a.toNat c)), .void)
    ∧ Llvm.call c Template.irAdd3 r (some a) (some b) none none
      = some (some (U256.ofNat c (a.toNat c + b.toNat c)), .void)
    ∧ Llvm.call c Template.irUaddc r (some a) (some b) none none
      = some (some (U256.ofNat c (a.toNat c + b.toNat c)), .bit (decide (2 ^ 256 ≤ a.toNat c + b.toNat c)))
    ∧ Llvm.call c Template.irIaddc r (some s.as_u256) (some t.as_u256) none none
      = some (some (I256.ofInt c (s.toInt c + t.toInt c)).as_u256, .bit (decide (¬ InI256 (s.toInt c + t.toInt c))))
    ∧ Llvm.call c Template.irSub2 (some x) (some a) none none none
      = some (some (U256.ofInt c (x.toNat c - a.toNat c)), .void)
    ∧ Llvm.call c Template.irSub3 r (some a) (some b) none none
      = some (some (U256.ofInt c (a.toNat c - b.toNat c)), .void)
    ∧ Llvm.call c Template.irUsubc r (some a) (some b) none none
      = some (some (U256.ofInt c (a.toNat c - b.toNat c)), .bit (decide (a.toNat c < b.toNat c)))
    ∧ Llvm.call c Template.irIsubc r (some s.as_u256) (some t.as_u256) none none
      = some (some (I256.ofInt c (s.toInt c - t.toInt c)).as_u256, .bit (decide (¬ InI256 (s.toInt c - t.toInt c))))
    ∧ Llvm.call c Template.irMul2 (some x) (some a) none none none
      = some (some (U256.ofNat c (x.toNat c * a.toNat c)), .void)
    ∧ Llvm.call c Template.irMul3 r (some a) (some b) none none
      = some (some (U256.ofNat c (a.toNat c * b.toNat c)), .void)
    ∧ Llvm.call c Template.irUmulc r (some a) (some b) none none
      = some (some (U256.ofNat c (a.toNat c * b.toNat c)), .bit (decide (2 ^ 256 ≤ a.toNat c * b.toNat c)))
    ∧ Llvm.call c Template.irShl2 (some x) none none (some n) none
      = some (some (U256.ofNat c (x.toNat c * 2 ^ (n.toNat % 256))), .void)
    ∧ Llvm.call c Template.irShl3 r (some a) none none (some n)
      = some (some (U256.ofNat c (a.toNat c * 2 ^ (n.toNat % 256))), .void)
    ∧ Llvm.call c Template.irSar2 (some s.as_u256) none none (some n) none
      = some (some (I256.ofInt c (s.toInt c / 2 ^ (n.toNat % 256))).as_u256, .void)
    ∧ Llvm.call c Template.irSar3 r (some s.as_u256) none none (some n)
      = some (some (I256.ofInt c (s.toInt c / 2 ^ (n.toNat % 256))).as_u256, .void)
    ∧ Llvm.call c Template.irShr2 (some x) none none (some n) none
      = some (some (U256.ofNat c (x.toNat c / 2 ^ (n.toNat % 256))), .void)
    ∧ Llvm.call c Template.irShr3 r (some a) none none (some n)
      = some (some (U256.ofNat c (a.toNat c / 2 ^ (n.toNat % 256))), .void) := by
  have h1 : 32 ≤ 256 := by decide
  have h2 : 256 < 2 ^ 32 := by decide
  refine ⟨?_, ?_, ?_, ?_, ?_, ?_, ?_, ?_, ?_, ?_, ?_, ?_, ?_, ?_, ?_, ?_, ?_⟩
  · rw [← Llvm.add2_eq, Template.irAdd2, Llvm.call, run_op2 _ _ _ rfl rfl rfl]; rfl
  · rw [← Llvm.add3_eq, Template.irAdd3, Llvm.call, run_op3 _ _ _ rfl rfl rfl]; rfl
  · have e := Llvm.uaddc_eq c a b
    have e1 : U256.ofNat c (a.toNat c + b.toNat c) = (Llvm.uaddc c a b).1 := by rw [e]
    rw [e1, Template.irUaddc, Llvm.call, run_opc _ _ _ rfl rfl, ← Llvm.toNat_load c a, ← Llvm.toNat_load c b]; rfl
  · have e := Llvm.iaddc_eq c s t
    have e1 : I256.ofInt c (s.toInt c + t.toInt c) = (Llvm.iaddc c s t).1 := by rw [e]
    rw [e1, Template.irIaddc, Llvm.call, run_opc _ _ _ rfl rfl, ← Llvm.toInt_iload c s, ← Llvm.toInt_iload c t, ← sadd_flag]
    rfl
  · rw [← Llvm.sub2_eq, Template.irSub2, Llvm.call, run_op2 _ _ _ rfl rfl rfl]; rfl
  · rw [← Llvm.sub3_eq, Template.irSub3, Llvm.call, run_op3 _ _ _ rfl rfl rfl]; rfl
  · have e := Llvm.usubc_eq c a b
    have e1 : U256.ofInt c (a.toNat c - b.toNat c) = (Llvm.usubc c a b).1 := by rw [e]
    rw [e1, Template.irUsubc, Llvm.call, run_opc _ _ _ rfl rfl, ← Llvm.toNat_load c a, ← Llvm.toNat_load c b]; rfl
  · have e := Llvm.isubc_eq c s t
    have e1 : I256.ofInt c (s.toInt c - t.toInt c) = (Llvm.isubc c s t).1 := by rw [e]
    rw [e1, Template.irIsubc, Llvm.call, run_opc _ _ _ rfl rfl, ← Llvm.toInt_iload c s, ← Llvm.toInt_iload c t, ← ssub_flag]
    rfl
  · rw [← Llvm.mul2_eq, Template.irMul2, Llvm.call, run_op2 _ _ _ rfl rfl rfl]; rfl
  · rw [← Llvm.mul3_eq, Template.irMul3, Llvm.call, run_op3 _ _ _ rfl rfl rfl]; rfl
  · have e := Llvm.umulc_eq c a b
    have e1 : U256.ofNat c (a.toNat c * b.toNat c) = (Llvm.umulc c a b).1 := by rw [e]
    rw [e1, Template.irUmulc, Llvm.call, run_opc _ _ _ rfl rfl, ← Llvm.toNat_load c a, ← Llvm.toNat_load c b]; rfl
  · rw [← Llvm.shl3_eq, Template.irShl2, Llvm.call, run_shift2 _ _ rfl rfl (eval_shl h1 h2 _ _)]; rfl
  · rw [← Llvm.shl3_eq, Template.irShl3, Llvm.call, run_shift3 _ _ rfl rfl (eval_shl h1 h2 _ _)]; rfl
  · rw [← Llvm.sar3_eq, Template.irSar2, Llvm.call, run_shift2 _ _ rfl rfl (eval_ashr h1 h2 _ _)]; rfl
  · rw [← Llvm.sar3_eq, Template.irSar3, Llvm.call, run_shift3 _ _ rfl rfl (eval_ashr h1 h2 _ _)]; rfl
  · rw [← Llvm.shr3_eq, Template.irShr2, Llvm.call, run_shift2 _ _ rfl rfl (eval_lshr h1 h2 _ _)]; rfl
  · rw [← Llvm.shr3_eq, Template.irShr3, Llvm.call, run_shift3 _ _ rfl rfl (eval_lshr h1 h2 _ _)]; rfl

example : Llvm.call dll Template.irUaddc none (some U256.MAX) (some (U256.ofNat dll 3)) none none
      = some (some (U256.ofNat dll 2), .bit true)
    ∧ Llvm.call rll Template.irSar2 (some (I256.ofInt rll (-2000)).as_u256) none none (some 260) none
      = some (some (I256.ofInt rll (-125)).as_u256, .void) := by decide +kernel

/-- C60: the rotations move bit `i` to `i + n` modulo 256, and back. -/
theorem C60_rotations (c : Cfg) (r : Option U256) (a : U256) (n : U32) :
    (∃ l, Llvm.call c Template.irRol3 r (some a) none none (some n) = some (some l, .void)
      ∧ ∀ i < 256, (l.toNat c).testBit ((i + n.toNat) % 256) = (a.toNat c).testBit i)
    ∧ (∃ l, Llvm.call c Template.irRor3 r (some a) none none (some n) = some (some l, .void)
      ∧ ∀ i < 256, (l.toNat c).testBit i = (a.toNat c).testBit ((i + n.toNat) % 256)) := by
  refine ⟨⟨Llvm.rol3 c a n, ?_, fun i hi => Llvm.rol3_bits c a n hi⟩, ⟨Llvm.ror3 c a n, ?_, fun i hi => Llvm.ror3_bits c a n hi⟩⟩
  · rw [Template.irRol3, Llvm.call, run_rot3 _ _ (by decide) rfl rfl]; rfl
  · rw [Template.irRor3, Llvm.call, run_rot3 _ _ (by decide) rfl rfl]; rfl

example : Llvm.call dll Template.irRol3 none (some (U256.ofNat dll (2 ^ 255 + 5))) none none (some 257)
      = some (some (U256.ofNat dll 11), .void) := by decide +kernel

theorem call_count_aux (c : Cfg) (n : String) (leading : Bool) (hi hi' : Option Nat) (a : U256) :
    Llvm.call c (Template.countFn n leading hi hi') none (some a) none none none =
      (let k := if leading then leadingZeros (a.bv c) else trailingZeros (a.bv c)
       if inRange k hi ∧ inRange k hi' then some (none, .word (BitVec.ofNat 32 k)) else none) := by
  rw [Llvm.call, run_count n leading hi hi' _ (by decide) (by decide) rfl, Llvm.load_eq]
  dsimp only
  generalize (if leading = true then leadingZeros (a.bv c) else trailingZeros (a.bv c)) = k
  by_cases h : inRange k hi = true ∧ inRange k hi' = true
  · rw [if_pos h, if_pos h]; rfl
  · rw [if_neg h, if_neg h]; rfl

theorem leading_aux (c : Cfg) (a : U256) : IsLeadingRun false (a.toNat c) (leadingZeros (a.bv c)) := by
  have hle := leadingZeros_le (a.bv c)
  refine ⟨hle, fun i hi => ?_, fun hi => ?_⟩
  · have := leadingZeros_clear (a.bv c) hi
    rw [BitVec.getMsbD, decide_eq_true (by omega), Bool.true_and] at this
    rw [U256.testBit_toNat]; exact this
  · have := leadingZeros_set (a.bv c) hi
    rw [BitVec.getMsbD, decide_eq_true (by omega), Bool.true_and] at this
    rw [U256.testBit_toNat]; exact this
theorem trailing_aux (c : Cfg) (a : U256) : IsTrailingRun false (a.toNat c) (trailingZeros (a.bv c)) := by
  refine ⟨trailingZeros_le (a.bv c), fun i hi => ?_, fun hi => ?_⟩
  · rw [U256.testBit_toNat]; exact trailingZeros_clear (a.bv c) hi
  · rw [U256.testBit_toNat]; exact trailingZeros_set (a.bv c) hi

/-- C60: the counts of zeros, if the compiler attaches no `range` attribute to them. Missing: compilers that do, for which
`C60_range_attribute` shows that the claim is false. -/
theorem C60_counts_partial (c : Cfg) (a : U256) :
    (∃ k, Llvm.call c (Template.irCtlz none none) none (some a) none none none = some (none, .word k)
      ∧ IsLeadingRun false (a.toNat c) k.toNat)
    ∧ (∃ k, Llvm.call c (Template.irCttz none none) none (some a) none none none = some (none, .word k)
      ∧ IsTrailingRun false (a.toNat c) k.toNat) := by
  refine ⟨⟨_, by rw [Template.irCtlz, call_count_aux]; rfl, ?_⟩, ⟨_, by rw [Template.irCttz, call_count_aux]; rfl, ?_⟩⟩
  · have := leadingZeros_le (a.bv c)
    rw [if_pos rfl, BitVec.toNat_ofNat, Nat.mod_eq_of_lt (by omega)]
    exact leading_aux c a
  · have := trailingZeros_le (a.bv c)
    rw [if_neg (by decide), BitVec.toNat_ofNat, Nat.mod_eq_of_lt (by omega)]
    exact trailing_aux c a

example : Llvm.call rll (Template.irCtlz none none) none (some U256.ZERO) none none none = some (none, .word 256) := by
  decide +kernel

/-- The full claim fails for a compiler that attaches `range(i128 0, 129)` to the count or `range(i32 0, 129)` to the
result, as an optimising compiler may: it holds of every 128-bit argument. The script leaves the 129, and the 256-bit
functions then have undefined behaviour: `leading_zeros` of every number below `2 ^ 127` and `trailing_zeros` of every
multiple of `2 ^ 129`, zero among them. -/
theorem C60_range_attribute (c : Cfg) (a : U256) (x : BitVec 128) (hi hi' : Option Nat) (h : hi = some 129 ∨ hi' = some 129)
    (h1 : hi = none ∨ hi = some 129) (h2 : hi' = none ∨ hi' = some 129) :
    rewrite (text 128 ((Template.functions hi hi').map .fn)) = text 256 ((Template.functions hi hi').map .fn)
    ∧ (Llvm.call c (Template.irCtlz hi hi') none (some a) none none none = none ↔ a.toNat c < 2 ^ 127)
    ∧ (Llvm.call c (Template.irCttz hi hi') none (some a) none none none = none ↔ 2 ^ 129 ∣ a.toNat c)
    ∧ (Template.irCtlz hi hi').run (fun p => if p = .a then some x else none) (fun _ => none) ≠ none
    ∧ (Template.irCttz hi hi').run (fun p => if p = .a then some x else none) (fun _ => none) ≠ none := by
  have k1 : ∀ n, (inRange n hi = true ∧ inRange n hi' = true) ↔ n < 129 := by
    intro n
    rcases h1 with rfl | rfl <;> rcases h2 with rfl | rfl <;> simp [inRange] at h ⊢
  have ok : ∀ o, o = none ∨ o = some 129 → OkHi o := by
    rintro o (rfl | rfl) <;> decide +kernel
  refine ⟨C60_template hi hi' (ok _ h1) (ok _ h2), ?_, ?_, ?_, ?_⟩
  · rw [Template.irCtlz, call_count_aux]
    simp only [k1, if_true]
    have e : a.toNat c = (a.bv c).toNat := (U256.toNat_bv c a).symm
    rw [e]
    generalize a.bv c = v
    have hlt := toNat_lt_leadingZeros v
    constructor
    · intro hn
      have : 129 ≤ leadingZeros v := by
        by_contra hc
        rw [if_pos (by omega)] at hn; exact absurd hn (by simp)
      exact Nat.lt_of_lt_of_le hlt (Nat.pow_le_pow_right (by decide) (by omega))
    · intro hn
      rw [if_neg]
      intro hk
      by_cases h0 : v.toNat = 0
      · have : v = 0 := BitVec.eq_of_toNat_eq (by simpa using h0)
        subst this
        revert hk; decide +kernel
      · have := le_toNat_leadingZeros h0
        have : 2 ^ 127 ≤ 2 ^ (256 - 1 - leadingZeros v) := Nat.pow_le_pow_right (by decide) (by omega)
        omega
  · rw [Template.irCttz, call_count_aux]
    simp only [k1, Bool.false_eq_true, if_false]
    have e : a.toNat c = (a.bv c).toNat := (U256.toNat_bv c a).symm
    rw [e]
    generalize a.bv c = v
    constructor
    · intro hn
      have h129 : 129 ≤ trailingZeros v := by
        by_contra hc
        rw [if_pos (by omega)] at hn; exact absurd hn (by simp)
      apply Nat.dvd_of_mod_eq_zero
      apply Nat.eq_of_testBit_eq
      intro i
      rw [Nat.testBit_mod_two_pow, BitVec.testBit_toNat, Nat.zero_testBit]
      by_cases hi : i < 129
      · rw [trailingZeros_clear v (by omega)]; simp
      · simp [hi]
    · intro hn
      rw [if_neg]
      intro hk
      have hs := trailingZeros_set v (by omega)
      rw [← BitVec.testBit_toNat] at hs
      obtain ⟨q, hq⟩ := hn
      rw [hq, Nat.testBit_two_pow_mul, decide_eq_false (by omega)] at hs
      simp at hs
  · rw [Template.irCtlz, run_count _ _ _ _ _ (by decide) (by decide) (x := x) rfl]
    dsimp only
    have := leadingZeros_le x
    rw [if_pos ((k1 _).mpr (by rw [if_pos rfl]; omega))]; simp
  · rw [Template.irCttz, run_count _ _ _ _ _ (by decide) (by decide) (x := x) rfl]
    dsimp only
    have := trailingZeros_le x
    rw [if_pos ((k1 _).mpr (by rw [if_neg (by decide)]; omega))]; simp

example : Llvm.call rll (Template.irCtlz (some 129) none) none (some (U256.ofNat rll 1000)) none none none = none
    ∧ Llvm.call dll (Template.irCttz none (some 129)) none (some U256.ZERO) none none none = none
    ∧ Llvm.call dll (Template.irCttz none (some 129)) none (some (U256.ofNat dll 96)) none none none
      = some (none, .word 5) := by decide +kernel

/-- C60: the calls that the model of the back-end (C46) makes are the calls of the generated functions. -/
theorem C60_backend (c : Cfg) (r : Option U256) (x a b : U256) (s t : I256) (n : U32) :
    Llvm.call c Template.irAdd2 (some x) (some a) none none none = some (some (Llvm.add2 c x a), .void)
    ∧ Llvm.call c Template.irAdd3 r (some a) (some b) none none = some (some (Llvm.add3 c a b), .void)
    ∧ Llvm.call c Template.irUaddc r (some a) (some b) none none
      = some (some (Llvm.uaddc c a b).1, .bit (Llvm.uaddc c a b).2)
    ∧ Llvm.call c Template.irIaddc r (some s.as_u256) (some t.as_u256) none none
      = some (some (Llvm.iaddc c s t).1.as_u256, .bit (Llvm.iaddc c s t).2)
    ∧ Llvm.call c Template.irSub2 (some x) (some a) none none none = some (some (Llvm.sub2 c x a), .void)
    ∧ Llvm.call c Template.irSub3 r (some a) (some b) none none = some (some (Llvm.sub3 c a b), .void)
    ∧ Llvm.call c Template.irUsubc r (some a) (some b) none none
      = some (some (Llvm.usubc c a b).1, .bit (Llvm.usubc c a b).2)
    ∧ Llvm.call c Template.irIsubc r (some s.as_u256) (some t.as_u256) none none
      = some (some (Llvm.isubc c s t).1.as_u256, .bit (Llvm.isubc c s t).2)
    ∧ Llvm.call c Template.irMul2 (some x) (some a) none none none = some (some (Llvm.mul2 c x a), .void)
    ∧ Llvm.call c Template.irMul3 r (some a) (some b) none none = some (some (Llvm.mul3 c a b), .void)
    ∧ Llvm.call c Template.irUmulc r (some a) (some b) none none
      = some (some (Llvm.umulc c a b).1, .bit (Llvm.umulc c a b).2)
    ∧ Llvm.call c Template.irShl2 (some x) none none (some n) none = some (some (Llvm.shl2 c x n), .void)
    ∧ Llvm.call c Template.irShl3 r (some a) none none (some n) = some (some (Llvm.shl3 c a n), .void)
    ∧ Llvm.call c Template.irSar2 (some s.as_u256) none none (some n) none
      = some (some (Llvm.sar2 c s n).as_u256, .void)
    ∧ Llvm.call c Template.irSar3 r (some s.as_u256) none none (some n) = some (some (Llvm.sar3 c s n).as_u256, .void)
    ∧ Llvm.call c Template.irShr2 (some x) none none (some n) none = some (some (Llvm.shr2 c x n), .void)
    ∧ Llvm.call c Template.irShr3 r (some a) none none (some n) = some (some (Llvm.shr3 c a n), .void)
    ∧ Llvm.call c Template.irRol3 r (some a) none none (some n) = some (some (Llvm.rol3 c a n), .void)
    ∧ Llvm.call c Template.irRor3 r (some a) none none (some n) = some (some (Llvm.ror3 c a n), .void)
    ∧ Llvm.call c (Template.irCtlz none none) none (some a) none none none = some (none, .word (Llvm.ctlz c a))
    ∧ Llvm.call c (Template.irCttz none none) none (some a) none none none = some (none, .word (Llvm.cttz c a)) := by
  obtain ⟨k1, k2, k3, k4, k5, k6, k7, k8, k9, k10, k11, k12, k13, k14, k15, k16, k17⟩ := C60_calls c r x a b s t n
  rw [Llvm.add2_eq, Llvm.add3_eq, Llvm.uaddc_eq, Llvm.iaddc_eq, Llvm.sub2_eq, Llvm.sub3_eq, Llvm.usubc_eq, Llvm.isubc_eq,
    Llvm.mul2_eq, Llvm.mul3_eq, Llvm.umulc_eq, Llvm.shl2_eq_shl3, Llvm.sar2_eq_sar3, Llvm.shr2_eq_shr3, Llvm.shl3_eq,
    Llvm.shl3_eq, Llvm.sar3_eq, Llvm.shr3_eq, Llvm.shr3_eq]
  refine ⟨k1, k2, k3, k4, k5, k6, k7, k8, k9, k10, k11, k12, k13, k14, k15, k16, k17, ?_, ?_, ?_, ?_⟩
  · rw [Template.irRol3, Llvm.call, run_rot3 _ _ (by decide) rfl rfl]; rfl
  · rw [Template.irRor3, Llvm.call, run_rot3 _ _ (by decide) rfl rfl]; rfl
  · rw [Template.irCtlz, call_count_aux, ← Llvm.load_eq]; rfl
  · rw [Template.irCttz, call_count_aux, ← Llvm.load_eq]; rfl

end Ethnum
