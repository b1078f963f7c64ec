import Verif.Proofs.Lang
import Mathlib.Data.Nat.Sqrt

/-
C59: whole programs. A program with variables of both types, branches, loops, input and output, computed with the crate,
does what the same program does over the integers.
-/

namespace Ethnum

open Lang

/-- Every program, for every number of steps and in every build: the run with the crate has the outcome that the program
has over the integers. The build matters only through its debug assertions, which make an overflow panic. -/
theorem C59_run (c : Cfg) (n : Nat) (p : Prog) (σ : Store) :
    Agrees c (p.exact c.debugAssertions n (σ.numbers c)) (p.run c n σ) := run_agrees n p σ

/-- A state with zeros in every variable and the given lines of input. -/
def Store.start (input : List (List (BitVec 8))) : Store :=
  ⟨fun k _ => match k with | .u => U256.ZERO | .i => I256.ZERO, input, []⟩

/-- `x = 1; for ever x *= 3`, with a checked multiplication that ends the loop by clearing `y`; then a signed computation
that overflows only if the input says so. -/
def sampleProg : Prog :=
  .seq (.seq (.set (k := .u) 0 (.lit 1)) (.set (k := .u) 1 (.lit 1)))
  (.seq (.loop (.cmp (k := .u) .ne (.var 1) (.lit 0))
      (.checked (k := .u) .mul 0 (.var 0) (.lit 3) (.set (k := .u) 1 (.lit 0))))
  (.seq (.print (k := .u) (.var 0))
  (.seq (.read .i 0 (.set (k := .i) 0 (.lit (-5))))
  (.seq (.upd (k := .i) .sub 0 (.asI (.larger (.lit 2) (.shr (.var 0) (.lit (k := .u) 250)))))
    (.print (k := .i) (.neg (.var 0)))))))

example : (sampleProg.run dbg 500 (.start [str "-100"])).map Store.output
      = .ok [(toString (3 ^ 161)).toList, "136".toList]
    ∧ (sampleProg.run rll 500 (.start [])).map Store.output = .ok [(toString (3 ^ 161)).toList, "41".toList]
    ∧ (sampleProg.run dll 500
        (.start [str "-57896044618658097711785492504343953926634992332820282019728792003956564819968"])).map Store.output
          = .error (.panic .subOverflow)
    ∧ (sampleProg.run rel 500
        (.start [str "-57896044618658097711785492504343953926634992332820282019728792003956564819968"])).map Store.output
          = .ok [(toString (3 ^ 161)).toList,
            "-57896044618658097711785492504343953926634992332820282019728792003956564819932".toList]
    ∧ (sampleProg.run dbg 20 (.start [])).map Store.output = .error .diverge := by decide +kernel

/-- The other operations: Euclidean division, clamping, distances, signs, bit counts, overflow flags, and conversions that
may fail. -/
def sampleProg2 : Prog :=
  .seq (.read .i 0 .skip)
  (.seq (.read .i 1 .skip)
  (.seq (.print (k := .i) (.divEuclid (.var 0) (.var 1)))
  (.seq (.print (k := .i) (.remEuclid (.var 0) (.var 1)))
  (.seq (.print (k := .u) (.absDiff (k := .i) (.var 0) (.var 1)))
  (.seq (.print (k := .i) (.between (.var 0) (.signum (.var 0)) (.var 1)))
  (.seq (.print (k := .u) (.bits (k := .i) .leadingOnes (.var 0)))
  (.seq (.toUnsigned 0 (.var 0) (.print (k := .u) (.bits (k := .i) .zeros (.var 0))))
  (.seq (.toSigned 2 (.asU (.var 1)) .skip)
    (.ite (.or (.overflows (k := .i) .mul (.var 0) (.var 0)) (.and (.negative (.var 0)) (.positive (.var 1))))
      (.print (k := .i) (.var 2)) .skip)))))))))

example : (sampleProg2.run dbg 50 (.start [str "-7", str "3"])).map Store.output
      = .ok (["-3", "2", "10", "-1", "253", "2", "3"].map String.toList)
    ∧ (sampleProg2.run rll 50 (.start [str "-7", str "-3"])).map Store.output = .error (.panic .explicit)
    ∧ (sampleProg2.run rel 50 (.start [str "7", str "0"])).map Store.output = .error (.panic .divByZero)
    ∧ (sampleProg2.run rll 50
        (.start [str "57896044618658097711785492504343953926634992332820282019728792003956564819967", str "2"])).map Store.output
      = .ok ([toString ((2 : Nat) ^ 254 - 1), "1", toString ((2 : Nat) ^ 255 - 3), "2", "0", "2"].map String.toList) := by
  decide +kernel

/-- Powers, negation, rotations and byte order, powers of two, checked operations on one value, and text in other bases. -/
def sampleProg3 : Prog :=
  .seq (.readAs .prefixed .i 0 (.set (k := .i) 0 (.lit 1)))
  (.seq (.readAs (.radix 36) .u 0 .skip)
  (.seq (.readAs .hex .i 1 (.printAs (k := .u) .upperHex false (.var 0)))
  (.seq (.printAs (k := .i) .lowerHex true (.permute .swapBytes (.var 0)))
  (.seq (.printAs (k := .u) .binary false (.nextPowerOfTwo (.var 0)))
  (.seq (.print (k := .i) (.wrappingAbs (.wrappingNeg (.wrappingPow (.var 0) 3))))
  (.seq (.print (k := .u) (.permute (.rotateLeft 255) (.saturatingPow (.var 0) 100)))
  (.seq (.print (k := .i) (.permute .reverseBits (.permute (.rotateRight 3) (.var 0))))
  (.seq (.checked1 (k := .i) (.shl 255) 1 (.var 0) .skip)
  (.seq (.checked1 (k := .i) .abs 2 (.var 1) (.print (k := .i) (.var 1)))
  (.seq (.checked (k := .i) .remEuclid 3 (.var 1) (.lit (-1)) (.print (k := .i) (.lit 77)))
    (.ite (.powerOfTwo (.var 0)) .skip (.print (k := .i) (.var 2)))))))))))))

example : (sampleProg3.run dbg 50 (.start [str "-0x3", str "+Az", str "f"])).map Store.output
      = .ok (["18B", "0xfdffffffffffffffffffffffffffffffffffffffffffffffffffffffffffffff", "1000000000", "27",
        toString ((2 : Nat) ^ 256 - 1), "-3",
        toString (-(2 : Int) ^ 255), "77", "0"].map String.toList)
    ∧ (sampleProg3.run rll 50 (.start [])).map Store.output
      = .ok (["0", "0x100000000000000000000000000000000000000000000000000000000000000", "1", "1", "0", "4",
        toString (-(2 : Int) ^ 255), "77", "0"].map String.toList)
    ∧ (Prog.run dll 9 (.readAs (.radix 37) .u 0 .skip) (.start [str "1"])).map Store.output = .error (.panic .explicit)
    ∧ (Prog.run dll 9 (.print (k := .u) (.nextPowerOfTwo (.compl (.lit 0)))) (.start [])).map Store.output
      = .error (.panic .addOverflow)
    ∧ (Prog.run rel 9 (.print (k := .u) (.nextPowerOfTwo (.compl (.lit 0)))) (.start [])).map Store.output
      = .ok ["0".toList] := by decide +kernel

/-- More steps never change an outcome. -/
theorem C59_steps (c : Cfg) (p : Prog) (σ : Store) (n m : Nat) (hm : n ≤ m) :
    (∀ τ, p.run c n σ = .ok τ → ∃ τ', p.run c m σ = .ok τ' ∧ τ'.numbers c = τ.numbers c)
    ∧ (Panics (p.run c n σ) → Panics (p.run c m σ)) := by
  have hn := run_agrees (c := c) n p σ
  have hm' := run_agrees (c := c) m p σ
  have hmono := exact_mono c.debugAssertions n p (σ.numbers c)
  match he : p.exact c.debugAssertions n (σ.numbers c) with
  | .ok τ =>
    rw [he] at hn hmono
    rw [hmono (by simp) m hm] at hm'
    obtain ⟨t, h1, h2⟩ := hn
    obtain ⟨t', h1', h2'⟩ := hm'
    refine ⟨fun τ' h => ?_, fun ⟨q, h⟩ => ?_⟩
    · cases h1.symm.trans h; exact ⟨t', h1', h2'.trans h2.symm⟩
    · cases h1.symm.trans h
  | .error .panic =>
    rw [he] at hn hmono
    rw [hmono (by simp) m hm] at hm'
    obtain ⟨q, hq⟩ := hn
    exact ⟨fun τ' h => (by cases hq.symm.trans h), fun _ => hm'⟩
  | .error .unfinished =>
    rw [he] at hn
    have hn : p.run c n σ = .error .diverge := hn
    exact ⟨fun τ' h => (by cases hn.symm.trans h), fun ⟨q, h⟩ => (by cases hn.symm.trans h)⟩

/-- The crate's run ends exactly if the program over the integers ends, with the same numbers and the same output; it
panics exactly if that panics; it runs for ever exactly if that does. One of the three is the case. -/
theorem C59_outcome (c : Cfg) (p : Prog) (σ : Store) :
    (∀ τ, p.Ends c.debugAssertions (σ.numbers c) τ ↔ ∃ n σ', p.run c n σ = .ok σ' ∧ σ'.numbers c = τ)
    ∧ (p.Fails c.debugAssertions (σ.numbers c) ↔ ∃ n, Panics (p.run c n σ))
    ∧ (p.Endless c.debugAssertions (σ.numbers c) ↔ ∀ n, p.run c n σ = .error .diverge)
    ∧ ((∃ n σ', p.run c n σ = .ok σ') ∨ (∃ n, Panics (p.run c n σ)) ∨ ∀ n, p.run c n σ = .error .diverge) := by
  have key : ∀ n, Agrees c (p.exact c.debugAssertions n (σ.numbers c)) (p.run c n σ) := fun n => run_agrees n p σ
  have h1 : ∀ τ, p.Ends c.debugAssertions (σ.numbers c) τ ↔ ∃ n σ', p.run c n σ = .ok σ' ∧ σ'.numbers c = τ := by
    intro τ
    constructor
    · rintro ⟨n, hn⟩
      have := key n; rw [hn] at this
      exact ⟨n, this⟩
    · rintro ⟨n, σ', h1, h2⟩
      refine ⟨n, ?_⟩
      have := key n
      match he : p.exact c.debugAssertions n (σ.numbers c) with
      | .ok τ' =>
        rw [he] at this; obtain ⟨s, h3, h4⟩ := this
        cases h1.symm.trans h3; rw [← h2, ← h4]
      | .error .panic => rw [he] at this; obtain ⟨q, hq⟩ := this; cases h1.symm.trans hq
      | .error .unfinished => rw [he] at this; have this : p.run c n σ = .error .diverge := this; cases h1.symm.trans this
  have h2 : p.Fails c.debugAssertions (σ.numbers c) ↔ ∃ n, Panics (p.run c n σ) := by
    constructor
    · rintro ⟨n, hn⟩
      have := key n; rw [hn] at this
      exact ⟨n, this⟩
    · rintro ⟨n, q, h1⟩
      refine ⟨n, ?_⟩
      have := key n
      match he : p.exact c.debugAssertions n (σ.numbers c) with
      | .ok τ' => rw [he] at this; obtain ⟨s, h3, h4⟩ := this; cases h1.symm.trans h3
      | .error .panic => rfl
      | .error .unfinished => rw [he] at this; have this : p.run c n σ = .error .diverge := this; cases h1.symm.trans this
  have h3 : p.Endless c.debugAssertions (σ.numbers c) ↔ ∀ n, p.run c n σ = .error .diverge := by
    refine forall_congr' fun n => ?_
    have := key n
    constructor
    · intro h; rw [h] at this; exact this
    · intro h
      match he : p.exact c.debugAssertions n (σ.numbers c) with
      | .ok τ' => rw [he] at this; obtain ⟨s, h3, h4⟩ := this; cases h.symm.trans h3
      | .error .panic => rw [he] at this; obtain ⟨q, hq⟩ := this; cases h.symm.trans hq
      | .error .unfinished => rfl
  refine ⟨h1, h2, h3, ?_⟩
  by_cases hf : ∃ n, Panics (p.run c n σ)
  · exact .inr (.inl hf)
  · by_cases he : ∃ n σ', p.run c n σ = .ok σ'
    · exact .inl he
    · refine .inr (.inr (h3.mp fun n => ?_))
      have := key n
      match hx : p.exact c.debugAssertions n (σ.numbers c) with
      | .ok τ' => rw [hx] at this; obtain ⟨s, h3, h4⟩ := this; exact absurd ⟨n, s, h3⟩ he
      | .error .panic => rw [hx] at this; exact absurd ⟨n, this⟩ hf
      | .error .unfinished => rfl

example (n : Nat) : (Prog.loop (.cmp (k := .u) .eq (.lit 1) (.lit 1)) .skip).run dbg n (.start []) = .error .diverge := by
  refine (C59_outcome dbg _ _).2.2.1.mp (fun n => ?_) n
  induction n with
  | zero => rfl
  | succ n ih =>
    cases n with
    | zero => rfl
    | succ n => exact ih

/-- Two builds with the same debug assertions, whatever their byte order, back-end, pointer width and overflow checks,
started with the same numbers and input: no program tells them apart. -/
theorem C59_builds (c c' : Cfg) (hd : c.debugAssertions = c'.debugAssertions) (p : Prog) (σ σ' : Store)
    (hσ : σ.numbers c = σ'.numbers c') (n : Nat) :
    (∀ τ, p.run c n σ = .ok τ → ∃ τ', p.run c' n σ' = .ok τ' ∧ τ'.numbers c' = τ.numbers c)
    ∧ (Panics (p.run c n σ) ↔ Panics (p.run c' n σ'))
    ∧ (p.run c n σ = .error .diverge ↔ p.run c' n σ' = .error .diverge) := by
  have h1 := run_agrees (c := c) n p σ
  have h2 := run_agrees (c := c') n p σ'
  rw [hd, hσ] at h1
  match he : p.exact c'.debugAssertions n (σ'.numbers c') with
  | .ok τ =>
    rw [he] at h1 h2
    obtain ⟨s, a1, b1⟩ := h1
    obtain ⟨s', a2, b2⟩ := h2
    refine ⟨fun t ht => ?_, ?_, ?_⟩
    · cases a1.symm.trans ht; exact ⟨s', a2, b2.trans b1.symm⟩
    · constructor
      · rintro ⟨q, hq⟩; cases a1.symm.trans hq
      · rintro ⟨q, hq⟩; cases a2.symm.trans hq
    · rw [a1, a2]; simp
  | .error .panic =>
    rw [he] at h1 h2
    obtain ⟨q1, a1⟩ := h1
    obtain ⟨q2, a2⟩ := h2
    refine ⟨fun t ht => (by cases a1.symm.trans ht), ⟨fun _ => ⟨q2, a2⟩, fun _ => ⟨q1, a1⟩⟩, ?_⟩
    rw [a1, a2]; simp
  | .error .unfinished =>
    rw [he] at h1 h2
    have h1 : p.run c n σ = .error .diverge := h1
    have h2 : p.run c' n σ' = .error .diverge := h2
    refine ⟨fun t ht => (by cases h1.symm.trans ht), ⟨fun ⟨q, hq⟩ => (by cases h1.symm.trans hq),
      fun ⟨q, hq⟩ => (by cases h2.symm.trans hq)⟩, ⟨fun _ => h2, fun _ => h1⟩⟩

example : dbg.debugAssertions = dll.debugAssertions
    ∧ (Store.start [str "12"]).numbers dbg = (Store.start [str "12"]).numbers dll := by
  refine ⟨rfl, Numbers.ext ?_ rfl rfl⟩
  funext k x
  cases k
  · simp only [Store.numbers, Store.start, Kind.num, (C01_constants _ 0).2.2.1]
  · simp only [Store.numbers, Store.start, Kind.num, (C01_constants _ 0).2.2.2.2.2.2.1]

/-- What a build with debug assertions computes without panicking, a build without them computes as well. -/
theorem C59_debug_release (c c' : Cfg) (hc : c.debugAssertions = true) (hc' : c'.debugAssertions = false) (p : Prog)
    (σ σ' : Store) (hσ : σ.numbers c = σ'.numbers c') (n : Nat) :
    (∀ τ, p.run c n σ = .ok τ → ∃ τ', p.run c' n σ' = .ok τ' ∧ τ'.numbers c' = τ.numbers c)
    ∧ (p.run c n σ = .error .diverge → p.run c' n σ' = .error .diverge) := by
  have h1 := run_agrees (c := c) n p σ
  have h2 := run_agrees (c := c') n p σ'
  rw [hc, hσ] at h1
  rw [hc'] at h2
  have hr := exact_release n p (σ'.numbers c')
  match he : p.exact true n (σ'.numbers c') with
  | .ok τ =>
    rw [he] at h1 hr
    rw [hr (by simp)] at h2
    obtain ⟨s, a1, b1⟩ := h1
    obtain ⟨s', a2, b2⟩ := h2
    refine ⟨fun t ht => ?_, fun h => (by cases a1.symm.trans h)⟩
    cases a1.symm.trans ht; exact ⟨s', a2, b2.trans b1.symm⟩
  | .error .panic =>
    rw [he] at h1
    obtain ⟨q1, a1⟩ := h1
    exact ⟨fun t ht => (by cases a1.symm.trans ht), fun h => (by cases a1.symm.trans h)⟩
  | .error .unfinished =>
    rw [he] at h1 hr
    rw [hr (by simp)] at h2
    have h1 : p.run c n σ = .error .diverge := h1
    exact ⟨fun t ht => (by cases h1.symm.trans ht), fun _ => h2⟩

example : dbg.debugAssertions = true ∧ rll.debugAssertions = false
    ∧ (sampleProg.run dbg 500 (.start [str "-7"])).map Store.output
      = (sampleProg.run rll 500 (.start [str "-7"])).map Store.output
    ∧ (sampleProg.run dbg 500 (.start [str "-7"])).map Store.output = .ok [(toString (3 ^ 161)).toList, "43".toList] := by
  decide +kernel

/-! ### A program -/

/-- Euclid's algorithm: two lines of input, the greatest common divisor as output. -/
def gcdLoop : Prog :=
  .loop (.cmp (k := .u) .ne (.var 1) (.lit 0))
    (.seq (.set (k := .u) 2 (.op .rem (.var 0) (.var 1)))
      (.seq (.set (k := .u) 0 (.var 1)) (.set (k := .u) 1 (.var 2))))
/-- The same with input and output. -/
def gcdProg : Prog :=
  .seq (.read .u 0 .skip) (.seq (.read .u 1 .skip) (.seq gcdLoop (.print (k := .u) (.var 0))))

private theorem rem_result (debug : Bool) (a b : Nat) (hb : 0 < b) (hb' : b < 2 ^ 256) :
    Assign.result debug .u (a : Int) (b : Int) .rem = some ((a % b : Nat) : Int) := by
  have hm := Nat.mod_lt a hb
  simp only [Assign.result, Assign.exact]
  rw [if_neg (by omega)]
  have e : (a : Int).tmod (b : Int) = ((a % b : Nat) : Int) := by simp [Int.tmod_eq_emod_of_nonneg]
  dsimp only
  rw [e, if_pos]
  simp only [Kind.In, InU256]
  generalize a % b = m at hm e
  clear e; omega

private theorem gcd_loop (debug : Bool) (b : Nat) : ∀ (a : Nat) (σ : Numbers), a < 2 ^ 256 → b < 2 ^ 256 →
    σ.var .u 0 = a → σ.var .u 1 = b →
    ∃ n τ, gcdLoop.exact debug n σ = .ok τ ∧ τ.var .u 0 = (Nat.gcd a b : Nat) ∧ τ.output = σ.output := by
  induction b using Nat.strong_induction_on with
  | _ b ih =>
    intro a σ ha hb h0 h1
    by_cases hz : b = 0
    · subst hz
      refine ⟨1, σ, ?_, by rw [h0, Nat.gcd_zero_right], rfl⟩
      simp [gcdLoop, Prog.exact, Test.value, Ex.value, h1, Rel.holds, Kind.literal, orPanic, bind, Except.bind, pure,
        Except.pure]
    · have hm := Nat.mod_lt a (Nat.pos_of_ne_zero hz)
      let σ' := ((σ.set .u 2 ((a % b : Nat) : Int)).set .u 0 (b : Int)).set .u 1 ((a % b : Nat) : Int)
      obtain ⟨n, τ, e1, e2, e3⟩ := ih (a % b) hm b σ' hb (by omega) (by simp [σ', Numbers.set]) (by simp [σ', Numbers.set])
      refine ⟨n + 4, τ, ?_, by rw [e2, Nat.gcd_comm, ← Nat.gcd_rec, Nat.gcd_comm], e3⟩
      have hmono := exact_mono debug n gcdLoop σ' (by rw [e1]; simp) (n + 3) (by omega)
      rw [e1] at hmono
      have htest : Test.value debug σ.var (.cmp (k := .u) .ne (.var 1) (.lit 0)) = some true := by
        simp [Test.value, Ex.value, h1, Rel.holds, Kind.literal, hz]
      have hbody : Prog.exact debug (n + 3) (.seq (.set (k := .u) 2 (.op .rem (.var 0) (.var 1)))
          (.seq (.set (k := .u) 0 (.var 1)) (.set (k := .u) 1 (.var 2)))) σ = .ok σ' := by
        have hr := rem_result debug a b (Nat.pos_of_ne_zero hz) hb
        simp only [Prog.exact, Ex.value, h0, h1, hr, orPanic, bind, Except.bind, pure, Except.pure, Option.bind]
        simp [σ', Numbers.set, h1]
      unfold gcdLoop at *
      rw [Prog.exact, htest]
      simp only [orPanic, bind, Except.bind, if_true]
      rw [hbody]
      exact hmono

private theorem parse_numeral (l : List (BitVec 8)) (v : Nat) (hv : v < 2 ^ 256) (h : Numeral 10 l v) :
    Kind.u.parse l = some (v : Int) := by
  have hd := (decimal_iff l v).mpr h
  have e : dropPlus l = l := by
    unfold decimal at hd
    cases l with
    | nil => rfl
    | cons x l =>
      have hc : x ≠ 43 := by
        rintro rfl
        rw [if_neg (by simp)] at hd; cases hd
      unfold dropPlus; exact if_neg hc
  rw [parse_u, e, hd, Option.bind_some, if_pos]
  simp only [Kind.In, InU256]; omega

/-- With the crate, in every build, from the decimal text of two numbers to the decimal text of their greatest common
divisor. -/
theorem C59_gcd (c : Cfg) (a b : Nat) (ha : a < 2 ^ 256) (hb : b < 2 ^ 256) (la lb : List (BitVec 8))
    (hla : Numeral 10 la a) (hlb : Numeral 10 lb b) (σ : Store) (hσ : σ.input = [la, lb]) :
    ∃ n σ', gcdProg.run c n σ = .ok σ' ∧ σ'.output = σ.output ++ [(toString (Nat.gcd a b)).toList] := by
  have hp := parse_numeral
  let σ1 := ({ σ.numbers c with input := [lb] } : Numbers).set .u 0 (a : Int)
  let σ2 := ({ σ1 with input := [] } : Numbers).set .u 1 (b : Int)
  obtain ⟨n, τ, e1, e2, e3⟩ := gcd_loop c.debugAssertions b a σ2 ha hb (by simp [σ2, σ1, Numbers.set]) (by simp [σ2, Numbers.set])
  have hgcd : Nat.gcd a b < 2 ^ 256 := by
    rcases Nat.eq_zero_or_pos a with rfl | h
    · simpa using hb
    · exact lt_of_le_of_lt (Nat.gcd_le_left _ h) ha
  have he : gcdProg.exact c.debugAssertions (n + 4) (σ.numbers c)
      = .ok { τ with output := τ.output ++ [(toString (τ.var .u 0)).toList] } := by
    have hmono := exact_mono c.debugAssertions n gcdLoop σ2 (by rw [e1]; simp) (n + 1) (by omega)
    rw [e1] at hmono
    have h1 : Prog.exact c.debugAssertions (n + 3) (.read .u 0 .skip) (σ.numbers c) = .ok σ1 := by
      simp [Prog.exact, Store.numbers, hσ, hp la a ha hla, σ1, pure, Except.pure]
    have h2 : Prog.exact c.debugAssertions (n + 2) (.read .u 1 .skip) σ1 = .ok σ2 := by
      simp [Prog.exact, hp lb b hb hlb, σ1, σ2, pure, Except.pure, Numbers.set]
    have h3 : Prog.exact c.debugAssertions (n + 1) (.print (k := .u) (.var 0)) τ
        = .ok { τ with output := τ.output ++ [(toString (τ.var .u 0)).toList] } := by
      simp [Prog.exact, Ex.value, orPanic, bind, Except.bind, pure, Except.pure]
    unfold gcdProg
    rw [Prog.exact, h1]
    simp only [bind, Except.bind]
    rw [Prog.exact, h2]
    simp only [bind, Except.bind]
    rw [Prog.exact, hmono]
    exact h3
  have := C59_run c (n + 4) gcdProg σ
  rw [he] at this
  obtain ⟨s, h1, h2⟩ := this
  refine ⟨n + 4, s, h1, ?_⟩
  have ho : s.output = τ.output ++ [(toString (τ.var .u 0)).toList] := congrArg Numbers.output h2
  rw [ho, e2, e3]
  rfl

example : (gcdProg.run dbg 100 (.start [str "270", str "192"])).map Store.output = .ok ["6".toList]
    ∧ (gcdProg.run rel 1000 (.start [str "00340282366920938463463374607431768211456",
        str "115792089237316195423570985008687907853269984665640564039457584007913129639935"])).map Store.output
          = .ok ["1".toList]
    ∧ (gcdProg.run rll 100 (.start [str "0", str "65542350158517637872691969508970705427701150314738255642438471845988797065603"])).map
        Store.output = .ok ["65542350158517637872691969508970705427701150314738255642438471845988797065603".toList] := by
  decide +kernel

example : Numeral 10 (str "42") 42 := (decimal_iff _ _).mp (by decide)

/-- Newton's iteration for the square root of the number in variable 0: variable 1 is the guess, variable 2 the next. -/
def sqrtNext : Prog := .set (k := .u) 2 (.op .div (.op .add (.var 1) (.op .div (.var 0) (.var 1))) (.lit 2))
/-- While the next guess is smaller, take it. -/
def sqrtLoop : Prog :=
  .loop (.cmp (k := .u) .lt (.var 2) (.var 1)) (.seq (.set (k := .u) 1 (.var 2)) sqrtNext)
/-- The first guess is a power of two that the number of leading zeros gives. -/
def sqrtProg : Prog :=
  .seq (.read .u 0 .skip)
  (.ite (.cmp (k := .u) .eq (.var 0) (.lit 0)) (.print (k := .u) (.var 0))
    (.seq (.set (k := .u) 1 (.shl (.lit 1) (.op .div (.op .sub (.lit 257) (.bits (k := .u) .leadingZeros (.var 0))) (.lit (k := .u) 2))))
    (.seq sqrtNext (.seq sqrtLoop (.print (k := .u) (.var 1))))))

private theorem div_result (debug : Bool) (a b : Nat) (ha : a < 2 ^ 256) (hb : 0 < b) :
    Assign.result debug .u (a : Int) (b : Int) .div = some ((a / b : Nat) : Int) := by
  have hm := Nat.div_le_self a b
  simp only [Assign.result, Assign.exact]
  rw [if_neg (by omega)]
  have e : (a : Int).tdiv (b : Int) = ((a / b : Nat) : Int) := by simp [Int.tdiv_eq_ediv_of_nonneg]
  dsimp only
  rw [e, if_pos]
  simp only [Kind.In, InU256]
  generalize a / b = m at hm e
  clear e; omega
private theorem add_result (debug : Bool) (a b : Nat) (h : a + b < 2 ^ 256) :
    Assign.result debug .u (a : Int) (b : Int) .add = some ((a + b : Nat) : Int) := by
  simp only [Assign.result, Assign.exact]
  rw [if_pos (by simp only [Kind.In, InU256]; omega)]
  push_cast; rfl
private theorem sub_result (debug : Bool) (a b : Nat) (ha : a < 2 ^ 256) (h : b ≤ a) :
    Assign.result debug .u (a : Int) (b : Int) .sub = some ((a - b : Nat) : Int) := by
  simp only [Assign.result, Assign.exact]
  rw [if_pos (by simp only [Kind.In, InU256]; omega)]
  rw [Int.ofNat_sub h]

private theorem next_bounds (x g : Nat) (hx : x < 2 ^ 256) (hg : 1 ≤ g) (hs : x < (g + 1) * (g + 1)) :
    x < ((g + x / g) / 2 + 1) * ((g + x / g) / 2 + 1) ∧ ((g + x / g) / 2 ≥ g → g * g ≤ x) := by
  have h1 : x < g * (x / g + 1) := Nat.lt_mul_div_succ x (by omega)
  have h3 : x / g * g ≤ x := Nat.div_mul_le_self x g
  generalize x / g = q at *
  have h2 : g + q + 1 ≤ 2 * ((g + q) / 2 + 1) := by omega
  constructor
  · generalize (g + q) / 2 = m at *
    rcases Nat.le_total g (q + 1) with h | h
    · obtain ⟨d, hd⟩ := Nat.exists_eq_add_of_le h
      nlinarith
    · obtain ⟨d, hd⟩ := Nat.exists_eq_add_of_le h
      nlinarith
  · intro h
    have : g ≤ q := by omega
    nlinarith

private theorem next_exact (debug : Bool) (n x g : Nat) (σ : Numbers) (hx : x < 2 ^ 256) (hg : 1 ≤ g) (hg' : g < 2 ^ 200)
    (hs : x < (g + 1) * (g + 1)) (h0 : σ.var .u 0 = x) (h1 : σ.var .u 1 = g) :
    sqrtNext.exact debug (n + 1) σ = .ok (σ.set .u 2 (((g + x / g) / 2 : Nat) : Int)) := by
  have hq : x / g ≤ g + 2 := by
    have h3 : x / g * g ≤ x := Nat.div_mul_le_self x g
    by_contra hc
    nlinarith
  have r1 := div_result debug x g hx hg
  have r2 := add_result debug g (x / g) (by omega)
  have r3 := div_result debug (g + x / g) 2 (by omega) (by omega)
  have hl : Kind.u.literal (2 : BitVec 128) = ((2 : Nat) : Int) := by decide
  simp only [sqrtNext, Prog.exact, Ex.value, h0, h1, bind, Option.bind, r1, r2, hl, r3, orPanic, Except.bind, pure, Except.pure]

private theorem sqrt_loop (debug : Bool) (x : Nat) (hx : x < 2 ^ 256) (hx1 : 1 ≤ x) (g : Nat) : ∀ σ : Numbers, 1 ≤ g → g < 2 ^ 200 →
    x < (g + 1) * (g + 1) → σ.var .u 0 = x → σ.var .u 1 = g → σ.var .u 2 = ((g + x / g) / 2 : Nat) →
    ∃ n τ, sqrtLoop.exact debug n σ = .ok τ ∧ τ.var .u 1 = (Nat.sqrt x : Nat) ∧ τ.output = σ.output := by
  induction g using Nat.strong_induction_on with
  | _ g ih =>
    intro σ hg hg' hs h0 h1 h2
    obtain ⟨b1, b2⟩ := next_bounds x g hx hg hs
    by_cases hl : (g + x / g) / 2 < g
    · have hq : 1 ≤ (g + x / g) / 2 := by
        rcases Nat.lt_or_ge g 2 with h | h
        · have : g = 1 := by omega
          subst this
          rw [Nat.div_one]; omega
        · exact (Nat.le_div_iff_mul_le (by omega)).mpr (le_trans (by omega) (Nat.le_add_right g _))
      generalize hm : (g + x / g) / 2 = m at *
      let σ1 := σ.set .u 1 (m : Int)
      have hn : ∀ k, sqrtNext.exact debug (k + 1) σ1 = .ok (σ1.set .u 2 (((m + x / m) / 2 : Nat) : Int)) :=
        fun k => next_exact debug k x m σ1 hx hq (by omega) b1 (by simp [σ1, Numbers.set, h0]) (by simp [σ1, Numbers.set])
      obtain ⟨n, τ, e1, e2, e3⟩ := ih m hl (σ1.set .u 2 (((m + x / m) / 2 : Nat) : Int)) hq (by omega) b1
        (by simp [σ1, Numbers.set, h0]) (by simp [σ1, Numbers.set]) (by simp [Numbers.set])
      refine ⟨n + 4, τ, ?_, e2, e3⟩
      have hmono := exact_mono debug n sqrtLoop _ (by rw [e1]; simp) (n + 3) (by omega)
      rw [e1] at hmono
      have htest : Test.value debug σ.var (.cmp (k := .u) .lt (.var 2) (.var 1)) = some true := by
        simp [Test.value, Ex.value, h1, h2, Rel.holds]; omega
      have hbody : Prog.exact debug (n + 3) (.seq (.set (k := .u) 1 (.var 2)) sqrtNext) σ
          = .ok (σ1.set .u 2 (((m + x / m) / 2 : Nat) : Int)) := by
        rw [Prog.exact]
        have : Prog.exact debug (n + 2) (.set (k := .u) 1 (.var 2)) σ = .ok σ1 := by
          simp [Prog.exact, Ex.value, h2, σ1, orPanic, bind, Except.bind, pure, Except.pure]
        rw [this]
        exact hn (n + 1)
      unfold sqrtLoop at *
      rw [Prog.exact, htest]
      simp only [orPanic, bind, Except.bind, if_true]
      rw [hbody]
      exact hmono
    · have e : g = Nat.sqrt x := Nat.eq_sqrt.mpr ⟨b2 (by omega), hs⟩
      refine ⟨1, σ, ?_, by rw [h1, ← e], rfl⟩
      have htest : Test.value debug σ.var (.cmp (k := .u) .lt (.var 2) (.var 1)) = some false := by
        simp [Test.value, Ex.value, h1, h2, Rel.holds]; omega
      rw [sqrtLoop, Prog.exact, htest]
      rfl

private theorem first_guess (x : Nat) (hx : x < 2 ^ 256) (hx1 : 1 ≤ x) :
    Bits.leadingZeros.count x ≤ 255 ∧ x < 2 ^ ((257 - Bits.leadingZeros.count x) / 2) * 2 ^ ((257 - Bits.leadingZeros.count x) / 2) := by
  obtain ⟨h1, h2, -⟩ := runLength_spec (fun i => !x.testBit (255 - i)) 256
  have hlt : x < 2 ^ (256 - Bits.leadingZeros.count x) := by
    refine Nat.lt_pow_two_of_testBit _ fun i hi => ?_
    by_cases h : i < 256
    · have := h2 (255 - i) (by simp only [Bits.count] at hi; omega)
      simpa [show 255 - (255 - i) = i by omega] using this
    · exact Nat.testBit_lt_two_pow (lt_of_lt_of_le hx (Nat.pow_le_pow_right (by omega) (by omega)))
  constructor
  · by_contra hc
    have : Bits.leadingZeros.count x = 256 := by simp only [Bits.count] at *; omega
    rw [this] at hlt
    simp at hlt
    omega
  · rw [← Nat.pow_add]
    refine lt_of_lt_of_le hlt (Nat.pow_le_pow_right (by omega) (by omega))

/-- With the crate, in every build, from the decimal text of a number to the decimal text of its integer square root, the
largest number whose square is no larger. -/
theorem C59_sqrt (c : Cfg) (x : Nat) (hx : x < 2 ^ 256) (l : List (BitVec 8)) (hl : Numeral 10 l x) (σ : Store)
    (hσ : σ.input = [l]) :
    ∃ n σ' r, sqrtProg.run c n σ = .ok σ' ∧ σ'.output = σ.output ++ [(toString r).toList]
      ∧ r * r ≤ x ∧ x < (r + 1) * (r + 1) := by
  let σ1 := ({ σ.numbers c with input := [] } : Numbers).set .u 0 (x : Int)
  have hread : ∀ n, Prog.exact c.debugAssertions (n + 1) (.read .u 0 .skip) (σ.numbers c) = .ok σ1 := by
    intro n
    simp [Prog.exact, Store.numbers, hσ, parse_numeral l x hx hl, σ1, pure, Except.pure]
  have key : ∃ n τ, sqrtProg.exact c.debugAssertions n (σ.numbers c) = .ok τ
      ∧ τ.output = σ.output ++ [(toString (Nat.sqrt x)).toList] := by
    by_cases h0 : x = 0
    · subst h0
      refine ⟨3, { σ1 with output := σ1.output ++ [(toString (σ1.var .u 0)).toList] }, ?_, ?_⟩
      · rw [sqrtProg, Prog.exact, hread]
        simp [Prog.exact, Test.value, Ex.value, Rel.holds, Kind.literal, σ1, Numbers.set, orPanic, bind, Except.bind, pure, Except.pure]
      · simp [σ1, Numbers.set, Store.numbers]; rfl
    · obtain ⟨g1, g2⟩ := first_guess x hx (by omega)
      generalize hz : Bits.leadingZeros.count x = z at *
      generalize hg : 2 ^ ((257 - z) / 2) = g at *
      have hg1 : 1 ≤ g := by rw [← hg]; exact Nat.one_le_two_pow
      have hg200 : g < 2 ^ 200 := by rw [← hg]; exact Nat.pow_lt_pow_right (by omega) (by omega)
      let σ2 := σ1.set .u 1 (g : Int)
      let σ3 := σ2.set .u 2 (((g + x / g) / 2 : Nat) : Int)
      have hnext : ∀ n, sqrtNext.exact c.debugAssertions (n + 1) σ2 = .ok σ3 := fun n =>
        next_exact _ n x g σ2 hx hg1 hg200 (by nlinarith) (by simp [σ2, σ1, Numbers.set]) (by simp [σ2, Numbers.set])
      obtain ⟨n, τ, e1, e2, e3⟩ := sqrt_loop c.debugAssertions x hx (by omega) g σ3 hg1 hg200 (by nlinarith)
        (by simp [σ3, σ2, σ1, Numbers.set]) (by simp [σ3, σ2, Numbers.set]) (by simp [σ3, Numbers.set])
      have hmono := exact_mono c.debugAssertions n sqrtLoop σ3 (by rw [e1]; simp) (n + 1) (by omega)
      rw [e1] at hmono
      refine ⟨n + 6, { τ with output := τ.output ++ [(toString (τ.var .u 1)).toList] }, ?_, ?_⟩
      · have htest : Test.value c.debugAssertions σ1.var (.cmp (k := .u) .eq (.var 0) (.lit 0)) = some false := by
          simp [Test.value, Ex.value, Rel.holds, Kind.literal, σ1, Numbers.set, h0]
        have hset : Prog.exact c.debugAssertions (n + 3) (.set (k := .u) 1 (.shl (.lit 1)
            (.op .div (.op .sub (.lit 257) (.bits (k := .u) .leadingZeros (.var 0))) (.lit (k := .u) 2)))) σ1 = .ok σ2 := by
          have l1 : Kind.u.literal (1 : BitVec 128) = 1 := by decide
          have l2 : Kind.u.literal (2 : BitVec 128) = ((2 : Nat) : Int) := by decide
          have l257 : Kind.u.literal (257 : BitVec 128) = ((257 : Nat) : Int) := by decide
          have hv : σ1.var .u 0 = x := by simp [σ1, Numbers.set]
          have hx' : ((x : Int) % 2 ^ 256).toNat = x := by omega
          have r1 := sub_result c.debugAssertions 257 z (by omega) (by omega)
          have r2 := div_result c.debugAssertions (257 - z) 2 (by omega) (by omega)
          have hm : ((((257 - z) / 2 : Nat) : Int) % 256).toNat = (257 - z) / 2 := by omega
          have hw : Kind.u.wrap (1 * 2 ^ ((257 - z) / 2)) = (g : Int) := by
            have : (2 : Int) ^ ((257 - z) / 2) = (g : Int) := by rw [← hg]; push_cast; rfl
            rw [this, one_mul]
            simp only [Kind.wrap]
            omega
          simp only [Prog.exact, Ex.value, bind, Option.bind, pure, l1, l2, l257, hv, hx', hz, r1, r2, hm, hw, orPanic,
            Except.bind, Except.pure]
          rfl
        rw [sqrtProg, Prog.exact, hread]
        simp only [bind, Except.bind]
        rw [Prog.exact, htest]
        simp only [orPanic, bind, Except.bind]
        rw [if_neg (by decide), Prog.exact, hset]
        simp only [bind, Except.bind]
        rw [Prog.exact, hnext]
        simp only [bind, Except.bind]
        rw [Prog.exact, hmono]
        simp [Prog.exact, Ex.value, orPanic, bind, Except.bind, pure, Except.pure]
      · show τ.output ++ _ = _
        rw [e3, e2]
        rfl
  obtain ⟨n, τ, e1, e2⟩ := key
  have := C59_run c n sqrtProg σ
  rw [e1] at this
  obtain ⟨s, h1, h2⟩ := this
  exact ⟨n, s, Nat.sqrt x, h1, (congrArg Numbers.output h2).trans e2, Nat.sqrt_le x, Nat.lt_succ_sqrt x⟩

example : (sqrtProg.run dbg 50 (.start [str "1000000"])).map Store.output = .ok ["1000".toList]
    ∧ (sqrtProg.run rll 50 (.start [str "0"])).map Store.output = .ok ["0".toList]
    ∧ (sqrtProg.run dll 50 (.start [str "24"])).map Store.output = .ok ["4".toList]
    ∧ (sqrtProg.run rel 100
        (.start [str "115792089237316195423570985008687907853269984665640564039457584007913129639935"])).map Store.output
          = .ok ["340282366920938463463374607431768211455".toList] := by decide +kernel

/-- Modular exponentiation by squaring: variables 0 to 3 are the base, the exponent, the modulus and the result. -/
def modpowLoop : Prog :=
  .loop (.cmp (k := .u) .ne (.var 1) (.lit 0))
    (.seq (.ite (.cmp (k := .u) .eq (.op .rem (.var 1) (.lit 2)) (.lit 1))
        (.set (k := .u) 3 (.op .rem (.op .mul (.var 3) (.var 0)) (.var 2))) .skip)
    (.seq (.set (k := .u) 0 (.op .rem (.op .mul (.var 0) (.var 0)) (.var 2)))
      (.set (k := .u) 1 (.shr (.var 1) (.lit (k := .u) 1)))))
/-- The same with input in any of the four bases and output in hexadecimal. -/
def modpowProg : Prog :=
  .seq (.readAs .prefixed .u 0 .skip)
  (.seq (.readAs .prefixed .u 1 .skip)
  (.seq (.readAs .prefixed .u 2 .skip)
  (.seq (.upd (k := .u) .rem 0 (.var 2))
  (.seq (.set (k := .u) 3 (.op .rem (.lit 1) (.var 2)))
  (.seq modpowLoop (.printAs (k := .u) .lowerHex true (.var 3)))))))

private theorem mul_result (debug : Bool) (a b : Nat) (h : a * b < 2 ^ 256) :
    Assign.result debug .u (a : Int) (b : Int) .mul = some ((a * b : Nat) : Int) := by
  simp only [Assign.result, Assign.exact]
  rw [← Int.natCast_mul, if_pos (by simp only [Kind.In, InU256]; omega)]

private theorem modpow_loop (debug : Bool) (m : Nat) (hm : 0 < m) (hm' : m ≤ 2 ^ 128) (e : Nat) : ∀ (b r : Nat) (σ : Numbers),
    e < 2 ^ 256 → b < m → r < m → σ.var .u 0 = b → σ.var .u 1 = e → σ.var .u 2 = m → σ.var .u 3 = r →
    ∃ n τ, modpowLoop.exact debug n σ = .ok τ ∧ τ.var .u 3 = (r * b ^ e % m : Nat) ∧ τ.output = σ.output := by
  induction e using Nat.strong_induction_on with
  | _ e ih =>
    intro b r σ he hb hr h0 h1 h2 h3
    by_cases hz : e = 0
    · subst hz
      refine ⟨1, σ, ?_, by rw [h3, Nat.pow_zero, Nat.mul_one, Nat.mod_eq_of_lt hr], rfl⟩
      simp [modpowLoop, Prog.exact, Test.value, Ex.value, h1, Rel.holds, Kind.literal, orPanic, bind, Except.bind, pure,
        Except.pure]
    · have l1 : Kind.u.literal (1 : BitVec 128) = ((1 : Nat) : Int) := by decide
      have l2 : Kind.u.literal (2 : BitVec 128) = ((2 : Nat) : Int) := by decide
      have p1 : r * b < 2 ^ 256 := lt_of_lt_of_le (Nat.mul_lt_mul'' hr hb) (le_trans (Nat.mul_le_mul hm' hm') (by norm_num))
      have p2 : b * b < 2 ^ 256 := lt_of_lt_of_le (Nat.mul_lt_mul'' hb hb) (le_trans (Nat.mul_le_mul hm' hm') (by norm_num))
      have q0 := rem_result debug e 2 (by omega) (by omega)
      have q1 := mul_result debug r b p1
      have q2 := rem_result debug (r * b) m hm (by omega)
      have q3 := mul_result debug b b p2
      have q4 := rem_result debug (b * b) m hm (by omega)
      let r' := if e % 2 = 1 then r * b % m else r
      have hr' : r' < m := by simp only [r']; split; exacts [Nat.mod_lt _ hm, hr]
      let σ1 := if e % 2 = 1 then σ.set .u 3 ((r * b % m : Nat) : Int) else σ
      let σ' := (σ1.set .u 0 ((b * b % m : Nat) : Int)).set .u 1 ((e / 2 : Nat) : Int)
      have v0 : σ1.var .u 0 = b := by simp only [σ1]; split <;> simp [Numbers.set, h0]
      have v1 : σ1.var .u 1 = e := by simp only [σ1]; split <;> simp [Numbers.set, h1]
      have v2 : σ1.var .u 2 = m := by simp only [σ1]; split <;> simp [Numbers.set, h2]
      have v3 : σ1.var .u 3 = r' := by simp only [σ1, r']; split <;> simp [Numbers.set, h3]
      have vo : σ1.output = σ.output := by simp only [σ1]; split <;> rfl
      obtain ⟨n, τ, e1, e2, e3⟩ := ih (e / 2) (by omega) (b * b % m) r' σ' (by omega) (Nat.mod_lt _ hm) hr'
        (by simp [σ', Numbers.set]) (by simp [σ', Numbers.set]) (by simp [σ', Numbers.set, v2]) (by simp [σ', Numbers.set, v3])
      refine ⟨n + 5, τ, ?_, ?_, by rw [e3]; exact vo⟩
      · have hmono := exact_mono debug n modpowLoop σ' (by rw [e1]; simp) (n + 4) (by omega)
        rw [e1] at hmono
        have htest : Test.value debug σ.var (.cmp (k := .u) .ne (.var 1) (.lit 0)) = some true := by
          simp [Test.value, Ex.value, h1, Rel.holds, Kind.literal, hz]
        have hodd : Test.value debug σ.var (.cmp (k := .u) .eq (.op .rem (.var 1) (.lit 2)) (.lit 1))
            = some (decide (e % 2 = 1)) := by
          simp only [Test.value, Ex.value, h1, bind, Option.bind, l1, l2, q0, Rel.holds, pure, Nat.cast_inj]
        have hite : Prog.exact debug (n + 3) (.ite (.cmp (k := .u) .eq (.op .rem (.var 1) (.lit 2)) (.lit 1))
            (.set (k := .u) 3 (.op .rem (.op .mul (.var 3) (.var 0)) (.var 2))) .skip) σ = .ok σ1 := by
          rw [Prog.exact, hodd]
          simp only [orPanic, bind, Except.bind, σ1]
          by_cases ho : e % 2 = 1
          · rw [decide_eq_true ho, if_pos rfl, if_pos ho]
            simp only [Prog.exact, Ex.value, h0, h2, h3, bind, Option.bind, q1, q2, orPanic, Except.bind, pure, Except.pure]
          · rw [decide_eq_false ho, if_neg (by decide), if_neg ho]
            rfl
        have hsq : ∀ k, Prog.exact debug (k + 1) (.set (k := .u) 0 (.op .rem (.op .mul (.var 0) (.var 0)) (.var 2))) σ1
            = .ok (σ1.set .u 0 ((b * b % m : Nat) : Int)) := by
          intro k
          simp only [Prog.exact, Ex.value, v0, v2, bind, Option.bind, q3, q4, orPanic, Except.bind, pure, Except.pure]
        have hsh : ∀ k, Prog.exact debug (k + 1) (.set (k := .u) 1 (.shr (.var 1) (.lit (k := .u) 1)))
            (σ1.set .u 0 ((b * b % m : Nat) : Int)) = .ok σ' := by
          intro k
          have hv : (σ1.set .u 0 ((b * b % m : Nat) : Int)).var .u 1 = e := by simp [Numbers.set, v1]
          simp only [Prog.exact, Ex.value, hv, bind, Option.bind, l1, orPanic, Except.bind, pure, Except.pure, σ']
          congr 2
        unfold modpowLoop at *
        rw [Prog.exact, htest]
        simp only [orPanic, bind, Except.bind, if_true]
        rw [Prog.exact, hite]
        simp only [bind, Except.bind]
        rw [Prog.exact, hsq]
        simp only [bind, Except.bind]
        rw [hsh]
        exact hmono
      · rw [e2]
        refine congrArg Nat.cast ?_
        have hpow : (b * b % m) ^ (e / 2) % m = b ^ (2 * (e / 2)) % m := by
          rw [← Nat.pow_mod, Nat.pow_mul, Nat.pow_two]
        rw [Nat.mul_mod, hpow, ← Nat.mul_mod]
        simp only [r']
        by_cases ho : e % 2 = 1
        · rw [if_pos ho, Nat.mod_mul_mod]
          have hs : b ^ e = b * b ^ (2 * (e / 2)) := by
            rw [← Nat.pow_succ']; exact congrArg (b ^ ·) (by omega)
          rw [hs, Nat.mul_assoc]
        · rw [if_neg ho, show 2 * (e / 2) = e by omega]

private theorem prefixed_numeral (l : List (BitVec 8)) (v : Nat) (hv : v < 2 ^ 256) (h : PrefixedNumeral l v) :
    TextIn.prefixed.parse .u l = some (v : Int) := by
  have e : dropPlus l = l := by
    cases l with
    | nil => rfl
    | cons x l =>
      have hc : x ≠ 43 := by
        rintro rfl
        rcases h with ⟨t, h, -⟩ | ⟨t, h, -⟩ | ⟨t, h, -⟩ | h
        · simp at h
        · simp at h
        · simp at h
        · have := (decimal_iff _ _).mpr h
          unfold decimal at this
          rw [if_neg (by simp)] at this; cases this
      unfold dropPlus; exact if_neg hc
  unfold TextIn.parse
  rw [(denoted_u _ _ _).mpr ((prefixed_iff _ _).mpr (by rw [e]; exact h)), Option.bind_some, if_pos]
  simp only [Kind.In, InU256]; omega

/-- With the crate, in every build, from the text of a base, an exponent and a modulus of at most `2^128`, each in any of
the four bases, to the hexadecimal text of the modular power. -/
theorem C59_modpow (c : Cfg) (b e m : Nat) (hb : b < 2 ^ 256) (he : e < 2 ^ 256) (hm : 0 < m) (hm' : m ≤ 2 ^ 128)
    (lb le lm : List (BitVec 8)) (hlb : PrefixedNumeral lb b) (hle : PrefixedNumeral le e) (hlm : PrefixedNumeral lm m)
    (σ : Store) (hσ : σ.input = [lb, le, lm]) :
    ∃ n σ', modpowProg.run c n σ = .ok σ' ∧ σ'.output = σ.output ++ [['0', 'x'] ++ Nat.toDigits 16 (b ^ e % m)] := by
  let d := c.debugAssertions
  let σ1 := ({ σ.numbers c with input := [le, lm] } : Numbers).set .u 0 (b : Int)
  let σ2 := ({ σ1 with input := [lm] } : Numbers).set .u 1 (e : Int)
  let σ3 := ({ σ2 with input := [] } : Numbers).set .u 2 (m : Int)
  let σ4 := σ3.set .u 0 ((b % m : Nat) : Int)
  let σ5 := σ4.set .u 3 ((1 % m : Nat) : Int)
  obtain ⟨n, τ, e1, e2, e3⟩ := modpow_loop d m hm hm' e (b % m) (1 % m) σ5 he (Nat.mod_lt _ hm) (Nat.mod_lt _ hm)
    (by simp [σ5, σ4, Numbers.set]) (by simp [σ5, σ4, σ3, σ2, Numbers.set]) (by simp [σ5, σ4, σ3, Numbers.set])
    (by simp [σ5, Numbers.set])
  have hv : 1 % m * (b % m) ^ e % m = b ^ e % m := by
    rw [Nat.mod_mul_mod, Nat.one_mul, ← Nat.pow_mod]
  rw [hv] at e2
  have hlt : b ^ e % m < 2 ^ 256 := lt_of_lt_of_le (Nat.mod_lt _ hm) (le_trans hm' (by norm_num))
  have hread : ∀ (k x : Nat) (l : List (BitVec 8)) (ls : List (List (BitVec 8))) (v : Nat) (τ : Numbers), v < 2 ^ 256 →
      PrefixedNumeral l v → τ.input = l :: ls →
      Prog.exact d (k + 1) (.readAs .prefixed .u x .skip) τ = .ok (({ τ with input := ls } : Numbers).set .u x (v : Int)) := by
    intro k x l ls v τ hv hl hi
    simp [Prog.exact, hi, TextIn.bad, prefixed_numeral l v hv hl, pure, Except.pure]
  have h1 : Prog.exact d (n + 6) (.readAs .prefixed .u 0 .skip) (σ.numbers c) = .ok σ1 :=
    hread _ 0 lb [le, lm] b _ hb hlb hσ
  have h2 : Prog.exact d (n + 5) (.readAs .prefixed .u 1 .skip) σ1 = .ok σ2 := hread _ 1 le [lm] e σ1 he hle rfl
  have h3 : Prog.exact d (n + 4) (.readAs .prefixed .u 2 .skip) σ2 = .ok σ3 := hread _ 2 lm [] m σ2 (by omega) hlm rfl
  have h4 : Prog.exact d (n + 3) (.upd (k := .u) .rem 0 (.var 2)) σ3 = .ok σ4 := by
    have v0 : σ3.var .u 0 = b := by simp [σ3, σ2, σ1, Numbers.set]
    have v2 : σ3.var .u 2 = m := by simp [σ3, Numbers.set]
    simp only [Prog.exact, Ex.value, v0, v2, rem_result d b m hm (by omega), orPanic, bind, Except.bind, pure, Except.pure, σ4]
  have h5 : Prog.exact d (n + 2) (.set (k := .u) 3 (.op .rem (.lit 1) (.var 2))) σ4 = .ok σ5 := by
    have l1 : Kind.u.literal (1 : BitVec 128) = ((1 : Nat) : Int) := by decide
    have v2 : σ4.var .u 2 = m := by simp [σ4, σ3, Numbers.set]
    simp only [Prog.exact, Ex.value, v2, l1, bind, Option.bind, rem_result d 1 m hm (by omega), orPanic, Except.bind, pure,
      Except.pure, σ5]
  have hmono := exact_mono d n modpowLoop σ5 (by rw [e1]; simp) (n + 1) (by omega)
  rw [e1] at hmono
  have h6 : Prog.exact d (n + 1) (.printAs (k := .u) .lowerHex true (.var 3)) τ
      = .ok { τ with output := τ.output ++ [['0', 'x'] ++ Nat.toDigits 16 (b ^ e % m)] } := by
    have : (((b ^ e % m : Nat) : Int) % 2 ^ 256).toNat = b ^ e % m := by
      generalize b ^ e % m = r at hlt; omega
    simp only [Prog.exact, Ex.value, e2, orPanic, bind, Except.bind, pure, Except.pure, textOut, this, Radix.numeral, Radix.pfx,
      if_true]
  have hall : modpowProg.exact d (n + 7) (σ.numbers c)
      = .ok { τ with output := τ.output ++ [['0', 'x'] ++ Nat.toDigits 16 (b ^ e % m)] } := by
    unfold modpowProg
    rw [Prog.exact, h1]
    simp only [bind, Except.bind]
    rw [Prog.exact, h2]
    simp only [bind, Except.bind]
    rw [Prog.exact, h3]
    simp only [bind, Except.bind]
    rw [Prog.exact, h4]
    simp only [bind, Except.bind]
    rw [Prog.exact, h5]
    simp only [bind, Except.bind]
    rw [Prog.exact, hmono]
    exact h6
  have := C59_run c (n + 7) modpowProg σ
  rw [show c.debugAssertions = d from rfl, hall] at this
  obtain ⟨s, g1, g2⟩ := this
  refine ⟨n + 7, s, g1, ?_⟩
  have ho : s.output = τ.output ++ [['0', 'x'] ++ Nat.toDigits 16 (b ^ e % m)] := congrArg Numbers.output g2
  rw [ho, e3]
  rfl

example : (modpowProg.run dbg 100 (.start [str "3", str "0b110", str "0x3e8"])).map Store.output = .ok ["0x2d9".toList]
    ∧ (modpowProg.run rll 300 (.start [str "2", str "340282366920938463463374607431768211296",
        str "340282366920938463463374607431768211297"])).map Store.output = .ok ["0x1".toList]
    ∧ (modpowProg.run dll 100 (.start [str "0o17", str "0", str "1"])).map Store.output = .ok ["0x0".toList] := by decide +kernel

example : PrefixedNumeral (str "0b110") 6 ∧ PrefixedNumeral (str "0x3e8") 1000 ∧ PrefixedNumeral (str "3") 3 :=
  ⟨(prefixed_iff _ _).mp (by decide), (prefixed_iff _ _).mp (by decide), (prefixed_iff _ _).mp (by decide)⟩

end Ethnum
