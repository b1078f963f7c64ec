import Verif.SpecWork
import Verif.Proofs.Pow
import Verif.Proofs.Fmt
import Verif.Proofs.Knuth

/-
Lemmas for C68: more fuel does not change the result of a loop that ends; how much fuel each loop needs.
-/

namespace Ethnum.Work

/-- `b` is the result `a` of a run with less fuel, unless that run did not end. -/
def Mono {α : Type} (a b : Res α) : Prop := a ≠ .error .diverge → b = a

theorem Mono.refl {α : Type} (a : Res α) : Mono a a := fun _ => rfl

theorem Mono.bind {α β : Type} (m : Res α) {f g : α → Res β} (h : ∀ x, Mono (f x) (g x)) :
    Mono (m >>= f) (m >>= g) := by
  cases m with
  | error e => exact Mono.refl _
  | ok x => exact h x

theorem Mono.ite {α : Type} {p : Prop} [Decidable p] {a b a' b' : Res α} (h : Mono a b) (h' : Mono a' b') :
    Mono (if p then a else a') (if p then b else b') := by
  split <;> assumption

theorem Mono.zero {α : Type} (b : Res α) : Mono (.error .diverge) b := fun h => absurd rfl h

theorem endsWithin_of {α : Type} {loop : Nat → Res α} {k : Nat} (hm : ∀ n, Mono (loop n) (loop (n + 1)))
    (h : loop k ≠ .error .diverge) : EndsWithin loop k := by
  refine ⟨loop k, h, fun k' hk => ?_⟩
  induction hk with
  | refl => rfl
  | step _ ih => rw [hm _ (by rw [ih]; exact h), ih]

theorem bitLength_lt (n : Nat) : n < 2 ^ bitLength n := by
  unfold bitLength
  split
  · omega
  · exact Nat.lt_log2_self

theorem bitLength_ge {n k : Nat} (h : k < bitLength n) : 2 ^ k ≤ n := by
  unfold bitLength at h
  split at h
  · omega
  · next h0 => exact Nat.le_trans (Nat.pow_le_pow_right (by omega) (by omega)) (Nat.log2_self_le h0)

theorem bitLength_le {n k : Nat} (h : n < 2 ^ k) : bitLength n ≤ k := by
  by_contra hc
  have := bitLength_ge (n := n) (k := k) (by omega)
  omega

end Ethnum.Work

namespace Ethnum
open Work

namespace U256
variable (c : Cfg)

theorem checked_pow_loop_mono (n : Nat) (e : U32) (b a : U256) :
    Mono (checked_pow_loop c n e b a) (checked_pow_loop c (n + 1) e b a) := by
  induction n generalizing e b a with
  | zero => exact Mono.zero _
  | succ n ih =>
    rw [checked_pow_loop, checked_pow_loop]
    refine Mono.ite (Mono.ite (Mono.bind _ fun a' => ?_) (Mono.bind _ fun a' => ?_)) (Mono.refl _) <;>
    · rcases a' with _ | a'
      · exact Mono.refl _
      · refine Mono.bind _ fun b' => ?_
        rcases b' with _ | b'
        · exact Mono.refl _
        · exact ih _ _ _

theorem wrapping_pow_loop_mono (n : Nat) (e : U32) (b a : U256) :
    Mono (wrapping_pow_loop c n e b a) (wrapping_pow_loop c (n + 1) e b a) := by
  induction n generalizing e b a with
  | zero => exact Mono.zero _
  | succ n ih =>
    rw [wrapping_pow_loop, wrapping_pow_loop]
    exact Mono.ite (Mono.ite (Mono.bind _ fun _ => Mono.bind _ fun _ => ih _ _ _)
      (Mono.bind _ fun _ => Mono.bind _ fun _ => ih _ _ _)) (Mono.refl _)

theorem overflowing_pow_loop_mono (n : Nat) (e : U32) (b a : U256) (o : Bool) :
    Mono (overflowing_pow_loop c n e b a o) (overflowing_pow_loop c (n + 1) e b a o) := by
  induction n generalizing e b a o with
  | zero => exact Mono.zero _
  | succ n ih =>
    rw [overflowing_pow_loop, overflowing_pow_loop]
    exact Mono.ite (Mono.ite (Mono.bind _ fun _ => Mono.bind _ fun _ => Mono.bind _ fun _ => ih _ _ _ _)
      (Mono.bind _ fun _ => Mono.bind _ fun _ => ih _ _ _ _)) (Mono.refl _)

theorem pow_loop_mono (n : Nat) (e : U32) (b a : U256) : Mono (pow_loop c n e b a) (pow_loop c (n + 1) e b a) := by
  induction n generalizing e b a with
  | zero => exact Mono.zero _
  | succ n ih =>
    rw [pow_loop, pow_loop]
    exact Mono.ite (Mono.ite (Mono.bind _ fun _ => Mono.bind _ fun _ => ih _ _ _)
      (Mono.bind _ fun _ => Mono.bind _ fun _ => ih _ _ _)) (Mono.refl _)

theorem wrapping_pow_loop_short (n : Nat) (e : U32) (b a : U256) (h : 2 ^ n ≤ e.toNat) (h1 : 1 ≤ n) :
    wrapping_pow_loop c n e b a = .error .diverge := by
  induction n generalizing e b a with
  | zero => omega
  | succ n ih =>
    have h2 : e > 1 := (exp_gt_one e).2 (by rw [Nat.pow_succ] at h; have := Nat.one_le_two_pow (n := n); omega)
    have hh : ∀ b a : U256, wrapping_pow_loop c n (e / 2) b a = .error .diverge := by
      intro b a
      rcases Nat.eq_zero_or_pos n with h0 | h0
      · subst h0; rfl
      · exact ih _ _ _ (by rw [exp_half]; rw [Nat.pow_succ] at h; omega) h0
    rw [wrapping_pow_loop, if_pos h2]
    by_cases ho : e &&& 1 = 1
    · rw [if_pos ho]; simp only [wrap_mul, ok_bind, hh]
    · rw [if_neg ho]; simp only [wrap_mul, pure_ok, ok_bind, hh]

theorem overflowing_pow_loop_short (n : Nat) (e : U32) (b a : U256) (o : Bool) (h : 2 ^ n ≤ e.toNat) (h1 : 1 ≤ n) :
    overflowing_pow_loop c n e b a o = .error .diverge := by
  induction n generalizing e b a o with
  | zero => omega
  | succ n ih =>
    have h2 : e > 1 := (exp_gt_one e).2 (by rw [Nat.pow_succ] at h; have := Nat.one_le_two_pow (n := n); omega)
    have hh : ∀ (b a : U256) (o : Bool), overflowing_pow_loop c n (e / 2) b a o = .error .diverge := by
      intro b a o
      rcases Nat.eq_zero_or_pos n with h0 | h0
      · subst h0; rfl
      · exact ih _ _ _ _ (by rw [exp_half]; rw [Nat.pow_succ] at h; omega) h0
    rw [overflowing_pow_loop, if_pos h2]
    by_cases ho : e &&& 1 = 1
    · rw [if_pos ho]; simp only [ovf_mul, pure_ok, ok_bind, hh]
    · rw [if_neg ho]; simp only [ovf_mul, pure_ok, ok_bind, hh]

end U256

namespace I256
variable (c : Cfg)

theorem checked_pow_loop_mono (n : Nat) (e : U32) (b a : I256) :
    Mono (checked_pow_loop c n e b a) (checked_pow_loop c (n + 1) e b a) := by
  induction n generalizing e b a with
  | zero => exact Mono.zero _
  | succ n ih =>
    rw [checked_pow_loop, checked_pow_loop]
    refine Mono.ite (Mono.ite (Mono.bind _ fun a' => ?_) (Mono.bind _ fun a' => ?_)) (Mono.refl _) <;>
    · rcases a' with _ | a'
      · exact Mono.refl _
      · refine Mono.bind _ fun b' => ?_
        rcases b' with _ | b'
        · exact Mono.refl _
        · exact ih _ _ _

theorem wrapping_pow_loop_mono (n : Nat) (e : U32) (b a : I256) :
    Mono (wrapping_pow_loop c n e b a) (wrapping_pow_loop c (n + 1) e b a) := by
  induction n generalizing e b a with
  | zero => exact Mono.zero _
  | succ n ih =>
    rw [wrapping_pow_loop, wrapping_pow_loop]
    exact Mono.ite (Mono.ite (Mono.bind _ fun _ => Mono.bind _ fun _ => ih _ _ _)
      (Mono.bind _ fun _ => Mono.bind _ fun _ => ih _ _ _)) (Mono.refl _)

theorem overflowing_pow_loop_mono (n : Nat) (e : U32) (b a : I256) (o : Bool) :
    Mono (overflowing_pow_loop c n e b a o) (overflowing_pow_loop c (n + 1) e b a o) := by
  induction n generalizing e b a o with
  | zero => exact Mono.zero _
  | succ n ih =>
    rw [overflowing_pow_loop, overflowing_pow_loop]
    exact Mono.ite (Mono.ite (Mono.bind _ fun _ => Mono.bind _ fun _ => Mono.bind _ fun _ => ih _ _ _ _)
      (Mono.bind _ fun _ => Mono.bind _ fun _ => ih _ _ _ _)) (Mono.refl _)

theorem pow_loop_mono (n : Nat) (e : U32) (b a : I256) : Mono (pow_loop c n e b a) (pow_loop c (n + 1) e b a) := by
  induction n generalizing e b a with
  | zero => exact Mono.zero _
  | succ n ih =>
    rw [pow_loop, pow_loop]
    exact Mono.ite (Mono.ite (Mono.bind _ fun _ => Mono.bind _ fun _ => ih _ _ _)
      (Mono.bind _ fun _ => Mono.bind _ fun _ => ih _ _ _)) (Mono.refl _)

theorem wrapping_pow_loop_short (n : Nat) (e : U32) (b a : I256) (h : 2 ^ n ≤ e.toNat) (h1 : 1 ≤ n) :
    wrapping_pow_loop c n e b a = .error .diverge := by
  induction n generalizing e b a with
  | zero => omega
  | succ n ih =>
    have h2 : e > 1 := (exp_gt_one e).2 (by rw [Nat.pow_succ] at h; have := Nat.one_le_two_pow (n := n); omega)
    have hh : ∀ b a : I256, wrapping_pow_loop c n (e / 2) b a = .error .diverge := by
      intro b a
      rcases Nat.eq_zero_or_pos n with h0 | h0
      · subst h0; rfl
      · exact ih _ _ _ (by rw [exp_half]; rw [Nat.pow_succ] at h; omega) h0
    rw [wrapping_pow_loop, if_pos h2]
    by_cases ho : e &&& 1 = 1
    · rw [if_pos ho]; simp only [wrap_mul, ok_bind, hh]
    · rw [if_neg ho]; simp only [wrap_mul, pure_ok, ok_bind, hh]

theorem overflowing_pow_loop_short (n : Nat) (e : U32) (b a : I256) (o : Bool) (h : 2 ^ n ≤ e.toNat) (h1 : 1 ≤ n) :
    overflowing_pow_loop c n e b a o = .error .diverge := by
  induction n generalizing e b a o with
  | zero => omega
  | succ n ih =>
    have h2 : e > 1 := (exp_gt_one e).2 (by rw [Nat.pow_succ] at h; have := Nat.one_le_two_pow (n := n); omega)
    have hh : ∀ (b a : I256) (o : Bool), overflowing_pow_loop c n (e / 2) b a o = .error .diverge := by
      intro b a o
      rcases Nat.eq_zero_or_pos n with h0 | h0
      · subst h0; rfl
      · exact ih _ _ _ _ (by rw [exp_half]; rw [Nat.pow_succ] at h; omega) h0
    rw [overflowing_pow_loop, if_pos h2]
    by_cases ho : e &&& 1 = 1
    · rw [if_pos ho]; simp only [ovf_mul, pure_ok, ok_bind, hh]
    · rw [if_neg ho]; simp only [ovf_mul, pure_ok, ok_bind, hh]

end I256

namespace Intr
variable (c : Cfg)

theorem corrLoop_mono (vn1 vn0 un : U128) (n : Nat) (q r : U128) :
    Mono (corrLoop c vn1 vn0 un n q r) (corrLoop c vn1 vn0 un (n + 1) q r) := by
  induction n generalizing q r with
  | zero => exact Mono.zero _
  | succ n ih =>
    rw [corrLoop, corrLoop]
    refine Mono.bind _ fun b => Mono.ite (Mono.bind _ fun q' => Mono.bind _ fun r' => Mono.ite (Mono.refl _) (ih _ _)) (Mono.refl _)

theorem knuthLoop_mono (v1 v0 u0 : U128) (n : Nat) (q r : U128) :
    Mono (knuthLoop c v1 v0 u0 n q r) (knuthLoop c v1 v0 u0 (n + 1) q r) := by
  induction n generalizing q r with
  | zero => exact Mono.zero _
  | succ n ih =>
    rw [knuthLoop, knuthLoop]
    exact Mono.bind _ fun b => Mono.ite (Mono.refl _) (Mono.bind _ fun q' => Mono.ite (Mono.refl _) (ih _ _))

theorem subC_ends (a b : U128) : subC c a b ≠ .error .diverge := by
  unfold subC; repeat' split
  all_goals simp_all [pure, Except.pure, throwPanic]

theorem addC_ends (a b : U128) : addC c a b ≠ .error .diverge := by
  unfold addC; repeat' split
  all_goals simp_all [pure, Except.pure, throwPanic]

theorem mulC_ends (a b : U128) : mulC c a b ≠ .error .diverge := by
  unfold mulC; repeat' split
  all_goals simp_all [pure, Except.pure, throwPanic]

theorem bind_ends {α β : Type} {m : Res α} {f : α → Res β} (hm : m ≠ .error .diverge)
    (hf : ∀ x, m = .ok x → f x ≠ .error .diverge) : m >>= f ≠ .error .diverge := by
  cases m with
  | error e => intro h; exact hm (by cases h; rfl)
  | ok x => exact hf x rfl

theorem corrTest_ends (q r v u : U128) : corrTest c q r v u ≠ .error .diverge := by
  unfold corrTest
  split
  · simp [pure, Except.pure]
  · exact bind_ends (mulC_ends c _ _) fun _ _ => bind_ends (mulC_ends c _ _) fun _ _ =>
      bind_ends (addC_ends c _ _) fun _ _ => by simp [pure, Except.pure]

theorem corrLoop_ends {vn1 : U128} (vn0 un : U128) (h1' : vn1.toNat < 2 ^ 64) :
    ∀ (n : Nat) (q r : U128), r.toNat < 2 ^ 64 → 2 ^ 64 ≤ r.toNat + n * vn1.toNat →
      corrLoop c vn1 vn0 un n q r ≠ .error .diverge := by
  intro n
  induction n with
  | zero => intro q r hr hf; omega
  | succ n ih =>
    intro q r hr hf
    rw [corrLoop]
    refine bind_ends (corrTest_ends c _ _ _ _) fun b _ => ?_
    split
    · refine bind_ends (subC_ends c _ _) fun q' _ => ?_
      obtain ⟨r', e, vr⟩ := addC_spec c (a := r) (b := vn1) (by omega)
      rw [e, ok_bind]
      by_cases hB : B ≤ r'
      · rw [if_pos hB]; simp [pure, Except.pure]
      · rw [if_neg hB]
        have : r'.toNat < 2 ^ 64 := by
          rw [BitVec.not_le, BitVec.lt_def] at hB
          exact hB
        exact ih _ _ this (by rw [vr]; rw [Nat.add_mul] at hf; omega)
    · simp [pure, Except.pure]

theorem knuthLoop_ends {v1 : U128} (v0 u0 : U128) :
    ∀ (n : Nat) (q r : U128), 2 ^ 128 ≤ r.toNat + n * v1.toNat →
      knuthLoop c v1 v0 u0 n q r ≠ .error .diverge := by
  intro n
  induction n with
  | zero => intro q r hf; have := r.isLt; omega
  | succ n ih =>
    intro q r hf
    rw [knuthLoop]
    obtain ⟨lo, hi, e, -⟩ := fullmul_u128_spec c q v0
    rw [e, ok_bind]
    dsimp only
    split
    · simp [pure, Except.pure]
    · refine bind_ends (subC_ends c _ _) fun q' _ => ?_
      by_cases ho : (overflowingAdd r v1).2 = true
      · rw [if_pos ho]; simp [pure, Except.pure]
      · rw [if_neg ho]
        have hv : (overflowingAdd r v1).1.toNat = r.toNat + v1.toNat := by
          simp only [overflowingAdd, decide_eq_true_eq] at ho ⊢
          rw [BitVec.toNat_add]
          have := r.isLt; have := v1.isLt
          omega
        exact ih _ _ (by rw [hv]; rw [Nat.add_mul] at hf; omega)

end Intr

theorem decLoop_mono (c : Cfg) (n : Nat) (x : U256) (k : Int) (b : Buf) :
    Mono (decLoop c n x k b) (decLoop c (n + 1) x k b) := by
  induction n generalizing x k b with
  | zero => exact Mono.zero _
  | succ n ih =>
    rw [decLoop, decLoop]
    exact Mono.ite (Mono.bind _ fun _ => Mono.bind _ fun _ => Mono.bind _ fun _ => Mono.bind _ fun _ =>
      Mono.bind _ fun _ => ih _ _ _) (Mono.refl _)

theorem isizeC_ends (c : Cfg) (v : Int) (p : Panic) : isizeC c v p ≠ .error .diverge := by
  unfold isizeC; repeat' split
  all_goals simp_all [pure, Except.pure, throwPanic]

theorem write_ends (b : Buf) (i : Int) (x : U8) : b.write i x ≠ .error .diverge := by
  unfold Buf.write; repeat' split
  all_goals simp_all [throwUB]

theorem copy2_ends (s d : Int) (b : Buf) : copy2 s d b ≠ .error .diverge := by
  unfold copy2; repeat' split
  all_goals first
    | exact Intr.bind_ends (write_ends _ _ _) fun _ _ => write_ends _ _ _
    | simp_all [throwUB]

theorem decLoop_ends (c : Cfg) : ∀ (fuel : Nat) (n : U256) (k : Int) (buf : Buf), 1 ≤ fuel →
    n.toNat c < 10000 ^ fuel → decLoop c fuel n k buf ≠ .error .diverge := by
  intro fuel
  induction fuel with
  | zero => intro n k buf h; omega
  | succ fuel ih =>
    intro n k buf _ hn
    rw [decLoop, U256.ge_prim_eq]
    have e10000 : (10000 : U128).toNat = 10000 := rfl
    rw [e10000]
    by_cases hge : 10000 ≤ n.toNat c
    · rw [if_pos (by simpa using hge)]
      have hnew : (U256.new c 10000).toNat c = 10000 := by rw [U256.toNat_new]; rfl
      have hdr := (C04_div_rem c n (U256.new c 10000) (by omega)).1
      rw [hnew] at hdr
      rw [hdr, ok_bind]
      have hx := U256.toNat_lt c n
      have hquo : (U256.ofNat c (n.toNat c / 10000)).toNat c = n.toNat c / 10000 := U256.toNat_ofNat_of_lt c (by omega)
      refine Intr.bind_ends (isizeC_ends c _ _) fun _ _ => Intr.bind_ends (copy2_ends _ _ _) fun _ _ =>
        Intr.bind_ends (isizeC_ends c _ _) fun _ _ => Intr.bind_ends (copy2_ends _ _ _) fun _ _ => ih _ _ _ ?_ ?_
      · rcases Nat.eq_zero_or_pos fuel with h | h
        · subst h; rw [Nat.zero_add, Nat.pow_one] at hn; omega
        · exact h
      · rw [hquo]; rw [Nat.pow_succ] at hn; exact Nat.div_lt_of_lt_mul (by rwa [Nat.mul_comm] at hn)
    · rw [if_neg (by simpa using hge)]; simp

theorem decLoop_short (c : Cfg) : ∀ (fuel : Nat) (n : U256) (k : Nat) (buf : Buf), 1 ≤ fuel →
    10000 ^ fuel ≤ n.toNat c → buf.length = 79 → k ≤ 79 → (Nat.toDigits 10 (n.toNat c)).length ≤ k
    → decLoop c fuel n k buf = .error .diverge := by
  intro fuel
  induction fuel with
  | zero => intro n k buf h; omega
  | succ fuel ih =>
    intro n k buf _ hn hb hk hl
    rw [decLoop, U256.ge_prim_eq]
    have e10000 : (10000 : U128).toNat = 10000 := rfl
    rw [e10000]
    have hge : 10000 ≤ n.toNat c := by
      rw [Nat.pow_succ] at hn; have := Nat.one_le_pow fuel 10000 (by omega); omega
    rw [if_pos (by simpa using hge)]
    have hnew : (U256.new c 10000).toNat c = 10000 := by rw [U256.toNat_new]; rfl
    have hdr := (C04_div_rem c n (U256.new c 10000) (by omega)).1
    rw [hnew] at hdr
    rw [hdr, ok_bind]
    dsimp only
    have hx := U256.toNat_lt c n
    have hrem : (U256.ofNat c (n.toNat c % 10000)).as_isize c = (n.toNat c % 10000 : Nat) := by
      have : (U256.ofNat c (n.toNat c % 10000)).toNat c = n.toNat c % 10000 := U256.toNat_ofNat_of_lt c (by omega)
      rw [as_isize_eq c _ (by omega), this]
    have hquo : (U256.ofNat c (n.toNat c / 10000)).toNat c = n.toNat c / 10000 := U256.toNat_ofNat_of_lt c (by omega)
    rw [hrem]
    have hlen5 : ¬ (Nat.toDigits 10 (n.toNat c)).length ≤ 4 := by
      rw [Nat.length_toDigits_le_iff (by omega) (by omega)]; omega
    have htd : ((n.toNat c % 10000 : Nat) : Int).tdiv 100 = (n.toNat c % 10000 / 100 : Nat) := by
      rw [Int.tdiv_eq_ediv_of_nonneg (by omega)]; omega
    have htm : ((n.toNat c % 10000 : Nat) : Int).tmod 100 = (n.toNat c % 10000 % 100 : Nat) := by
      rw [Int.tmod_eq_emod_of_nonneg (by omega)]; omega
    rw [htd, htm, isizeShl1_eq c _ (by omega) (by omega), isizeShl1_eq c _ (by omega) (by omega),
      isizeC_ok c _ _ (by omega) (by omega), ok_bind]
    rw [show (k : Int) - 4 = ((k - 4 : Nat) : Int) by omega]
    obtain ⟨buf1, h1, h1l, -, -⟩ := copy2_eq (n.toNat c % 10000 / 100) (k - 4) buf (by omega) (by omega)
    rw [show (2 : Int) * ((n.toNat c % 10000 / 100 : Nat) : Int) = ((2 * (n.toNat c % 10000 / 100) : Nat) : Int) by omega,
      h1, ok_bind, isizeC_ok c _ _ (by omega) (by omega), ok_bind]
    obtain ⟨buf2, h2, h2l, -, -⟩ := copy2_eq (n.toNat c % 10000 % 100) (k - 2) buf1 (by omega) (by omega)
    rw [show (2 : Int) * ((n.toNat c % 10000 % 100 : Nat) : Int) = ((2 * (n.toNat c % 10000 % 100) : Nat) : Int) by omega,
      show ((k - 4 : Nat) : Int) + 2 = ((k - 2 : Nat) : Int) by omega, h2, ok_bind]
    rcases Nat.eq_zero_or_pos fuel with h0 | h0
    · subst h0; rfl
    · have hT := toDigits4 (n.toNat c) hge
      refine ih _ _ _ h0 ?_ (by omega) (by omega) ?_
      · rw [hquo, Nat.le_div_iff_mul_le (by omega)]; rwa [Nat.pow_succ] at hn
      · rw [hquo]
        rw [hT] at hl
        simp only [List.length_append, two, List.length_cons, List.length_nil] at hl
        omega

end Ethnum
