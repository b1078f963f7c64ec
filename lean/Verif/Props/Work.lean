import Verif.Proofs.Work
import Verif.Props.Repr

/-
C68: every loop of the crate that is not over the bytes of its input ends after an explicit number of turns.
-/

namespace Ethnum
open Work

private theorem size_le (e : U32) : max 1 (bitLength e.toNat) ≤ 32 := by
  have := bitLength_le (n := e.toNat) (k := 32) e.isLt
  omega

private theorem lt_size (e : U32) : e.toNat < 2 ^ max 1 (bitLength e.toNat) :=
  Nat.lt_of_lt_of_le (bitLength_lt _) (Nat.pow_le_pow_right (by omega) (by omega))

private theorem short {α : Type} {loop : Nat → Res α} (e : U32) (h0 : loop 0 = .error .diverge)
    (h : ∀ n, 2 ^ n ≤ e.toNat → 1 ≤ n → loop n = .error .diverge) (k : Nat) (hk : k < max 1 (bitLength e.toNat)) :
    loop k = .error .diverge := by
  rcases Nat.eq_zero_or_pos k with h' | h'
  · subst h'; exact h0
  · exact h k (bitLength_ge (by omega)) h'

/-- C68: the loop of `wrapping_pow` and that of `overflowing_pow` test their condition once for each binary digit of the
exponent (once if it is zero), whatever the base and whatever was accumulated; the loops of `checked_pow` and `pow` do so at
most as often. No more than 32 tests in all. -/
theorem C68_pow (c : Cfg) (e : U32) (base acc : U256) (o : Bool) :
    max 1 (bitLength e.toNat) ≤ 32
    ∧ Takes (fun k => U256.wrapping_pow_loop c k e base acc) (max 1 (bitLength e.toNat))
    ∧ Takes (fun k => U256.overflowing_pow_loop c k e base acc o) (max 1 (bitLength e.toNat))
    ∧ EndsWithin (fun k => U256.checked_pow_loop c k e base acc) (max 1 (bitLength e.toNat))
    ∧ EndsWithin (fun k => U256.pow_loop c k e base acc) (max 1 (bitLength e.toNat)) := by
  have hl := lt_size e
  have h1 : 1 ≤ max 1 (bitLength e.toNat) := by omega
  refine ⟨size_le e, ⟨endsWithin_of (fun n => U256.wrapping_pow_loop_mono c n e base acc) ?_, ?_⟩,
    ⟨endsWithin_of (fun n => U256.overflowing_pow_loop_mono c n e base acc o) ?_, ?_⟩,
    endsWithin_of (fun n => U256.checked_pow_loop_mono c n e base acc) ?_,
    endsWithin_of (fun n => U256.pow_loop_mono c n e base acc) ?_⟩
  · rw [U256.wrapping_pow_loop_eq c _ e base acc o hl h1]; simp
  · exact short (loop := fun k => U256.wrapping_pow_loop c k e base acc) e rfl
      fun n => U256.wrapping_pow_loop_short c n e base acc
  · rw [U256.overflowing_pow_loop_eq c _ e base acc o hl h1]; simp
  · exact short (loop := fun k => U256.overflowing_pow_loop c k e base acc o) e rfl
      fun n => U256.overflowing_pow_loop_short c n e base acc o
  · rw [U256.checked_pow_loop_eq c _ e base acc hl h1]; simp
  · rw [U256.pow_loop_eq c _ e base acc false (fun _ => rfl) hl h1]; split <;> simp

/-- C68: the same for the four loops of `I256`. -/
theorem C68_pow_signed (c : Cfg) (e : U32) (base acc : I256) (o : Bool) :
    Takes (fun k => I256.wrapping_pow_loop c k e base acc) (max 1 (bitLength e.toNat))
    ∧ Takes (fun k => I256.overflowing_pow_loop c k e base acc o) (max 1 (bitLength e.toNat))
    ∧ EndsWithin (fun k => I256.checked_pow_loop c k e base acc) (max 1 (bitLength e.toNat))
    ∧ EndsWithin (fun k => I256.pow_loop c k e base acc) (max 1 (bitLength e.toNat)) := by
  have hl := lt_size e
  have h1 : 1 ≤ max 1 (bitLength e.toNat) := by omega
  refine ⟨⟨endsWithin_of (fun n => I256.wrapping_pow_loop_mono c n e base acc) ?_, ?_⟩,
    ⟨endsWithin_of (fun n => I256.overflowing_pow_loop_mono c n e base acc o) ?_, ?_⟩,
    endsWithin_of (fun n => I256.checked_pow_loop_mono c n e base acc) ?_,
    endsWithin_of (fun n => I256.pow_loop_mono c n e base acc) ?_⟩
  · rw [I256.wrapping_pow_loop_eq c _ e base acc o hl h1]; simp
  · exact short (loop := fun k => I256.wrapping_pow_loop c k e base acc) e rfl
      fun n => I256.wrapping_pow_loop_short c n e base acc
  · rw [I256.overflowing_pow_loop_eq c _ e base acc o hl h1]; simp
  · exact short (loop := fun k => I256.overflowing_pow_loop c k e base acc o) e rfl
      fun n => I256.overflowing_pow_loop_short c n e base acc o
  · rw [I256.checked_pow_loop_eq c _ e base acc hl h1]; simp
  · rw [I256.pow_loop_eq c _ e base acc false (fun _ => rfl) hl h1]; split <;> simp

/-- An exponent of three binary digits: three tests are enough and two are not; `checked_pow` leaves its loop early when it
has found an overflow. -/
example : max 1 (bitLength (5 : U32).toNat) = 3
    ∧ U256.wrapping_pow_loop rel 2 5 (U256.ofNat rel 3) (U256.ONE rel) = .error .diverge
    ∧ U256.wrapping_pow_loop rel 3 5 (U256.ofNat rel 3) (U256.ONE rel)
      = .ok (1, U256.ofNat rel 81, U256.ofNat rel 3)
    ∧ U256.checked_pow_loop rel 2 5 (U256.ofNat rel 3) (U256.ONE rel) = .error .diverge
    ∧ U256.checked_pow_loop rel 1 5 U256.MAX (U256.ONE rel) = .ok none
    ∧ max 1 (bitLength (4294967295 : U32).toNat) = 32 ∧ max 1 (bitLength (0 : U32).toNat) = 1 := by decide +kernel

/-- C68: the loop of `Display` tests its condition once for each group of four decimal digits that the value has, the
incomplete one included; no more than 20 times. -/
theorem C68_decimal (c : Cfg) (n : U256) :
    Takes (fun k => decLoop c k n 79 (Buf.uninit 79)) (((Nat.toDigits 10 (n.toNat c)).length + 3) / 4)
    ∧ ((Nat.toDigits 10 (n.toNat c)).length + 3) / 4 ≤ 20 := by
  have hn := U256.toNat_lt c n
  have hlen : (Nat.toDigits 10 (n.toNat c)).length ≤ 78 := by
    rw [Nat.length_toDigits_le_iff (by omega) (by omega)]
    exact Nat.lt_of_lt_of_le hn (by decide)
  have hpos : 0 < (Nat.toDigits 10 (n.toNat c)).length := Nat.length_toDigits_pos
  have hp : ∀ k, 10000 ^ k = 10 ^ (4 * k) := fun k => by rw [Nat.pow_mul]
  refine ⟨⟨endsWithin_of (fun k => decLoop_mono c k n 79 (Buf.uninit 79)) ?_, ?_⟩, by omega⟩
  · refine decLoop_ends c _ n 79 (Buf.uninit 79) (by omega) ?_
    rw [hp]
    exact (Nat.length_toDigits_le_iff (b := 10) (by omega) (by omega)).1 (by omega)
  · intro k hk
    rcases Nat.eq_zero_or_pos k with h0 | h0
    · subst h0; rfl
    · refine decLoop_short c k n 79 (Buf.uninit 79) h0 ?_ (by simp [Buf.uninit]) (by omega) (by omega)
      rw [hp]
      by_contra hc
      have := (Nat.length_toDigits_le_iff (b := 10) (n := n.toNat c) (k := 4 * k) (by omega) (by omega)).2 (by omega)
      omega

example : (Nat.toDigits 10 ((U256.ofNat rel 123456789).toNat rel)).length = 9
    ∧ (decLoop rel 2 (U256.ofNat rel 123456789) 79 (Buf.uninit 79)).isOk = false
    ∧ (decLoop rel 3 (U256.ofNat rel 123456789) 79 (Buf.uninit 79)).isOk = true
    ∧ ((Nat.toDigits 10 ((U256.MAX).toNat rel)).length + 3) / 4 = 20 := by decide +kernel

/-- C68: the two correction loops of long division. With a normalised divisor, whose high half has its top bit set, the
quotient digit is corrected at most twice, whatever the estimate it starts from: the condition is tested at most twice. -/
theorem C68_division (c : Cfg) :
    (∀ vn1 vn0 un q r : U128, 2 ^ 63 ≤ vn1.toNat → vn1.toNat < 2 ^ 64 → r.toNat < 2 ^ 64 →
      EndsWithin (fun k => Intr.corrLoop c vn1 vn0 un k q r) 2)
    ∧ (∀ v1 v0 u0 q r : U128, 2 ^ 127 ≤ v1.toNat → EndsWithin (fun k => Intr.knuthLoop c v1 v0 u0 k q r) 2) := by
  refine ⟨fun vn1 vn0 un q r h1 h1' hr => endsWithin_of (fun n => Intr.corrLoop_mono c vn1 vn0 un n q r) ?_,
    fun v1 v0 u0 q r h1 => endsWithin_of (fun n => Intr.knuthLoop_mono c v1 v0 u0 n q r) ?_⟩
  · exact Intr.corrLoop_ends c vn0 un h1' 2 q r hr (by omega)
  · exact Intr.knuthLoop_ends c v0 u0 2 q r (by omega)

/-- C68: where these loops are entered, any budget of two or more gives the same quotient digit. -/
theorem C68_division_calls (c : Cfg) (k : Nat) (hk : 2 ≤ k) :
    (∀ un un' vn1 vn0 : U128, 2 ^ 63 ≤ vn1.toNat → vn1.toNat < 2 ^ 64 →
      Intr.quotDigit c un un' vn1 vn0 = (do
        let rhat ← subC c un (← mulC c (un / vn1) vn1)
        Intr.corrLoop c vn1 vn0 un' k (un / vn1) rhat))
    ∧ (∀ u0 u1 u2 v1 v0 : U128, 2 ^ 127 ≤ v1.toNat → u2.toNat < v1.toNat →
      Intr.knuthQhat c u0 u1 u2 v1 v0 = (do
        let (q, r) ← Intr.udiv256_by_128_to_128 c u2 u1 v1
        Intr.knuthLoop c v1 v0 u0 k q r)) := by
  refine ⟨fun un un' vn1 vn0 h1 h1' => ?_, fun u0 u1 u2 v1 v0 h1 hu => ?_⟩
  · unfold Intr.quotDigit
    have hq : (un / vn1).toNat = un.toNat / vn1.toNat := BitVec.toNat_udiv
    have hdm := Nat.div_add_mod un.toNat vn1.toNat
    have hml := Nat.mod_lt un.toNat (show 0 < vn1.toNat by omega)
    have hcomm : un.toNat / vn1.toNat * vn1.toNat = vn1.toNat * (un.toNat / vn1.toNat) := Nat.mul_comm _ _
    have hun := un.isLt
    obtain ⟨p, e, vp⟩ := mulC_spec c (a := un / vn1) (b := vn1) (by rw [hq]; omega)
    simp only [e, ok_bind]
    rw [hq] at vp
    obtain ⟨r, e, vr⟩ := subC_spec c (a := un) (b := p) (by omega)
    simp only [e, ok_bind]
    obtain ⟨x, -, hx⟩ := (C68_division c).1 vn1 vn0 un' (un / vn1) r h1 h1' (by omega)
    rw [show Intr.corrLoop c vn1 vn0 un' 3 (un / vn1) r = x from hx 3 (by omega)]
    exact (hx k hk).symm
  · unfold Intr.knuthQhat
    rw [if_pos (BitVec.lt_def.2 hu), Intr.nonZeroUnchecked_ok (by omega), ok_bind]
    congr 1
    funext ⟨q, r⟩
    obtain ⟨x, -, hx⟩ := (C68_division c).2 v1 v0 u0 q r h1
    show Intr.knuthLoop c v1 v0 u0 3 q r = Intr.knuthLoop c v1 v0 u0 k q r
    rw [show Intr.knuthLoop c v1 v0 u0 3 q r = x from hx 3 (by omega)]
    exact (hx k hk).symm

/-- Two tests are needed: the divisor is `2 ^ 127 + (2 ^ 64 - 1)`, in 64-bit digits, and the first estimate is two too
large. -/
example : Intr.corrLoop rel (2 ^ 63) (2 ^ 64 - 1) 0 1 (2 ^ 64 + 1) 0 = .error .diverge
    ∧ Intr.corrLoop rel (2 ^ 63) (2 ^ 64 - 1) 0 2 (2 ^ 64 + 1) 0 = .ok (2 ^ 64 - 1)
    ∧ Intr.knuthLoop rel (2 ^ 127) (2 ^ 128 - 1) 0 1 (2 ^ 128 - 1) 0 = .error .diverge
    ∧ Intr.knuthLoop rel (2 ^ 127) (2 ^ 128 - 1) 0 2 (2 ^ 128 - 1) 0 = .ok (2 ^ 128 - 3) := by decide +kernel

end Ethnum
