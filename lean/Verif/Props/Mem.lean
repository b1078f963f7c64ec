import Verif.SpecOps
import Verif.Proofs.MemAssign
import Verif.Props.Bits

/-
C54, C55: writing through references. The statements are about memory (`SpecMem`): which object holds which number
before and after a call, and that nothing else changes.
-/

namespace Ethnum

variable {c : Cfg} {s : Mem} {r a b : Loc} {x y : Int}

/-- A memory for the examples: two initialised objects, one that is not, one with only one word written. -/
def exMem (c : Cfg) (x y : Int) : Mem :=
  [Cell.ofU (U256.ofInt c x), Cell.ofU (U256.ofInt c y), Cell.uninit, ⟨some 7, none⟩]

/-- C54: the `U256` routines with an output object. The output need not be initialised before; afterwards it holds the
result modulo `2^256`, nothing else has changed, and the carry says whether the exact result does not fit. -/
theorem C54_u256_three (ha : s.num c .u a = some x) (hb : s.num c .u b = some y) (hr : r < s.length) :
    Puts c .u r ((x + y) % 2 ^ 256) () (MemIntr.add3 c r a b) s
    ∧ Puts c .u r ((x - y) % 2 ^ 256) () (MemIntr.sub3 c r a b) s
    ∧ Puts c .u r ((x * y) % 2 ^ 256) () (MemIntr.mul3 c r a b) s
    ∧ Puts c .u r ((x + y) % 2 ^ 256) (decide (¬ InU256 (x + y))) (MemIntr.uaddc c r a b) s
    ∧ Puts c .u r ((x - y) % 2 ^ 256) (decide (¬ InU256 (x - y))) (MemIntr.usubc c r a b) s
    ∧ Puts c .u r ((x * y) % 2 ^ 256) (decide (¬ InU256 (x * y))) (MemIntr.umulc c r a b) s := by
  obtain ⟨u, hu, rfl⟩ := has_of_num_u ha
  obtain ⟨v, hv, rfl⟩ := has_of_num_u hb
  have lu := U256.toNat_lt c u
  have lv := U256.toNat_lt c v
  refine ⟨puts_u (MemIntr.add3_eq hu hv hr) rfl hr ?_, puts_u (MemIntr.sub3_eq hu hv hr) rfl hr ?_,
    puts_u (MemIntr.mul3_eq hu hv hr) (Intr.mul3_eq c u v) hr ?_,
    putsB_u (MemIntr.uaddc_eq hu hv hr) (congrArg Except.ok (Intr.uaddc_eq c u v)) hr ?_ ?_,
    putsB_u (MemIntr.usubc_eq hu hv hr) (congrArg Except.ok (Intr.usubc_eq c u v)) hr ?_ ?_,
    putsB_u (MemIntr.umulc_eq hu hv hr) (Intr.umulc_eq c u v) hr ?_ ?_⟩
  · rw [Intr.add3_eq, num_ofNat]; simp [Kind.wrap]
  · rw [Intr.sub3_eq, num_ofInt]; simp [Kind.wrap]
  · rw [num_ofNat]; simp [Kind.wrap]
  · rw [num_ofNat]; simp [Kind.wrap]
  · rw [decide_eq_decide]; unfold InU256; omega
  · rw [num_ofInt]; simp [Kind.wrap]
  · rw [decide_eq_decide]; unfold InU256; omega
  · rw [num_ofNat]; simp [Kind.wrap]
  · rw [decide_eq_decide]; unfold InU256
    have : ((u.toNat c * v.toNat c : Nat) : Int) = (u.toNat c : Int) * v.toNat c := Int.natCast_mul _ _
    rw [← this]; omega

example : let s := exMem dbg (2 ^ 256 - 1) 3
    s.num dbg .u 0 = some (2 ^ 256 - 1) ∧ s.num dbg .u 1 = some 3 ∧ s.num dbg .u 2 = none ∧ s.num dbg .u 3 = none
    ∧ (MemIntr.add3 dbg 2 0 1 s).2.num dbg .u 2 = some 2
    ∧ (MemIntr.umulc dbg 3 0 1 s).1 = .ok true ∧ (MemIntr.umulc dbg 3 0 1 s).2.num dbg .u 3 = some (2 ^ 256 - 3) := by
  decide +kernel

/-- C54: the `U256` routines that work in place. -/
theorem C54_u256_two (hr : s.num c .u r = some x) (ha : s.num c .u a = some y) (hn : r ≠ a) :
    Puts c .u r ((x + y) % 2 ^ 256) () (MemIntr.add2 c r a) s
    ∧ Puts c .u r ((x - y) % 2 ^ 256) () (MemIntr.sub2 c r a) s
    ∧ Puts c .u r ((x * y) % 2 ^ 256) () (MemIntr.mul2 c r a) s := by
  obtain ⟨u, hu, rfl⟩ := has_of_num_u hr
  obtain ⟨v, hv, rfl⟩ := has_of_num_u ha
  refine ⟨puts_u (MemIntr.add2_eq hu hv hn) rfl hu.lt ?_, puts_u (MemIntr.sub2_eq hu hv hn) rfl hu.lt ?_,
    puts_u (MemIntr.mul2_eq hu hv) (Intr.mul2_eq c u v) hu.lt ?_⟩
  · rw [Intr.add2_eq, num_ofNat]; simp [Kind.wrap]
  · rw [Intr.sub2_eq, num_ofInt]; simp [Kind.wrap]
  · rw [num_ofNat]; simp [Kind.wrap]

example : let s := exMem rel (2 ^ 200) (2 ^ 200 + 5)
    (MemIntr.sub2 rel 0 1 s).2.num rel .u 0 = some (2 ^ 256 - 5) ∧ (MemIntr.sub2 rel 0 1 s).2.num rel .u 1 = some (2 ^ 200 + 5)
    ∧ (MemIntr.mul2 rel 0 1 s).2.num rel .u 0 = some (5 * 2 ^ 200) := by decide +kernel

/-- C54: the `I256` routines with an output object, as for `U256`. -/
theorem C54_i256_three (ha : s.num c .i a = some x) (hb : s.num c .i b = some y) (hr : r < s.length) (hra : r ≠ a)
    (hrb : r ≠ b) :
    Puts c .i r (Kind.i.wrap (x + y)) () (MemIntr.iadd3 c r a b) s
    ∧ Puts c .i r (Kind.i.wrap (x - y)) () (MemIntr.isub3 c r a b) s
    ∧ Puts c .i r (Kind.i.wrap (x * y)) () (MemIntr.imul3 c r a b) s
    ∧ Puts c .i r (Kind.i.wrap (x + y)) (decide (¬ InI256 (x + y))) (MemIntr.iaddc c r a b) s
    ∧ Puts c .i r (Kind.i.wrap (x - y)) (decide (¬ InI256 (x - y))) (MemIntr.isubc c r a b) s
    ∧ Puts c .i r (Kind.i.wrap (x * y)) (decide (¬ InI256 (x * y))) (MemIntr.imulc c r a b) s := by
  obtain ⟨u, hu, rfl⟩ := has_of_num_i ha
  obtain ⟨v, hv, rfl⟩ := has_of_num_i hb
  refine ⟨puts_i (e := .ok (Intr.iadd3 c u v)) (MemIntr.add3_eq hu hv hr) rfl hr ?_,
    puts_i (e := .ok (Intr.isub3 c u v)) (MemIntr.sub3_eq hu hv hr) rfl hr ?_,
    puts_i (e := Intr.imul3 c u v) ?_ (Intr.imul3_eq c u v) hr (num_iofInt _),
    putsB_i (MemIntr.iaddc_eq hu hv hr hra hrb) (congrArg Except.ok (Intr.iaddc_eq c u v)) hr (num_iofInt _) rfl,
    putsB_i (MemIntr.isubc_eq hu hv hr hra hrb) (congrArg Except.ok (Intr.isubc_eq c u v)) hr (num_iofInt _) rfl,
    putsB_i (MemIntr.imulc_eq hu hv hr hra hrb) (Intr.imulc_eq c u v) hr (num_iofInt _) rfl⟩
  · rw [Intr.iadd3_eq, num_iofInt]
  · rw [Intr.isub3_eq, num_iofInt]
  · rw [show MemIntr.imul3 c = MemIntr.mul3 c from rfl, MemIntr.mul3_eq hu hv hr]
    unfold Intr.imul3
    cases Intr.mul3 c u.as_u256 v.as_u256 <;> rfl

example : let s := exMem dbg (-2 ^ 255) (-1)
    s.num dbg .i 0 = some (-2 ^ 255) ∧ s.num dbg .i 1 = some (-1)
    ∧ (MemIntr.iaddc dbg 2 0 1 s).1 = .ok true ∧ (MemIntr.iaddc dbg 2 0 1 s).2.num dbg .i 2 = some (2 ^ 255 - 1)
    ∧ (MemIntr.imulc dbg 3 0 1 s).1 = .ok true ∧ (MemIntr.imulc dbg 3 0 1 s).2.num dbg .i 3 = some (-2 ^ 255) := by
  decide +kernel

/-- C54: the `I256` routines that work in place. -/
theorem C54_i256_two (hr : s.num c .i r = some x) (ha : s.num c .i a = some y) (hn : r ≠ a) :
    Puts c .i r (Kind.i.wrap (x + y)) () (MemIntr.iadd2 c r a) s
    ∧ Puts c .i r (Kind.i.wrap (x - y)) () (MemIntr.isub2 c r a) s
    ∧ Puts c .i r (Kind.i.wrap (x * y)) () (MemIntr.imul2 c r a) s := by
  obtain ⟨u, hu, rfl⟩ := has_of_num_i hr
  obtain ⟨v, hv, rfl⟩ := has_of_num_i ha
  refine ⟨puts_i (e := .ok (Intr.iadd2 c u v)) (MemIntr.add2_eq hu hv hn) rfl hu.lt ?_,
    puts_i (e := .ok (Intr.isub2 c u v)) (MemIntr.sub2_eq hu hv hn) rfl hu.lt ?_,
    puts_i (e := Intr.imul2 c u v) ?_ (Intr.imul2_eq c u v) hu.lt (num_iofInt _)⟩
  · rw [Intr.iadd2_eq, num_iofInt]
  · rw [Intr.isub2_eq, num_iofInt]
  · rw [show MemIntr.imul2 c = MemIntr.mul2 c from rfl, MemIntr.mul2_eq hu hv]
    unfold Intr.imul2
    cases Intr.mul2 c u.as_u256 v.as_u256 <;> rfl

example : let s := exMem rll (-5) (2 ^ 200)
    (MemIntr.imul2 rll 0 1 s).2.num rll .i 0 = some (-5 * 2 ^ 200)
    ∧ (MemIntr.isub2 rll 0 1 s).2.num rll .i 0 = some (-5 - 2 ^ 200) := by decide +kernel

/-- C54: division. The quotient and the remainder are written to the two outputs, or only the quotient if no remainder
is asked for. -/
theorem C54_u256_division {q : Loc} (ha : s.num c .u a = some x) (hb : s.num c .u b = some y) (hy : y ≠ 0)
    (hq : q < s.length) (hr : r < s.length) (hqa : q ≠ a) (hqb : q ≠ b) (hn : q ≠ r) :
    Puts2 c .u q (x / y) r (x % y) (MemIntr.udivmod4 c q a b (some r)) s
    ∧ Puts c .u q (x / y) () (MemIntr.udivmod4 c q a b none) s
    ∧ Puts c .u q (x / y) () (MemIntr.udiv3 c q a b) s
    ∧ Puts c .u r (x % y) () (MemIntr.urem3 c r a b) s
    ∧ Puts c .u a (x / y) () (MemIntr.udiv2 c a b) s
    ∧ Puts c .u a (x % y) () (MemIntr.urem2 c a b) s := by
  obtain ⟨u, hu, rfl⟩ := has_of_num_u ha
  obtain ⟨v, hv, rfl⟩ := has_of_num_u hb
  have h0 : v.toNat c ≠ 0 := by omega
  have lu := U256.toNat_lt c u
  have e1 : ((U256.ofNat c (u.toNat c / v.toNat c)).toNat c : Int) = (u.toNat c : Int) / v.toNat c := by
    rw [U256.toNat_ofNat_of_lt c (lt_of_le_of_lt (Nat.div_le_self _ _) lu)]; exact Int.natCast_ediv _ _
  have e2 : ((U256.ofNat c (u.toNat c % v.toNat c)).toNat c : Int) = (u.toNat c : Int) % v.toNat c := by
    rw [U256.toNat_ofNat_of_lt c (lt_of_le_of_lt (Nat.mod_le _ _) lu)]; exact Int.natCast_emod _ _
  refine ⟨puts2_u (MemIntr.udivmod4_some hu hv hq hr hqa hqb hn) ?_ hq hr hn e1 e2,
    puts_u (MemIntr.udivmod4_none hu hv hq) (Intr.udiv3_eq c h0) hq e1,
    puts_u (MemIntr.udivmod4_none hu hv hq) (Intr.udiv3_eq c h0) hq e1,
    puts_u (MemIntr.urem3_eq hu hv hr) (Intr.urem3_eq c h0) hr e2,
    puts_u (MemIntr.udiv2_eq hu hv) (Intr.udiv2_eq c h0) hu.lt e1,
    puts_u (MemIntr.urem2_eq hu hv) (Intr.urem2_eq c h0) hu.lt e2⟩
  rw [Intr.udivmod4_eq c true h0]; rfl

example : let s := exMem dbg (2 ^ 255 + 2 ^ 130) (2 ^ 129 + 1)
    let s' := (MemIntr.udivmod4 dbg 2 0 1 (some 3) s).2
    s'.num dbg .u 2 = some ((2 ^ 255 + 2 ^ 130) / (2 ^ 129 + 1)) ∧ s'.num dbg .u 3 = some ((2 ^ 255 + 2 ^ 130) % (2 ^ 129 + 1))
    ∧ s'.num dbg .u 0 = some (2 ^ 255 + 2 ^ 130) := by
  decide +kernel

/-- C54: division by zero panics before anything is written, with or without debug assertions. -/
theorem C54_u256_division_by_zero {q : Loc} (ha : s.num c .u a = some x) (hb : s.num c .u b = some 0)
    (hq : q < s.length) (hr : r < s.length) (hqa : q ≠ a) (hqb : q ≠ b) (hn : q ≠ r) :
    PanicsUnchanged (MemIntr.udivmod4 c q a b (some r)) s
    ∧ PanicsUnchanged (MemIntr.udivmod4 c q a b none) s
    ∧ PanicsUnchanged (MemIntr.udiv3 c q a b) s ∧ PanicsUnchanged (MemIntr.urem3 c r a b) s
    ∧ PanicsUnchanged (MemIntr.udiv2 c a b) s ∧ PanicsUnchanged (MemIntr.urem2 c a b) s := by
  obtain ⟨u, hu, rfl⟩ := has_of_num_u ha
  obtain ⟨v, hv, h⟩ := has_of_num_u hb
  have h0 : v.toNat c = 0 := by omega
  have e3 : Intr.udiv3 c u v = .error (.panic .divByZero) := Intr.udiv2_zero c h0
  have r3 : Intr.urem3 c u v = .error (.panic .divByZero) := Intr.urem2_zero c h0
  refine ⟨panics2_u (MemIntr.udivmod4_some hu hv hq hr hqa hqb hn) ⟨.divByZero, ?_⟩,
    panics_u (MemIntr.udivmod4_none hu hv hq) ⟨_, e3⟩, panics_u (MemIntr.udivmod4_none hu hv hq) ⟨_, e3⟩,
    panics_u (MemIntr.urem3_eq hu hv hr) ⟨_, r3⟩, panics_u (MemIntr.udiv2_eq hu hv) ⟨_, Intr.udiv2_zero c h0⟩,
    panics_u (MemIntr.urem2_eq hu hv) ⟨_, Intr.urem2_zero c h0⟩⟩
  rw [Intr.udivmod4_zero c true h0]; rfl

example : let s := exMem rel (2 ^ 200) 0
    s.num rel .u 1 = some 0 ∧ MemIntr.urem2 rel 0 1 s = (.error (.panic .divByZero), s) := by decide +kernel

/-- C54: signed division, rounding towards zero; `-2^255 / -1` wraps. -/
theorem C54_i256_division {q : Loc} (ha : s.num c .i a = some x) (hb : s.num c .i b = some y) (hy : y ≠ 0)
    (hq : q < s.length) (hr : r < s.length) (hn : q ≠ r) :
    Puts2 c .i q (Kind.i.wrap (x.tdiv y)) r (x.tmod y) (MemIntr.idivmod4 c q a b (some r)) s
    ∧ Puts c .i q (Kind.i.wrap (x.tdiv y)) () (MemIntr.idivmod4 c q a b none) s
    ∧ Puts c .i q (Kind.i.wrap (x.tdiv y)) () (MemIntr.idiv3 c q a b) s
    ∧ Puts c .i r (x.tmod y) () (MemIntr.irem3 c r a b) s
    ∧ Puts c .i a (Kind.i.wrap (x.tdiv y)) () (MemIntr.idiv2 c a b) s
    ∧ Puts c .i a (x.tmod y) () (MemIntr.irem2 c a b) s := by
  obtain ⟨u, hu, rfl⟩ := has_of_num_i ha
  obtain ⟨v, hv, rfl⟩ := has_of_num_i hb
  have e1 : (I256.ofInt c ((u.toInt c).tdiv (v.toInt c))).toInt c = _ := num_iofInt _
  have e2 : (I256.ofInt c ((u.toInt c).tmod (v.toInt c))).toInt c = (u.toInt c).tmod (v.toInt c) :=
    I256.toInt_ofInt_of_in c (num_tmod_in u v)
  refine ⟨puts2_i (MemIntr.idivmod4_some hu hv hq hr hn) ?_ hq hr hn e1 e2,
    puts_i (MemIntr.idivmod4_none hu hv hq) (Intr.idiv3_eq c hy) hq e1,
    puts_i (MemIntr.idivmod4_none hu hv hq) (Intr.idiv3_eq c hy) hq e1,
    puts_i (MemIntr.irem3_eq hu hv hr) (Intr.irem3_eq c hy) hr e2,
    puts_i (MemIntr.idiv2_eq hu hv) (Intr.idiv2_eq c hy) hu.lt e1,
    puts_i (MemIntr.irem2_eq hu hv) (Intr.irem2_eq c hy) hu.lt e2⟩
  have := Intr.idivmod4_eq c (a := u) (b := v) true hy
  rw [show (u.as_u256.as_i256) = u from rfl, show (v.as_u256.as_i256) = v from rfl, this]; rfl

example : let s := exMem dbg (-2 ^ 255 + 9) (-2 ^ 130)
    let s' := (MemIntr.idivmod4 dbg 2 0 1 (some 3) s).2
    s'.num dbg .i 2 = some (2 ^ 125 - 1) ∧ s'.num dbg .i 3 = some (9 - 2 ^ 130)
    ∧ (MemIntr.idiv2 dbg 0 1 (exMem dbg (-2 ^ 255) (-1))).2.num dbg .i 0 = some (-2 ^ 255) := by decide +kernel

/-- C54: signed division by zero panics before anything is written. -/
theorem C54_i256_division_by_zero {q : Loc} (ha : s.num c .i a = some x) (hb : s.num c .i b = some 0)
    (hq : q < s.length) (hr : r < s.length) (hn : q ≠ r) :
    PanicsUnchanged (MemIntr.idivmod4 c q a b (some r)) s
    ∧ PanicsUnchanged (MemIntr.idivmod4 c q a b none) s
    ∧ PanicsUnchanged (MemIntr.idiv3 c q a b) s ∧ PanicsUnchanged (MemIntr.irem3 c r a b) s
    ∧ PanicsUnchanged (MemIntr.idiv2 c a b) s ∧ PanicsUnchanged (MemIntr.irem2 c a b) s := by
  obtain ⟨u, hu, rfl⟩ := has_of_num_i ha
  obtain ⟨v, hv, h⟩ := has_of_num_i hb
  have h0 : v.toInt c = 0 := h.symm
  have e3 : Intr.idiv3 c u v = .error (.panic .divByZero) := Intr.idiv2_zero c h0
  have r3 : Intr.irem3 c u v = .error (.panic .divByZero) := Intr.irem2_zero c h0
  refine ⟨panics2_i (MemIntr.idivmod4_some hu hv hq hr hn) ⟨.divByZero, ?_⟩,
    panics_i (MemIntr.idivmod4_none hu hv hq) ⟨_, e3⟩, panics_i (MemIntr.idivmod4_none hu hv hq) ⟨_, e3⟩,
    panics_i (MemIntr.irem3_eq hu hv hr) ⟨_, r3⟩, panics_i (MemIntr.idiv2_eq hu hv) ⟨_, Intr.idiv2_zero c h0⟩,
    panics_i (MemIntr.irem2_eq hu hv) ⟨_, Intr.irem2_zero c h0⟩⟩
  rw [show (u.as_u256.as_i256) = u from rfl, show (v.as_u256.as_i256) = v from rfl, Intr.idivmod4_zero c true h0]; rfl

example : let s := exMem rel (-7) 0
    s.num rel .i 1 = some 0 ∧ MemIntr.idivmod4 rel 2 0 1 (some 3) s = (.error (.panic .divByZero), s) := by
  decide +kernel

/-- C54: shifts by less than 256, with an output object and in place. -/
theorem C54_shifts {z : Int} (ha : s.num c .u a = some x) (hb : s.num c .i b = some z) (hr : r < s.length) (n : U32)
    (hn : n.toNat < 256) :
    Puts c .u r ((x * 2 ^ n.toNat) % 2 ^ 256) () (MemIntr.shl3 c r a n) s
    ∧ Puts c .u r (x / 2 ^ n.toNat) () (MemIntr.shr3 c r a n) s
    ∧ Puts c .u a ((x * 2 ^ n.toNat) % 2 ^ 256) () (MemIntr.shl2 c a n) s
    ∧ Puts c .u a (x / 2 ^ n.toNat) () (MemIntr.shr2 c a n) s
    ∧ Puts c .i r (Kind.i.wrap (z * 2 ^ n.toNat)) () (MemIntr.ishl3 c r b n) s
    ∧ Puts c .i r (z / 2 ^ n.toNat) () (MemIntr.sar3 c r b n) s
    ∧ Puts c .i b (Kind.i.wrap (z * 2 ^ n.toNat)) () (MemIntr.ishl2 c b n) s
    ∧ Puts c .i b (z / 2 ^ n.toNat) () (MemIntr.sar2 c b n) s := by
  obtain ⟨u, hu, rfl⟩ := has_of_num_u ha
  obtain ⟨v, hv, rfl⟩ := has_of_num_i hb
  have lu := U256.toNat_lt c u
  have lv := I256.toInt_in c v
  have e1 : ((U256.ofNat c (u.toNat c * 2 ^ n.toNat)).toNat c : Int) = ((u.toNat c : Int) * 2 ^ n.toNat) % 2 ^ 256 := by
    rw [num_ofNat]; simp [Kind.wrap]
  have e2 : ((U256.ofNat c (u.toNat c / 2 ^ n.toNat)).toNat c : Int) = (u.toNat c : Int) / 2 ^ n.toNat := by
    rw [U256.toNat_ofNat_of_lt c (lt_of_le_of_lt (Nat.div_le_self _ _) lu), Int.natCast_ediv]; simp
  have e3 : (I256.ofInt c (v.toInt c * 2 ^ n.toNat)).toInt c = Kind.i.wrap (v.toInt c * 2 ^ n.toNat) := num_iofInt _
  have e4 : (I256.ofInt c (v.toInt c / 2 ^ n.toNat)).toInt c = v.toInt c / 2 ^ n.toNat :=
    I256.toInt_ofInt_of_in c (num_ediv_in v n.toNat)
  refine ⟨puts_u (MemIntr.shl3_eq hu hr n) (Intr.shl3_eq c u n hn) hr e1,
    puts_u (MemIntr.shr3_eq hu hr n) (Intr.shr3_eq c u n hn) hr e2,
    puts_u (MemIntr.shl2_eq hu n) (Intr.shl2_eq c u n hn) hu.lt e1,
    puts_u (MemIntr.shr2_eq hu n) (Intr.shr2_eq c u n hn) hu.lt e2,
    puts_i (e := Intr.ishl3 c v n) ?_ (Intr.ishl3_eq c v n hn) hr e3,
    puts_i (MemIntr.sar3_eq hv hr n) (Intr.sar3_eq c v n hn) hr e4,
    puts_i (e := Intr.ishl2 c v n) ?_ (Intr.ishl2_eq c v n hn) hv.lt e3,
    puts_i (MemIntr.sar2_eq hv n) (Intr.sar2_eq c v n hn) hv.lt e4⟩
  · rw [show MemIntr.ishl3 c = MemIntr.shl3 c from rfl, MemIntr.shl3_eq hv hr n]
    unfold Intr.ishl3
    cases Intr.shl3 c v.as_u256 n <;> rfl
  · rw [show MemIntr.ishl2 c = MemIntr.shl2 c from rfl, MemIntr.shl2_eq hv n]
    unfold Intr.ishl2
    cases Intr.shl2 c v.as_u256 n <;> rfl

example : let s := exMem dbg 5 (-2 ^ 200 - 1)
    (MemIntr.shl3 dbg 2 0 255 s).2.num dbg .u 2 = some (2 ^ 255) ∧ (MemIntr.shl2 dbg 0 0 s).2 = s
    ∧ (MemIntr.sar3 dbg 3 1 200 s).2.num dbg .i 3 = some (-2) ∧ (MemIntr.sar2 dbg 1 130 s).2.num dbg .i 1 = some (-2 ^ 70 - 1) := by
  decide +kernel

/-- C54: rotations. Bit `i` moves to bit `i + n` modulo 256 (left) or comes from there (right). With overflow checks
the native routines panic for an amount above 256 (C13). -/
theorem C54_u256_rotations (ha : s.num c .u a = some x) (hr : r < s.length) (n : U32)
    (h : c.overflowChecks = true → c.llvm = false → n.toNat ≤ 256) :
    (∃ z, Puts c .u r z () (MemIntr.rol3 c r a n) s
      ∧ ∀ i < 256, (BitVec.ofInt 256 z).getLsbD ((i + n.toNat) % 256) = (BitVec.ofInt 256 x).getLsbD i)
    ∧ (∃ z, Puts c .u r z () (MemIntr.ror3 c r a n) s
      ∧ ∀ i < 256, (BitVec.ofInt 256 z).getLsbD i = (BitVec.ofInt 256 x).getLsbD ((i + n.toNat) % 256)) := by
  obtain ⟨u, hu, rfl⟩ := has_of_num_u ha
  obtain ⟨l, h1, h2⟩ := rol3_bits c u n h
  obtain ⟨k, h3, h4⟩ := ror3_bits c u n h
  refine ⟨⟨_, puts_u (MemIntr.rol3_eq hu hr n) h1 hr rfl, fun i hi => ?_⟩,
    ⟨_, puts_u (MemIntr.ror3_eq hu hr n) h3 hr rfl, fun i hi => ?_⟩⟩
  · rw [getLsbD_num_u, getLsbD_num_u]; exact h2 i hi
  · rw [getLsbD_num_u, getLsbD_num_u]; exact h4 i hi

/-- C54: rotations of an `I256`, on its two's complement bits. -/
theorem C54_i256_rotations (ha : s.num c .i a = some x) (hr : r < s.length) (n : U32)
    (h : c.overflowChecks = true → c.llvm = false → n.toNat ≤ 256) :
    (∃ z, Puts c .i r z () (MemIntr.irol3 c r a n) s
      ∧ ∀ i < 256, (BitVec.ofInt 256 z).getLsbD ((i + n.toNat) % 256) = (BitVec.ofInt 256 x).getLsbD i)
    ∧ (∃ z, Puts c .i r z () (MemIntr.iror3 c r a n) s
      ∧ ∀ i < 256, (BitVec.ofInt 256 z).getLsbD i = (BitVec.ofInt 256 x).getLsbD ((i + n.toNat) % 256)) := by
  obtain ⟨u, hu, rfl⟩ := has_of_num_i ha
  obtain ⟨l, h1, h2⟩ := rol3_bits c u.as_u256 n h
  obtain ⟨k, h3, h4⟩ := ror3_bits c u.as_u256 n h
  refine ⟨⟨l.as_i256.toInt c, ?_, fun i hi => ?_⟩, ⟨k.as_i256.toInt c, ?_, fun i hi => ?_⟩⟩
  · refine puts_i (e := .ok l.as_i256) ?_ rfl hr rfl
    rw [show MemIntr.irol3 c = MemIntr.rol3 c from rfl, MemIntr.rol3_eq hu hr n, h1]; rfl
  · rw [getLsbD_num_i, getLsbD_num_i]; exact h2 i hi
  · refine puts_i (e := .ok k.as_i256) ?_ rfl hr rfl
    rw [show MemIntr.iror3 c = MemIntr.ror3 c from rfl, MemIntr.ror3_eq hu hr n, h3]; rfl
  · rw [getLsbD_num_i, getLsbD_num_i]; exact h4 i hi

example : (MemIntr.rol3 dbg 2 0 200 (exMem dbg (2 ^ 100) 0)).2.num dbg .u 2 = some (2 ^ 44)
    ∧ (MemIntr.iror3 dll 2 0 1000 (exMem dll (-2) 0)).2.num dll .i 2 = some (-2 ^ 24 - 1) := by decide +kernel

/-- C54: the operators and methods of the crate that work through references to the operands `a` and `b` return what
the result-valued model says (so every other property applies to them), and leave memory as it was, whether they return
or panic. `U256`. -/
theorem C54_u256_methods {x y : U256} (ha : s[a]? = some (Cell.ofU x)) (hb : s[b]? = some (Cell.ofU y)) (n : U32) :
    U256.addM c a b s = (x.add c y, s) ∧ U256.subM c a b s = (x.sub c y, s) ∧ U256.mulM c a b s = (x.mul c y, s)
    ∧ U256.divM c a b s = (x.div c y, s) ∧ U256.remM c a b s = (x.rem c y, s)
    ∧ U256.shlM c a n s = (x.shl c n, s) ∧ U256.shrM c a n s = (x.shr c n, s)
    ∧ U256.wrapping_addM c a b s = (.ok (x.wrapping_add c y), s)
    ∧ U256.wrapping_subM c a b s = (.ok (x.wrapping_sub c y), s)
    ∧ U256.wrapping_mulM c a b s = (x.wrapping_mul c y, s)
    ∧ U256.overflowing_addM c a b s = (.ok (x.overflowing_add c y), s)
    ∧ U256.overflowing_subM c a b s = (.ok (x.overflowing_sub c y), s)
    ∧ U256.overflowing_mulM c a b s = (x.overflowing_mul c y, s)
    ∧ U256.wrapping_shlM c a n s = (x.wrapping_shl c n, s) ∧ U256.wrapping_shrM c a n s = (x.wrapping_shr c n, s)
    ∧ U256.rotate_leftM c a n s = (x.rotate_left c n, s) ∧ U256.rotate_rightM c a n s = (x.rotate_right c n, s)
    ∧ U256.div_remM c a b s = (x.div_rem c y, s) :=
  ⟨U256.addM_eq ha hb, U256.subM_eq ha hb, U256.mulM_eq ha hb, U256.divM_eq ha hb, U256.remM_eq ha hb,
    U256.shlM_eq ha n, U256.shrM_eq ha n, U256.wrapping_addM_eq ha hb, U256.wrapping_subM_eq ha hb,
    U256.wrapping_mulM_eq ha hb, U256.overflowing_addM_eq ha hb, U256.overflowing_subM_eq ha hb,
    U256.overflowing_mulM_eq ha hb, U256.wrapping_shlM_eq ha n, U256.wrapping_shrM_eq ha n, U256.rotate_leftM_eq ha n,
    U256.rotate_rightM_eq ha n, U256.div_remM_eq ha hb⟩

example : let s := exMem dbg 1 2
    U256.addM dbg 0 1 s = (.ok (U256.ofNat dbg 3), s) ∧ U256.subM dbg 0 1 s = (.error (.panic .subOverflow), s)
    ∧ U256.addM dbg 1 1 s = (.ok (U256.ofNat dbg 4), s) := by decide +kernel

/-- C54: the same for `I256`. -/
theorem C54_i256_methods {x y : I256} (ha : s[a]? = some (Cell.ofI x)) (hb : s[b]? = some (Cell.ofI y)) (n : U32) :
    I256.addM c a b s = (x.add c y, s) ∧ I256.subM c a b s = (x.sub c y, s) ∧ I256.mulM c a b s = (x.mul c y, s)
    ∧ I256.divM c a b s = (x.div c y, s) ∧ I256.remM c a b s = (x.rem c y, s)
    ∧ I256.shlM c a n s = (x.shl c n, s) ∧ I256.shrM c a n s = (x.shr c n, s)
    ∧ I256.wrapping_addM c a b s = (.ok (x.wrapping_add c y), s)
    ∧ I256.wrapping_subM c a b s = (.ok (x.wrapping_sub c y), s)
    ∧ I256.wrapping_mulM c a b s = (x.wrapping_mul c y, s)
    ∧ I256.overflowing_addM c a b s = (.ok (x.overflowing_add c y), s)
    ∧ I256.overflowing_subM c a b s = (.ok (x.overflowing_sub c y), s)
    ∧ I256.overflowing_mulM c a b s = (x.overflowing_mul c y, s)
    ∧ I256.wrapping_shlM c a n s = (x.wrapping_shl c n, s) ∧ I256.wrapping_shrM c a n s = (x.wrapping_shr c n, s)
    ∧ I256.rotate_leftM c a n s = (x.rotate_left c n, s) ∧ I256.rotate_rightM c a n s = (x.rotate_right c n, s)
    ∧ I256.checked_divM c a b s = (x.checked_div c y, s) ∧ I256.checked_remM c a b s = (x.checked_rem c y, s)
    ∧ I256.wrapping_div_remM c a b s = (x.wrapping_div_rem c y, s)
    ∧ I256.checked_div_remM c a b s = (x.checked_div_rem c y, s) :=
  ⟨I256.addM_eq ha hb, I256.subM_eq ha hb, I256.mulM_eq ha hb, I256.divM_eq ha hb, I256.remM_eq ha hb,
    I256.shlM_eq ha n, I256.shrM_eq ha n, I256.wrapping_addM_eq ha hb, I256.wrapping_subM_eq ha hb,
    I256.wrapping_mulM_eq ha hb, I256.overflowing_addM_eq ha hb, I256.overflowing_subM_eq ha hb,
    I256.overflowing_mulM_eq ha hb, I256.wrapping_shlM_eq ha n, I256.wrapping_shrM_eq ha n, I256.rotate_leftM_eq ha n,
    I256.rotate_rightM_eq ha n, I256.checked_divM_eq ha hb, I256.checked_remM_eq ha hb,
    I256.wrapping_div_remM_eq ha hb, I256.checked_div_remM_eq ha hb⟩

example : let s : Mem := [Cell.ofI (I256.ofInt dbg (-7)), Cell.ofI (I256.ofInt dbg 2)]
    I256.divM dbg 0 1 s = (.ok (I256.ofInt dbg (-3)), s)
    ∧ I256.checked_div_remM dbg 0 1 s = (.ok (some (I256.ofInt dbg (-3), I256.ofInt dbg (-1))), s) := by decide +kernel

attribute [local irreducible] Assign.result in
/-- C55: `a op= &b` is all or nothing. The target gets the result and nothing else changes, or the call panics and
nothing at all has changed. -/
theorem C55_assign {k : Kind} (o : Assign) (ha : s.num c k a = some x) (hb : s.num c k b = some y) (hn : a ≠ b) :
    Effect c k a (o.result c.debugAssertions k x y) (o.run c a b k) s := by
  cases k with
  | u =>
    obtain ⟨u, hu, rfl⟩ := has_of_num_u ha
    obtain ⟨v, hv, rfl⟩ := has_of_num_u hb
    cases o with
    | add => exact effect_u (U256.add_assignM_eq hu hv hn) hu.lt (gives_add_u u v)
    | sub => exact effect_u (U256.sub_assignM_eq hu hv hn) hu.lt (gives_sub_u u v)
    | mul => exact effect_u (U256.mul_assignM_eq hu hv) hu.lt (gives_mul_u u v)
    | div => exact effect_u (U256.div_assignM_eq hu hv) hu.lt (gives_div_u u v)
    | rem => exact effect_u (U256.rem_assignM_eq hu hv) hu.lt (gives_rem_u u v)
    | and => exact effect_u (U256.bitand_assignM_eq hu hv hn) hu.lt (gives_and_u u v)
    | or => exact effect_u (U256.bitor_assignM_eq hu hv hn) hu.lt (gives_or_u u v)
    | xor => exact effect_u (U256.bitxor_assignM_eq hu hv hn) hu.lt (gives_xor_u u v)
  | i =>
    obtain ⟨u, hu, rfl⟩ := has_of_num_i ha
    obtain ⟨v, hv, rfl⟩ := has_of_num_i hb
    cases o with
    | add => exact effect_i (I256.add_assignM_eq hu hv hn) hu.lt (gives_add_i u v)
    | sub => exact effect_i (I256.sub_assignM_eq hu hv hn) hu.lt (gives_sub_i u v)
    | mul => exact effect_i (I256.mul_assignM_eq hu hv) hu.lt (gives_mul_i u v)
    | div => exact effect_i (I256.div_assignM_eq hu hv) hu.lt (gives_div_i u v)
    | rem => exact effect_i (I256.rem_assignM_eq hu hv) hu.lt (gives_rem_i u v)
    | and => exact effect_i (I256.bitand_assignM_eq hu hv hn) hu.lt (gives_and_i u v)
    | or => exact effect_i (I256.bitor_assignM_eq hu hv hn) hu.lt (gives_or_i u v)
    | xor => exact effect_i (I256.bitxor_assignM_eq hu hv hn) hu.lt (gives_xor_i u v)

example : let s := exMem dbg (2 ^ 256 - 1) 1
    Assign.result true .u (2 ^ 256 - 1) 1 .add = none ∧ Assign.result false .u (2 ^ 256 - 1) 1 .add = some 0
    ∧ Assign.run dbg 0 1 .u .add s = (.error (.panic .addOverflow), s)
    ∧ (Assign.run rel 0 1 .u .add (exMem rel (2 ^ 256 - 1) 1)).2.num rel .u 0 = some 0
    ∧ (Assign.run dbg 0 1 .u .sub s).2.num dbg .u 0 = some (2 ^ 256 - 2)
    ∧ (Assign.run dbg 0 1 .i .xor s).2.num dbg .i 0 = some (-2) := by decide +kernel

/-- C55: `a op= b`, where the operand is passed by value; here `b` may be `a` itself. -/
theorem C55_assign_by_value {k : Kind} (o : Assign) (ha : s.num c k a = some x) (hb : s.num c k b = some y) :
    Effect c k a (o.result c.debugAssertions k x y) (o.runVal c a b k) s := by
  obtain ⟨v, hv⟩ := has_of_num hb
  obtain ⟨u, hu⟩ := has_of_num ha
  have hy : (s ++ [Cell.ofU v]).num c k s.length = some y := by
    rw [← hb]; unfold Mem.num; unfold Has at hv; simp [hv]
  have h := C55_assign (c := c) (s := s ++ [Cell.ofU v]) o (num_append ha) hy (Nat.ne_of_lt hu.lt)
  have := effect_local (op := fun b' => o.run c a b' k) h hu.lt
  unfold Assign.runVal MemOps.byValue
  refine effect_congr ?_ this
  rw [M.bind_apply, rd_of hv]

example : let s := exMem dbg 5 7
    (Assign.runVal dbg 0 0 .u .mul s).2.num dbg .u 0 = some 25 ∧ (Assign.runVal dbg 0 0 .u .sub s).2.num dbg .u 0 = some 0
    ∧ (Assign.runVal dbg 0 0 .u .rem s).2.num dbg .u 0 = some 0 ∧ (Assign.runVal dbg 0 0 .u .add s).2.length = 4
    ∧ (Assign.runVal rel 0 0 .i .add (exMem rel (-5) 7)).2.num rel .i 0 = some (-10) := by
  decide +kernel

/-- C55: `a <<= n` and `a >>= n`. From 256 on, a build with debug assertions panics and changes nothing; one without
shifts by the amount that C12 gives. -/
theorem C55_shift_assign {z : Int} (ha : s.num c .u a = some x) (hb : s.num c .i b = some z) (n : U32) :
    (n.toNat < 256 ∨ c.debugAssertions = false →
      Puts c .u a ((x * 2 ^ releaseShift c n.toNat) % 2 ^ 256) () (U256.shl_assignM c a n) s
      ∧ Puts c .u a (x / 2 ^ releaseShift c n.toNat) () (U256.shr_assignM c a n) s
      ∧ Puts c .i b (Kind.i.wrap (z * 2 ^ releaseShift c n.toNat)) () (I256.shl_assignM c b n) s
      ∧ Puts c .i b (z / 2 ^ releaseShift c n.toNat) () (I256.shr_assignM c b n) s)
    ∧ (n.toNat < 256 → releaseShift c n.toNat = n.toNat)
    ∧ (¬ n.toNat < 256 ∧ c.debugAssertions = true →
      PanicsUnchanged (U256.shl_assignM c a n) s ∧ PanicsUnchanged (U256.shr_assignM c a n) s
      ∧ PanicsUnchanged (I256.shl_assignM c b n) s ∧ PanicsUnchanged (I256.shr_assignM c b n) s) := by
  obtain ⟨u, hu, rfl⟩ := has_of_num_u ha
  obtain ⟨v, hv, rfl⟩ := has_of_num_i hb
  have lu := U256.toNat_lt c u
  have lv := I256.toInt_in c v
  have val : (ShiftBy.prim (c := c) .u32 n).value = n.toNat := rfl
  have a1 : u.shl_assign c n = u.shlBy c (.prim .u32 n) := by
    have h := (C26_u256 c u u (.prim .u32 n)).2.2.2.2.2.1
    rw [← h]; unfold U256.shlAssignBy; rw [amount_u32]
  have a2 : u.shr_assign c n = u.shrBy c (.prim .u32 n) := by
    have h := (C26_u256 c u u (.prim .u32 n)).2.2.2.2.2.2.1
    rw [← h]; unfold U256.shrAssignBy; rw [amount_u32]
  have a3 : v.shl_assign c n = v.shlBy c (.prim .u32 n) := by
    have h := (C26_i256 c v v (.prim .u32 n)).2.2.2.2.2.1
    rw [← h]; unfold I256.shlAssignBy; rw [amount_u32]
  have a4 : v.shr_assign c n = v.shrBy c (.prim .u32 n) := by
    have h := (C26_i256 c v v (.prim .u32 n)).2.2.2.2.2.2.1
    rw [← h]; unfold I256.shrAssignBy; rw [amount_u32]
  have hs : n.toNat < 256 → releaseShift c n.toNat = n.toNat := fun h => by
    unfold releaseShift; rw [if_pos (.inr (by omega))]; omega
  refine ⟨fun h => ?_, hs, fun h => ?_⟩
  · obtain ⟨s1, s2, s3, s4⟩ : u.shlBy c (.prim .u32 n) = .ok (U256.ofNat c (u.toNat c * 2 ^ releaseShift c n.toNat))
        ∧ u.shrBy c (.prim .u32 n) = .ok (U256.ofNat c (u.toNat c / 2 ^ releaseShift c n.toNat))
        ∧ v.shlBy c (.prim .u32 n) = .ok (I256.ofInt c (v.toInt c * 2 ^ releaseShift c n.toNat))
        ∧ v.shrBy c (.prim .u32 n) = .ok (I256.ofInt c (v.toInt c / 2 ^ releaseShift c n.toNat)) := by
      by_cases hn : n.toNat < 256
      · rw [hs hn]
        exact C12_in_range c u v (.prim .u32 n) (by rw [val]; omega) (by rw [val]; omega)
      · exact C12_release c (h.resolve_left hn) u v (.prim .u32 n)
    generalize releaseShift c n.toNat = k at *
    refine ⟨puts_u (U256.shl_assignM_eq hu n) (a1.trans s1) hu.lt ?_, puts_u (U256.shr_assignM_eq hu n) (a2.trans s2) hu.lt ?_,
      puts_i (I256.shl_assignM_eq hv n) (a3.trans s3) hv.lt (num_iofInt _),
      puts_i (I256.shr_assignM_eq hv n) (a4.trans s4) hv.lt ?_⟩
    · rw [num_ofNat]; simp [Kind.wrap]
    · rw [U256.toNat_ofNat_of_lt c (lt_of_le_of_lt (Nat.div_le_self _ _) lu), Int.natCast_ediv]; simp
    · exact I256.toInt_ofInt_of_in c (num_ediv_in v k)
  · obtain ⟨p1, p2, p3, p4⟩ := C12_debug c h.2 u v (.prim .u32 n) (by rw [val]; omega)
    rw [← a1] at p1; rw [← a2] at p2; rw [← a3] at p3; rw [← a4] at p4
    exact ⟨panics_u (U256.shl_assignM_eq hu n) p1, panics_u (U256.shr_assignM_eq hu n) p2,
      panics_i (I256.shl_assignM_eq hv n) p3, panics_i (I256.shr_assignM_eq hv n) p4⟩

example : let s := exMem rel 5 (-9)
    (U256.shl_assignM rel 0 3 s).2.num rel .u 0 = some 40 ∧ (I256.shr_assignM rel 1 1 s).2.num rel .i 1 = some (-5)
    ∧ (U256.shl_assignM rel 0 256 s).2.num rel .u 0 = some (5 * 2 ^ 128)
    ∧ (U256.shl_assignM rll 0 256 (exMem rll 5 0)).2.num rll .u 0 = some 5
    ∧ U256.shl_assignM dbg 0 256 (exMem dbg 5 0) = (.error (.panic .shlOverflow), exMem dbg 5 0) := by decide +kernel

/-- C55: histories. A sequence of assignments to variables, of any length, stops at the first statement that panics.
Whatever happens, the variables then hold what the statements before it computed: no statement leaves a half-written or
otherwise changed variable behind. The run panics exactly if some statement does. -/
theorem C55_history (k : Kind) (prog : List Stmt) (s : Mem) (vs : List Int) (hs : s.map (Cell.num c k) = vs.map some)
    (hp : ∀ t ∈ prog, t.Below vs.length) :
    ∃ res s', runAll c k prog s = (res, s')
      ∧ s'.map (Cell.num c k) = (history c.debugAssertions k vs prog).1.map some
      ∧ ((history c.debugAssertions k vs prog).2 = true → res = .ok ())
      ∧ ((history c.debugAssertions k vs prog).2 = false → Panics res) := by
  induction prog generalizing s vs with
  | nil => exact ⟨_, _, rfl, hs, fun _ => rfl, fun h => absurd h (by simp [history])⟩
  | cons t ts ih =>
    have ht := hp t (List.mem_cons_self ..)
    have h1 : ∃ d e, Effect c k d e (t.run c k) s ∧ t.effect c.debugAssertions k vs = e.map (vs.set d) := by
      have hnum : ∀ p < vs.length, s.num c k p = some (vs.getD p 0) := fun p hl => num_of_map hs hl
      cases t with
      | op o d v => exact ⟨d, _, C55_assign_by_value o (hnum d ht.1) (hnum v ht.2), rfl⟩
      | shl d n =>
        have hn : (BitVec.ofNat 32 n.val).toNat = n.val := by rw [BitVec.toNat_ofNat]; omega
        have hx := hnum d ht
        obtain ⟨xu, hxu⟩ := num_other .u hx
        obtain ⟨xi, hxi⟩ := num_other .i hx
        obtain ⟨h1, h2, _⟩ := C55_shift_assign hxu hxi (BitVec.ofNat 32 n.val)
        have h1 := h1 (.inl (by omega))
        rw [h2 (by omega), hn] at h1
        cases k with
        | u =>
          obtain rfl : xu = vs.getD d 0 := Option.some.inj (hxu.symm.trans hx)
          exact ⟨d, some _, h1.1, rfl⟩
        | i =>
          obtain rfl : xi = vs.getD d 0 := Option.some.inj (hxi.symm.trans hx)
          exact ⟨d, some _, h1.2.2.1, rfl⟩
      | shr d n =>
        have hn : (BitVec.ofNat 32 n.val).toNat = n.val := by rw [BitVec.toNat_ofNat]; omega
        have hx := hnum d ht
        obtain ⟨xu, hxu⟩ := num_other .u hx
        obtain ⟨xi, hxi⟩ := num_other .i hx
        obtain ⟨h1, h2, _⟩ := C55_shift_assign hxu hxi (BitVec.ofNat 32 n.val)
        have h1 := h1 (.inl (by omega))
        rw [h2 (by omega), hn] at h1
        cases k with
        | u =>
          obtain rfl : xu = vs.getD d 0 := Option.some.inj (hxu.symm.trans hx)
          exact ⟨d, some _, h1.2.1, rfl⟩
        | i =>
          obtain rfl : xi = vs.getD d 0 := Option.some.inj (hxi.symm.trans hx)
          exact ⟨d, some _, h1.2.2.2, rfl⟩
    obtain ⟨d, e, he, hf⟩ := h1
    unfold runAll history
    rw [M.bind_apply, hf]
    cases e with
    | none =>
      obtain ⟨p, hm⟩ := he
      rw [hm]
      exact ⟨_, _, rfl, hs, fun h => absurd h (by simp), fun _ => ⟨p, rfl⟩⟩
    | some z =>
      obtain ⟨s', hm, hz, hx⟩ := he
      rw [hm]
      exact ih s' (vs.set d z) (map_of_puts hs hz hx)
        (fun t h => by rw [List.length_set]; exact hp t (List.mem_cons_of_mem _ h))

/-- Three variables; the fourth statement overflows in a debug build, after the first three have been carried out. -/
def exHistory : List Stmt := [.op .add 0 0, .shl 1 10, .op .mul 0 1, .op .sub 2 0, .op .rem 1 2]

example : let s : Mem := [5, 3, 9].map fun n => Cell.ofU (U256.ofNat dbg n)
    let r : Mem := [5, 3, 9].map fun n => Cell.ofU (U256.ofNat rel n)
    s.map (Cell.num dbg .u) = [5, 3, 9].map some ∧ (∀ t ∈ exHistory, t.Below 3)
    ∧ history true .u [5, 3, 9] exHistory = ([30720, 3072, 9], false)
    ∧ history false .u [5, 3, 9] exHistory = ([30720, 3072, 9 - 30720 + 2 ^ 256], true)
    ∧ (runAll dbg .u exHistory s).1 = .error (.panic .subOverflow)
    ∧ (runAll dbg .u exHistory s).2.map (Cell.num dbg .u) = [some 30720, some 3072, some 9]
    ∧ (runAll rel .u exHistory r).1 = .ok ()
    ∧ (runAll rel .u exHistory r).2.map (Cell.num rel .u) = [some 30720, some 3072, some (9 - 30720 + 2 ^ 256)]
    ∧ history true .i [5, 3, 9] exHistory = ([30720, 3072, 9 - 30720], true) := by decide +kernel

end Ethnum
