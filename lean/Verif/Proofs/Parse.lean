import Verif.Model.Parse
import Verif.Proofs.Ops
import Verif.Proofs.Convert
import Verif.Props.UArith
import Verif.Props.IArith

namespace Ethnum

/-- What the code relies on for `T`: the values are the integers from `-lo` to `hi`. -/
structure RadixDom {T : Type} (h : RadixHelper T) (lo hi : Nat) where
  val : T → Int
  of : Int → T
  val_of : ∀ z, -(lo : Int) ≤ z → z ≤ hi → val (of z) = z
  mul_ok : ∀ a b, -(lo : Int) ≤ val a * val b → val a * val b ≤ hi → h.mul a b = .ok (of (val a * val b))
  add_ok : ∀ a b, -(lo : Int) ≤ val a + val b → val a + val b ≤ hi → h.add a b = .ok (of (val a + val b))
  sub_ok : ∀ a b, -(lo : Int) ≤ val a - val b → val a - val b ≤ hi → h.sub a b = .ok (of (val a - val b))
  from_u32 : ∀ u, h.from_u32 u = of u.toNat
  u32_le : (2 : Nat) ^ 32 ≤ hi
  checked_mul : ∀ a u, h.checked_mul a u
    = .ok (if -(lo : Int) ≤ val a * u.toNat ∧ val a * u.toNat ≤ hi then some (of (val a * u.toNat)) else none)
  checked_add : ∀ a u, h.checked_add a u
    = if -(lo : Int) ≤ val a + u.toNat ∧ val a + u.toNat ≤ hi then some (of (val a + u.toNat)) else none
  checked_sub : ∀ a u, h.checked_sub a u
    = if -(lo : Int) ≤ val a - u.toNat ∧ val a - u.toNat ≤ hi then some (of (val a - u.toNat)) else none
  signed : h.gt (h.from_u32 0) h.MIN = decide (0 < lo)

/-- Reading digits from left to right, with the number read so far and the greatest magnitude allowed. -/
def scan (bound r : Nat) (err : IntErrorKind) : List U8 → Nat → ParseResult Nat
  | [], v => .ok v
  | b :: l, v =>
    match toDigit b r with
    | none => .error .invalidDigit
    | some x => if bound < v * r + x then .error err else scan bound r err l (v * r + x)

theorem toDigit_lt {b : U8} {r x : Nat} (h : toDigit b r = some x) : x < r := by
  unfold toDigit at h
  dsimp only at h
  split at h
  · split at h
    · cases h; assumption
    · cases h
  · cases h

/-- `±v`. -/
def sgn (neg : Bool) (v : Nat) : Int := if neg then -(v : Int) else v

theorem sgn_mul (neg : Bool) (v r : Nat) : sgn neg v * (r : Int) = sgn neg (v * r) := by
  unfold sgn; split <;> push_cast <;> simp

section
variable {T : Type} {h : RadixHelper T} {lo hi : Nat} (D : RadixDom h lo hi)

theorem sgn_range {neg : Bool} {v : Nat} (hv : v ≤ if neg then lo else hi) :
    -(lo : Int) ≤ sgn neg v ∧ sgn neg v ≤ hi := by
  unfold sgn; cases neg <;> simp at hv ⊢ <;> omega

theorem sgn_range_iff {neg : Bool} {v : Nat} :
    (-(lo : Int) ≤ sgn neg v ∧ sgn neg v ≤ hi) ↔ v ≤ if neg then lo else hi := by
  unfold sgn; cases neg <;> simp

include D

theorem val_u32 (x : Nat) (hx : x < 2 ^ 32) : D.val (h.from_u32 (u32 x)) = x := by
  have := D.u32_le
  rw [D.from_u32, toNat_u32 hx]
  exact D.val_of _ (by omega) (by omega)

theorem unchecked_eq (neg : Bool) (r : U32) (hr : r.toNat ≤ 36) (hr0 : 0 < r.toNat) (err : IntErrorKind) :
    ∀ (l : List U8) (v : Nat), (v + 1) * r.toNat ^ l.length ≤ (if neg then lo else hi) + 1
      → uncheckedLoop h (if neg then h.sub else h.add) r l (D.of (sgn neg v))
        = .ok ((scan (if neg then lo else hi) r.toNat err l v).map (fun w => D.of (sgn neg w))) := by
  have hu := D.u32_le
  have hrv : D.val (h.from_u32 r) = r.toNat := by
    rw [D.from_u32]; exact D.val_of _ (by omega) (by have := r.isLt; omega)
  intro l
  induction l with
  | nil => intro v _; rfl
  | cons b l ih =>
    intro v hv
    rw [List.length_cons, Nat.pow_succ, ← Nat.mul_assoc, Nat.mul_right_comm] at hv
    have hmono : ∀ x < r.toNat, (v * r.toNat + x + 1) * r.toNat ^ l.length ≤ (if neg then lo else hi) + 1 := fun x hx => by
      refine Nat.le_trans (Nat.mul_le_mul_right _ ?_) hv
      rw [Nat.add_mul]; omega
    unfold uncheckedLoop scan
    have hp := Nat.pow_pos (n := l.length) hr0
    have hle : ∀ x < r.toNat, v * r.toNat + x ≤ if neg then lo else hi := fun x hx => by
      have h1 := hmono x hx
      have h2 : (v * r.toNat + x + 1) * 1 ≤ (v * r.toNat + x + 1) * r.toNat ^ l.length := Nat.mul_le_mul_left _ hp
      omega
    have hm := hle 0 (by omega)
    have hv0 : v ≤ if neg then lo else hi := by
      refine Nat.le_trans ?_ hm
      rw [Nat.add_zero]; exact Nat.le_mul_of_pos_right _ (by omega)
    have hvm : D.val (D.of (sgn neg v)) = sgn neg v := D.val_of _ (sgn_range hv0).1 (sgn_range hv0).2
    have hmul : h.mul (D.of (sgn neg v)) (h.from_u32 r) = .ok (D.of (sgn neg (v * r.toNat))) := by
      have := sgn_range (lo := lo) (hi := hi) (neg := neg) (v := v * r.toNat) hm
      rw [D.mul_ok _ _ (by rw [hvm, hrv, sgn_mul]; exact this.1) (by rw [hvm, hrv, sgn_mul]; exact this.2),
        hvm, hrv, sgn_mul]
    rw [hmul, ok_bind]
    cases hd : toDigit b r.toNat with
    | none => rfl
    | some x =>
      have hx := toDigit_lt hd
      have hx2 := hle x hx
      dsimp only
      rw [if_neg (show ¬ (if neg = true then lo else hi) < v * r.toNat + x by omega)]
      have hvm2 : D.val (D.of (sgn neg (v * r.toNat))) = sgn neg (v * r.toNat) :=
        D.val_of _ (sgn_range hm).1 (sgn_range hm).2
      have hs := sgn_range (lo := lo) (hi := hi) (neg := neg) hx2
      have hop : (if neg then h.sub else h.add) (D.of (sgn neg (v * r.toNat))) (h.from_u32 (u32 x))
          = .ok (D.of (sgn neg (v * r.toNat + x))) := by
        cases neg with
        | true =>
          have e : sgn true (v * r.toNat) - (x : Int) = sgn true (v * r.toNat + x) := by
            simp only [sgn, if_true]; push_cast; omega
          rw [if_pos rfl, D.sub_ok _ _ (by rw [hvm2, val_u32 D x (by omega), e]; exact hs.1)
            (by rw [hvm2, val_u32 D x (by omega), e]; exact hs.2), hvm2, val_u32 D x (by omega), e]
        | false =>
          have e : sgn false (v * r.toNat) + (x : Int) = sgn false (v * r.toNat + x) := by
            simp only [sgn, Bool.false_eq_true, if_false]; push_cast; omega
          rw [if_neg (by simp), D.add_ok _ _ (by rw [hvm2, val_u32 D x (by omega), e]; exact hs.1)
            (by rw [hvm2, val_u32 D x (by omega), e]; exact hs.2), hvm2, val_u32 D x (by omega), e]
      rw [hop, ok_bind]
      exact ih _ (hmono x hx)

theorem checked_eq (neg : Bool) (r : U32) (hr : r.toNat ≤ 36) (hr0 : 0 < r.toNat) (err : IntErrorKind) :
    ∀ (l : List U8) (v : Nat), v ≤ (if neg then lo else hi)
      → checkedLoop h (if neg then h.checked_sub else h.checked_add) err r l (D.of (sgn neg v))
        = .ok ((scan (if neg then lo else hi) r.toNat err l v).map (fun w => D.of (sgn neg w))) := by
  intro l
  induction l with
  | nil => intro v _; rfl
  | cons b l ih =>
    intro v hv
    unfold checkedLoop scan
    have hvm : D.val (D.of (sgn neg v)) = sgn neg v := D.val_of _ (sgn_range hv).1 (sgn_range hv).2
    rw [D.checked_mul, ok_bind, hvm, sgn_mul]
    cases hd : toDigit b r.toNat with
    | none => rfl
    | some x =>
      have hx := toDigit_lt hd
      dsimp only
      by_cases hm : v * r.toNat ≤ if neg then lo else hi
      · rw [if_pos (sgn_range hm)]
        dsimp only
        have hvm2 : D.val (D.of (sgn neg (v * r.toNat))) = sgn neg (v * r.toNat) :=
          D.val_of _ (sgn_range hm).1 (sgn_range hm).2
        have hop : (if neg then h.checked_sub else h.checked_add) (D.of (sgn neg (v * r.toNat))) (u32 x)
            = if v * r.toNat + x ≤ (if neg then lo else hi) then some (D.of (sgn neg (v * r.toNat + x))) else none := by
          cases neg with
          | true =>
            have e : sgn true (v * r.toNat) - (x : Int) = sgn true (v * r.toNat + x) := by
              simp only [sgn, if_true]; push_cast; omega
            rw [if_pos rfl, D.checked_sub, hvm2, toNat_u32 (by omega), e]
            simp only [sgn_range_iff]
          | false =>
            have e : sgn false (v * r.toNat) + (x : Int) = sgn false (v * r.toNat + x) := by
              simp only [sgn, Bool.false_eq_true, if_false]; push_cast; omega
            rw [if_neg (by simp), D.checked_add, hvm2, toNat_u32 (by omega), e]
            simp only [sgn_range_iff]
        rw [hop]
        by_cases h2 : v * r.toNat + x ≤ if neg then lo else hi
        · rw [if_pos h2, if_neg (show ¬ (if neg = true then lo else hi) < v * r.toNat + x by omega)]
          exact ih _ h2
        · rw [if_neg h2, if_pos (show (if neg = true then lo else hi) < v * r.toNat + x by omega)]; rfl
      · rw [if_neg (mt sgn_range_iff.1 hm), if_pos (show (if neg = true then lo else hi) < v * r.toNat + x by omega)]; rfl

end

/-- The sign of a string and what follows it; `-` counts only for a signed type. -/
def signSplit (signed : Bool) : List U8 → Bool × List U8
  | [] => (false, [])
  | b :: l => if b = 43 then (false, l) else if b = 45 ∧ signed = true then (true, l) else (false, b :: l)

/-- What parsing amounts to. -/
def parseSpec {T : Type} (lo hi : Nat) (of : Int → T) (pfx : List U8) (r : Nat) (s : List U8) : ParseResult T :=
  if s = [] then .error .empty
  else
    match stripPrefix pfx (signSplit (decide (0 < lo)) s).2 with
    | none => .error .invalidDigit
    | some d =>
      if d = [] then .error .invalidDigit
      else
        let neg := (signSplit (decide (0 < lo)) s).1
        (scan (if neg then lo else hi) r (if neg then .negOverflow else .posOverflow) d 0).map (fun w => of (sgn neg w))

theorem stripPrefix_nil (pfx : List U8) : stripPrefix pfx [] = none ∨ stripPrefix pfx [] = some [] := by
  unfold stripPrefix; rw [List.take_nil, List.drop_nil]; split <;> simp

theorem parse_eq {T : Type} {h : RadixHelper T} {lo hi : Nat} (D : RadixDom h lo hi)
    (hb : ∀ neg, (neg = true → 0 < lo) → 16 ^ (64 - (decide (0 < lo)).toNat) ≤ (if neg then lo else hi) + 1)
    (s : List U8) (r : U32) (pfx : Option (List U8)) (hr : 2 ≤ r.toNat ∧ r.toNat ≤ 36) :
    from_str_radix h s r pfx = .ok (parseSpec lo hi D.of (pfx.getD []) r.toNat s) := by
  unfold from_str_radix
  rw [if_neg (not_not.2 hr)]
  cases s with
  | nil => rfl
  | cons first rest =>
    have hstrip : ∀ l, prefixDigits pfx l = stripPrefix (pfx.getD []) l := by
      intro l; cases pfx with
      | none => simp [stripPrefix, prefixDigits]
      | some p => rfl
    dsimp only
    rw [D.signed]
    generalize hp : pfx.getD [] = p
    unfold parseSpec
    rw [if_neg (show ¬ first :: rest = [] by simp)]
    -- the two loops
    have main : ∀ (neg : Bool) (d : List U8), (neg = true → 0 < lo) → d ≠ [] →
        (if can_not_overflow r (decide (0 < lo)) d = true then
            (if (!neg) = true then uncheckedLoop h h.add r d (h.from_u32 0) else uncheckedLoop h h.sub r d (h.from_u32 0))
          else if (!neg) = true then checkedLoop h h.checked_add .posOverflow r d (h.from_u32 0)
            else checkedLoop h h.checked_sub .negOverflow r d (h.from_u32 0))
        = .ok ((scan (if neg then lo else hi) r.toNat (if neg then .negOverflow else .posOverflow) d 0).map
            (fun w => D.of (sgn neg w))) := by
      intro neg d hneg hd
      have h0 : h.from_u32 0 = D.of (sgn neg 0) := by rw [D.from_u32]; cases neg <;> rfl
      rw [h0]
      by_cases hc : can_not_overflow r (decide (0 < lo)) d = true
      · rw [if_pos hc]
        unfold can_not_overflow at hc
        rw [Bool.and_eq_true, decide_eq_true_eq, decide_eq_true_eq] at hc
        have hle : (0 + 1) * r.toNat ^ d.length ≤ (if neg then lo else hi) + 1 := by
          rw [Nat.zero_add, Nat.one_mul]
          refine Nat.le_trans (Nat.pow_le_pow_left hc.1 _) (Nat.le_trans (Nat.pow_le_pow_right (by omega) hc.2) ?_)
          exact hb neg hneg
        have := unchecked_eq D neg r hr.2 (by omega) (if neg then .negOverflow else .posOverflow) d 0 hle
        cases neg
        · rw [if_pos (show (!false) = true from rfl)]; exact this
        · rw [if_neg (show ¬ (!true) = true by simp)]; exact this
      · rw [if_neg hc]
        have := checked_eq D neg r hr.2 (by omega) (if neg then .negOverflow else .posOverflow) d 0 (Nat.zero_le _)
        cases neg
        · rw [if_pos (show (!false) = true from rfl)]; exact this
        · rw [if_neg (show ¬ (!true) = true by simp)]; exact this
    have main2 : ∀ (neg : Bool) (l : List U8), (neg = true → 0 < lo) →
        (match stripPrefix p l with
          | none => (pure (.error .invalidDigit) : Res (ParseResult T))
          | some digits =>
            if digits.isEmpty = true then pure (.error .invalidDigit)
            else if can_not_overflow r (decide (0 < lo)) digits = true then
              (if (!neg) = true then uncheckedLoop h h.add r digits (h.from_u32 0)
                else uncheckedLoop h h.sub r digits (h.from_u32 0))
            else if (!neg) = true then checkedLoop h h.checked_add .posOverflow r digits (h.from_u32 0)
              else checkedLoop h h.checked_sub .negOverflow r digits (h.from_u32 0))
        = .ok (match stripPrefix p l with
          | none => .error .invalidDigit
          | some d =>
            if d = [] then .error .invalidDigit
            else (scan (if neg then lo else hi) r.toNat (if neg then .negOverflow else .posOverflow) d 0).map
              (fun w => D.of (sgn neg w))) := by
      intro neg l hneg
      cases stripPrefix p l with
      | none => rfl
      | some d =>
        dsimp only
        by_cases hd : d = []
        · rw [if_pos (by simp [hd]), if_pos hd]; rfl
        · rw [if_neg (by simpa using hd), if_neg hd]; exact main neg d hneg hd
    by_cases h43 : first = 43
    · have hsp : signSplit (decide (0 < lo)) (first :: rest) = (false, rest) := by
        unfold signSplit; dsimp only; rw [if_pos h43]
      rw [hsp]
      by_cases hrest : rest = []
      · rw [if_pos ⟨Or.inl h43, hrest⟩]
        subst hrest
        rcases stripPrefix_nil p with e | e <;> dsimp only <;> rw [e] <;> rfl
      · rw [if_neg (fun hh => hrest hh.2), if_pos h43]
        dsimp only
        rw [hstrip, hp]
        exact main2 false rest (by simp)
    · by_cases h45 : first = 45
      · by_cases hs : 0 < lo
        · have hsp : signSplit (decide (0 < lo)) (first :: rest) = (true, rest) := by
            unfold signSplit; dsimp only; rw [if_neg h43, if_pos ⟨h45, decide_eq_true hs⟩]
          rw [hsp]
          by_cases hrest : rest = []
          · rw [if_pos ⟨Or.inr h45, hrest⟩]
            subst hrest
            rcases stripPrefix_nil p with e | e <;> dsimp only <;> rw [e] <;> rfl
          · rw [if_neg (fun hh => hrest hh.2), if_neg h43, if_pos ⟨h45, decide_eq_true hs⟩]
            dsimp only
            rw [hstrip, hp]
            exact main2 true rest (fun _ => hs)
        · have hns : ¬ (first = 45 ∧ decide (0 < lo) = true) := fun hh => hs (of_decide_eq_true hh.2)
          have hsp : signSplit (decide (0 < lo)) (first :: rest) = (false, first :: rest) := by
            unfold signSplit; dsimp only; rw [if_neg h43, if_neg hns]
          rw [hsp]
          by_cases hrest : rest = []
          · rw [if_pos ⟨Or.inr h45, hrest⟩]
            subst hrest h45
            dsimp only
            have hz : ∀ b e, scan b r.toNat e [45] 0 = .error .invalidDigit := by
              intro b e; unfold scan
              have : toDigit 45 r.toNat = none := rfl
              rw [this]
            have e : stripPrefix p [(45 : U8)] = some [45] ∨ stripPrefix p [(45 : U8)] = none
                ∨ stripPrefix p [(45 : U8)] = some [] := by
              cases p with
              | nil => left; rfl
              | cons a t =>
                unfold stripPrefix; split
                · right; right; simp
                · right; left; rfl
            rcases e with e | e | e
            · rw [e]; dsimp only; rw [if_neg (by simp), hz]; rfl
            · rw [e]; rfl
            · rw [e]; rfl
          · rw [if_neg (fun hh => hrest hh.2), if_neg h43, if_neg hns]
            dsimp only
            rw [hstrip, hp]
            exact main2 false _ (by simp)
      · have hsp : signSplit (decide (0 < lo)) (first :: rest) = (false, first :: rest) := by
          unfold signSplit; dsimp only; rw [if_neg h43, if_neg (fun hh => h45 hh.1)]
        rw [hsp, if_neg (fun hh => hh.1.elim h43 h45), if_neg h43, if_neg (fun hh => h45 hh.1)]
        dsimp only
        rw [hstrip, hp]
        exact main2 false _ (by simp)

/-! ### The two types -/

theorem toInt_u32 (c : Cfg) (u : U32) : PrimTy.toInt (c := c) .u32 u = u.toNat := rfl

namespace U256

theorem from_u32_eq (c : Cfg) (u : U32) : from_prim c .u32 u = ofInt c u.toNat := by
  have := from_prim_eq c .u32 u (by rw [toInt_u32]; omega)
  exact this

/-- The operations the parser uses on `U256`. -/
def radixDom (c : Cfg) : RadixDom (radixHelper c) 0 (2 ^ 256 - 1) where
  val := fun x => x.toNat c
  of := ofInt c
  val_of := fun z h1 h2 => toNat_ofInt_of_range c (by omega) (by omega)
  mul_ok := fun a b h1 h2 => by
    have e : ((a.toNat c * b.toNat c : Nat) : Int) = (a.toNat c : Int) * b.toNat c := by push_cast; rfl
    show mul c a b = _
    rw [mul_eq, if_neg (by rw [← e] at h2; omega), ← ofInt_natCast, e]
  add_ok := fun a b h1 h2 => by
    show add c a b = _
    rw [add_eq, if_neg (by omega), ← ofInt_natCast, Int.natCast_add]
  sub_ok := fun a b h1 h2 => by
    show sub c a b = _
    rw [sub_eq, if_neg (by omega)]
  from_u32 := fun u => from_u32_eq c u
  u32_le := by decide
  checked_mul := fun a u => by
    show checked_mul c a (from_prim c .u32 u) = _
    have hu := u.isLt
    have hv : (from_prim c .u32 u).toNat c = u.toNat := by
      rw [from_u32_eq, ofInt_natCast, toNat_ofNat_of_lt c (by omega)]
    have e : ((a.toNat c * u.toNat : Nat) : Int) = (a.toNat c : Int) * u.toNat := by push_cast; rfl
    rw [(C03_mul c a _).2.2.1, hv, ← ofInt_natCast, ← e]
    by_cases h : a.toNat c * u.toNat < 2 ^ 256
    · rw [if_pos h, if_pos ⟨by omega, by omega⟩]
    · rw [if_neg h, if_neg (by omega)]
  checked_add := fun a u => by
    show checked_add c a (from_prim c .u32 u) = _
    have hu := u.isLt
    have hv : (from_prim c .u32 u).toNat c = u.toNat := by
      rw [from_u32_eq, ofInt_natCast, toNat_ofNat_of_lt c (by omega)]
    rw [(C02_checked c a _).1, hv, ← ofInt_natCast, Int.natCast_add]
    by_cases h : a.toNat c + u.toNat < 2 ^ 256
    · rw [if_pos h, if_pos ⟨by omega, by omega⟩]
    · rw [if_neg h, if_neg (by omega)]
  checked_sub := fun a u => by
    show checked_sub c a (from_prim c .u32 u) = _
    have hu := u.isLt
    have hv : (from_prim c .u32 u).toNat c = u.toNat := by
      rw [from_u32_eq, ofInt_natCast, toNat_ofNat_of_lt c (by omega)]
    have ha := toNat_lt c a
    rw [(C02_checked c a _).2, hv, ← ofInt_natCast]
    by_cases h : u.toNat ≤ a.toNat c
    · rw [if_pos h, if_pos ⟨by omega, by omega⟩, Int.natCast_sub h]
    · rw [if_neg h, if_neg (by omega)]
  signed := by
    show gt c (from_prim c .u32 (0 : U32)) ZERO = _
    rw [gt_eq, toNat_ZERO, from_u32_eq c (0 : U32)]
    have : (ofInt c ((0 : U32).toNat : Nat)).toNat c = 0 := by
      rw [ofInt_natCast]; exact toNat_ofNat_of_lt c (by decide)
    rw [this]

theorem parse_eq (c : Cfg) (s : List U8) (r : U32) (pfx : Option (List U8)) (hr : 2 ≤ r.toNat ∧ r.toNat ≤ 36) :
    Ethnum.from_str_radix (radixHelper c) s r pfx
      = .ok (parseSpec 0 (2 ^ 256 - 1) (ofInt c) (pfx.getD []) r.toNat s) := by
  refine Ethnum.parse_eq (radixDom c) (fun neg hn => ?_) s r pfx hr
  cases neg
  · decide +kernel
  · have := hn rfl; omega

end U256

namespace I256

theorem from_u32_eq (c : Cfg) (u : U32) : from_prim c .u32 u = ofInt c u.toNat := by
  have := of_prim_as_eq c .u32 u
  rw [toInt_u32] at this
  exact this

theorem toInt_from_u32 (c : Cfg) (u : U32) : (from_prim c .u32 u).toInt c = u.toNat := by
  have hu := u.isLt
  rw [from_u32_eq, toInt_ofInt_of_in c (by unfold InI256; omega)]

theorem in_iff (z : Int) : (-((2 ^ 255 : Nat) : Int) ≤ z ∧ z ≤ ((2 ^ 255 - 1 : Nat) : Int)) ↔ InI256 z := by
  unfold InI256; omega

/-- The operations the parser uses on `I256`. -/
def radixDom (c : Cfg) : RadixDom (radixHelper c) (2 ^ 255) (2 ^ 255 - 1) where
  val := fun x => x.toInt c
  of := ofInt c
  val_of := fun z h1 h2 => toInt_ofInt_of_in c ((in_iff z).1 ⟨h1, h2⟩)
  mul_ok := fun a b h1 h2 => by
    show mul c a b = _
    rw [mul_eq, if_neg (fun h => h.2 ((in_iff _).1 ⟨h1, h2⟩))]
  add_ok := fun a b h1 h2 => by
    show add c a b = _
    rw [add_eq, if_neg (fun h => h.2 ((in_iff _).1 ⟨h1, h2⟩))]
  sub_ok := fun a b h1 h2 => by
    show sub c a b = _
    rw [sub_eq, if_neg (fun h => h.2 ((in_iff _).1 ⟨h1, h2⟩))]
  from_u32 := fun u => from_u32_eq c u
  u32_le := by decide
  checked_mul := fun a u => by
    show checked_mul c a (from_prim c .u32 u) = _
    rw [(C07_mul c a _).2.2.1, toInt_from_u32]
    simp only [in_iff]
  checked_add := fun a u => by
    show checked_add c a (from_prim c .u32 u) = _
    rw [(C06_add c a _).2.2.1, toInt_from_u32]
    simp only [in_iff]
  checked_sub := fun a u => by
    show checked_sub c a (from_prim c .u32 u) = _
    rw [(C06_sub c a _).2.2.1, toInt_from_u32]
    simp only [in_iff]
  signed := by
    show gt c (from_prim c .u32 (0 : U32)) (MIN c) = _
    rw [gt_eq, toInt_MIN, toInt_from_u32 c (0 : U32)]
    decide

theorem parse_eq (c : Cfg) (s : List U8) (r : U32) (pfx : Option (List U8)) (hr : 2 ≤ r.toNat ∧ r.toNat ≤ 36) :
    Ethnum.from_str_radix (radixHelper c) s r pfx
      = .ok (parseSpec (2 ^ 255) (2 ^ 255 - 1) (ofInt c) (pfx.getD []) r.toNat s) := by
  refine Ethnum.parse_eq (radixDom c) (fun neg _ => ?_) s r pfx hr
  cases neg <;> decide +kernel

end I256

end Ethnum
