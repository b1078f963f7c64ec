import Verif.Spec
import Verif.Model.IntApi
import Verif.Model.UintApi

/-
Clients: five textbook algorithms, written with the operators of the crate as a user would write them. They are not in /repo.
A loop is given by its result under a budget, the number of times its condition may be evaluated, as in SpecWork.lean.
-/

namespace Ethnum.Number

/-- Euclid: `while b != 0 { (a, b) = (b, a % b); } a` -/
def gcd (c : Cfg) : Nat → U256 → U256 → Res U256
  | 0, _, _ => .error .diverge
  | k + 1, a, b => if b.eq_prim c 0 then .ok a else do gcd c k b (← a.rem c b)

/-- Euclid, extended: `while r1 != 0 { let q = r0 / r1; (r0, r1) = (r1, r0 - q * r1); (s0, s1) = (s1, s0 - q * s1);
(t0, t1) = (t1, t0 - q * t1); } (r0, s0, t0)` -/
def egcdLoop (c : Cfg) : Nat → I256 → I256 → I256 → I256 → I256 → I256 → Res (I256 × I256 × I256)
  | 0, _, _, _, _, _, _ => .error .diverge
  | k + 1, r0, r1, s0, s1, t0, t1 =>
    if r1.eq_prim c 0 then .ok (r0, s0, t0)
    else do
      let q ← r0.div c r1
      let r2 ← r0.sub c (← q.mul c r1)
      let s2 ← s0.sub c (← q.mul c s1)
      let t2 ← t0.sub c (← q.mul c t1)
      egcdLoop c k r1 r2 s1 s2 t1 t2

/-- from `(a, b, 1, 0, 0, 1)` -/
def egcd (c : Cfg) (k : Nat) (a b : I256) : Res (I256 × I256 × I256) :=
  egcdLoop c k a b (I256.ONE c) I256.ZERO I256.ZERO (I256.ONE c)

/-- The inverse of `a` modulo `m`: `let (g, s, _) = egcd(a, m); if g == 1 { Some(s.rem_euclid(m)) } else { None }` -/
def inverse (c : Cfg) (k : Nat) (a m : I256) : Res (Option I256) := do
  let (g, s, _) ← egcd c k a m
  if g.eq_prim c 1 then return some (← s.rem_euclid c m) else return none

/-- Powers modulo `m` by squaring: `while e != 0 { if e & 1 == 1 { r = r * b % m; } b = b * b % m; e >>= 1; } r` -/
def powmodLoop (c : Cfg) (m : U256) : Nat → U256 → U256 → U256 → Res U256
  | 0, _, _, _ => .error .diverge
  | k + 1, r, b, e =>
    if e.eq_prim c 0 then .ok r
    else do
      let r ← if (U256.withPrim c (fun _ => U256.bitand) e 1).eq_prim c 1 then (← r.mul c b).rem c m else .ok r
      let b ← (← b.mul c b).rem c m
      let e ← e.shrBy c (.prim .i32 1)
      powmodLoop c m k r b e

/-- from `r = 1 % m` and `b = b % m` -/
def powmod (c : Cfg) (k : Nat) (b e m : U256) : Res U256 := do
  powmodLoop c m k (← (U256.ONE c).rem c m) (← b.rem c m) e

/-- The square root by bisection: `while lo < hi { let mid = (lo + hi + 1) >> 1; if mid * mid <= n { lo = mid } else { hi = mid - 1 } } lo` -/
def isqrtLoop (c : Cfg) (n : U256) : Nat → U256 → U256 → Res U256
  | 0, _, _ => .error .diverge
  | k + 1, lo, hi =>
    if lo.lt c hi then do
      let mid ← (← U256.withPrim c U256.add (← lo.add c hi) 1).shrBy c (.prim .i32 1)
      if (← mid.mul c mid).le c n then isqrtLoop c n k mid hi
      else isqrtLoop c n k lo (← U256.withPrim c U256.sub mid 1)
    else .ok lo

/-- from `lo = 0` and `hi = u128::MAX` -/
def isqrt (c : Cfg) (k : Nat) (n : U256) : Res U256 := isqrtLoop c n k U256.ZERO (U256.new c (BitVec.allOnes 128))

end Ethnum.Number
