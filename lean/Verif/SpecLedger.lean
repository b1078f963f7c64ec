import Verif.Spec
import Verif.Model.Ops
import Verif.Model.UintApi
import Mathlib.Algebra.BigOperators.Fin

/-
Specification: a ledger of a token, as clients of the crate keep it. `Tx.accepted` and `Tx.effect` say what a transaction does, on
integers. `step` is the client's program: it reads and writes balances one after the other, and returns at the first operation that
fails, with what it has written so far. It is not in /repo; the three kinds of arithmetic it can be run with are.
-/

namespace Ethnum.Ledger
open scoped BigOperators

/-- The books for accounts 0, ..., k-1: balances and the total supply -/
structure Books (k : ℕ) (A : Type) where
  balance : Fin k → A
  supply : A

/-- A transaction of an amount -/
inductive Tx (k : ℕ) (A : Type)
  | mint (dst : Fin k) (amount : A)
  | burn (src : Fin k) (amount : A)
  | transfer (src dst : Fin k) (amount : A)

/-! ### What the transactions mean -/

/-- A transaction is accepted if nobody spends more than they have, and the supply stays below `2^256`. -/
def Tx.accepted {k : ℕ} (B : Books k ℤ) : Tx k ℤ → Prop
  | mint _ n => B.supply + n < 2 ^ 256
  | burn a n => n ≤ B.balance a
  | transfer a _ n => n ≤ B.balance a

/-- The books after an accepted transaction -/
def Tx.effect {k : ℕ} (B : Books k ℤ) : Tx k ℤ → Books k ℤ
  | mint a n => ⟨fun i => B.balance i + if i = a then n else 0, B.supply + n⟩
  | burn a n => ⟨fun i => B.balance i - if i = a then n else 0, B.supply - n⟩
  | transfer a b n => ⟨fun i => B.balance i - (if i = a then n else 0) + if i = b then n else 0, B.supply⟩

open Classical in
/-- A history: which transactions were accepted, and the books at the end. Those that are not accepted do nothing. -/
noncomputable def outcome {k : ℕ} : List (Tx k ℤ) → Books k ℤ → List Bool × Books k ℤ
  | [], B => ([], B)
  | t :: ts, B =>
    if t.accepted B then (true :: (outcome ts (t.effect B)).1, (outcome ts (t.effect B)).2)
    else (false :: (outcome ts B).1, (outcome ts B).2)

/-- The sum of the balances is the supply. -/
def Balanced {k : ℕ} (B : Books k ℤ) : Prop := ∑ i, B.balance i = B.supply

def Books.empty (k : ℕ) : Books k ℤ := ⟨fun _ => 0, 0⟩

/-! ### A client -/

/-- Addition and subtraction that may fail -/
structure Arith (E : Type) where
  add : U256 → U256 → Except E U256
  sub : U256 → U256 → Except E U256

/-- `a.checked_add(b).ok_or(Overflow)?` and `a.checked_sub(b).ok_or(Overflow)?` -/
def checked (c : Cfg) : Arith Unit where
  add a b := match a.checked_add c b with | some x => .ok x | none => .error ()
  sub a b := match a.checked_sub c b with | some x => .ok x | none => .error ()

/-- `a += b` and `a -= b` -/
def operators (c : Cfg) : Arith Fault where
  add a b := a.add_assign c b
  sub a b := a.sub_assign c b

/-- `a = a.wrapping_add(b)` and `a = a.wrapping_sub(b)` -/
def wrapping (c : Cfg) : Arith Empty where
  add a b := .ok (a.wrapping_add c b)
  sub a b := .ok (a.wrapping_sub c b)

variable {k : ℕ} {E : Type}

def Books.setBalance {A : Type} (B : Books k A) (i : Fin k) (x : A) : Books k A := ⟨fun j => if j = i then x else B.balance j, B.supply⟩
def Books.setSupply {A : Type} (B : Books k A) (x : A) : Books k A := ⟨B.balance, x⟩

/-- Add to, or subtract from, one place of the books, and go on if that does not fail. -/
def put (r : Except E U256) (store : U256 → Books k U256) (B : Books k U256) (next : Books k U256 → Except E Unit × Books k U256) :
    Except E Unit × Books k U256 :=
  match r with
  | .error e => (.error e, B)
  | .ok x => next (store x)

/-- One transaction: the answer of the function, and the books that it leaves. -/
def step (A : Arith E) : Tx k U256 → Books k U256 → Except E Unit × Books k U256
  | .mint a n, B =>
    put (A.add B.supply n) B.setSupply B fun B =>
    put (A.add (B.balance a) n) (B.setBalance a) B fun B => (.ok (), B)
  | .burn a n, B =>
    put (A.sub (B.balance a) n) (B.setBalance a) B fun B =>
    put (A.sub B.supply n) B.setSupply B fun B => (.ok (), B)
  | .transfer a b n, B =>
    put (A.sub (B.balance a) n) (B.setBalance a) B fun B =>
    put (A.add (B.balance b) n) (B.setBalance b) B fun B => (.ok (), B)

/-- A history of transactions: which ones returned `Ok` (or did not panic), and the books at the end. -/
def run (A : Arith E) : List (Tx k U256) → Books k U256 → List Bool × Books k U256
  | [], B => ([], B)
  | t :: ts, B =>
    match step A t B with
    | (r, B') => (r.isOk :: (run A ts B').1, (run A ts B').2)

/-- The same on numbers -/
def Books.num (c : Cfg) (B : Books k U256) : Books k ℤ := ⟨fun i => (B.balance i).toNat c, B.supply.toNat c⟩

def Tx.num (c : Cfg) : Tx k U256 → Tx k ℤ
  | .mint a n => .mint a (n.toNat c)
  | .burn a n => .burn a (n.toNat c)
  | .transfer a b n => .transfer a b (n.toNat c)

/-- New books -/
def Books.zero (k : ℕ) : Books k U256 := ⟨fun _ => U256.ZERO, U256.ZERO⟩

end Ethnum.Ledger
