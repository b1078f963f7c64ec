import Verif.Model.Writer

/-
Specification: what it means to write a text to a writer that may fail. From the model this uses only the types of
writers (`Writer σ`, a state machine with the methods of `core::fmt::Write`) and of code that writes (`Io σ Unit`, from
a state to the state afterwards with `some ()` for `Ok(())` and `none` for `Err(fmt::Error)`).
-/

namespace Ethnum

/-- A call of a method of `core::fmt::Write`. -/
inductive Call where
  | str (s : List Char)
  | chr (ch : Char)
  deriving DecidableEq, Repr

/-- The text that a call passes. -/
def Call.text : Call → List Char
  | str s => s
  | chr ch => [ch]

/-- The effect of one call. -/
def Call.run {σ : Type} (w : Writer σ) (st : σ) : Call → Res (σ × Bool)
  | str s => w.write_str s st
  | chr ch => w.write_char ch st

/-- The calls in order, until one fails or panics. -/
def runCalls {σ : Type} (w : Writer σ) : List Call → Io σ Unit
  | [], st => .ok (st, some ())
  | k :: l, st =>
    match k.run w st with
    | .error e => .error e
    | .ok (st, false) => .ok (st, none)
    | .ok (st, true) => runCalls w l st

/-- `m` writes `text`: it is cut into pieces in a way that does not depend on the writer, and these are passed on in
order until a call fails. -/
def Writes (text : Res (List Char)) (m : (σ : Type) → Writer σ → Io σ Unit) : Prop :=
  ∃ (t : List Char) (calls : List Call), text = .ok t ∧ calls.flatMap Call.text = t
    ∧ ∀ (σ : Type) (w : Writer σ) (st : σ), m σ w st = runCalls w calls st

/-- A writer that takes the whole text of a call that succeeds and some beginning of the text of a call that fails, and
does not panic. -/
def Faithful {σ : Type} (w : Writer σ) (content : σ → List Char) : Prop :=
  ∀ (k : Call) (st : σ), ∃ st' ok, k.run w st = .ok (st', ok)
    ∧ (ok = true → content st' = content st ++ k.text)
    ∧ (ok = false → ∃ p, p <+: k.text ∧ content st' = content st ++ p)

/-- Writing `text` with `m` ends without a panic, with all of the text written if it reports success, and a beginning of
it if it reports an error. -/
def KeepsPrefix {σ : Type} (content : σ → List Char) (text : Res (List Char)) (m : Io σ Unit) : Prop :=
  ∃ t, text = .ok t ∧ ∀ st, ∃ st' r, m st = .ok (st', r)
    ∧ (r = some () → content st' = content st ++ t)
    ∧ (r = none → ∃ p, p <+: t ∧ content st' = content st ++ p)

/-- A slice with room for `n` characters: it takes what fits and reports an error if that is not all. -/
def cursor (n : Nat) : Writer (List Char) where
  write_str s st := .ok (st ++ s.take (n - st.length), decide (s.length ≤ n - st.length))
  write_char ch st := .ok (st ++ [ch].take (n - st.length), decide (1 ≤ n - st.length))

/-- A growing string, which never fails. -/
def growing : Writer (List Char) where
  write_str s st := .ok (st ++ s, true)
  write_char ch st := .ok (st ++ [ch], true)

/-- Writing `text` to a slice with room for `n` characters, `st` of which are taken: the text is cut off at the end of
the room, and success is reported exactly if it fits. -/
def FillsCursor (text : Res (List Char)) (m : (σ : Type) → Writer σ → Io σ Unit) : Prop :=
  ∃ t, text = .ok t ∧ ∀ (n : Nat) (st : List Char), st.length ≤ n →
    m _ (cursor n) st = .ok (st ++ t.take (n - st.length), if t.length ≤ n - st.length then some () else none)

/-- Writing `text` to a string appends it and reports success. -/
def Appends (text : Res (List Char)) (m : (σ : Type) → Writer σ → Io σ Unit) : Prop :=
  ∃ t, text = .ok t ∧ ∀ st : List Char, m _ growing st = .ok (st ++ t, some ())

end Ethnum
