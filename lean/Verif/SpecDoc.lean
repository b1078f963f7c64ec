import Verif.Model.SerdeWith
import Verif.SpecSerde
import Verif.Spec
import Verif.SpecText
import Verif.SpecFmt

/-
Specification: documents. A record has any number of fields, each a 256-bit integer with a scheme of its own. A data
format writes the calls of the fields down one after another and, asked for each field in turn, gives back an answer.
Nothing is assumed of the format but that it gives back what was written when asked for it by its kind.
-/

namespace Ethnum.Serde

/-- A data format, reduced to what fields of this crate exchange with it. `read` is given the document and the kinds
asked for, and returns the visitor calls made, or `none` where it refuses the request. -/
structure Format where
  Doc : Type
  write : List Datum → Doc
  read : List Request → Doc → List (Option Input)

/-- The answer gives the text `t`. -/
def GivesText (t : List U8) (i : Option Input) : Prop := i = some (.str t) ∨ i = some (.bytes t)

/-- The answer gives the bytes `b`. -/
def GivesBytes (b : List U8) (i : Option Input) : Prop := ∃ j, i = some j ∧ j.Delivers b

/-- The answer to a request, for a field written as `d`: text asked for as text is given, and bytes as bytes. With
`selfDescribing`, text is also given as text when asked for as anything; without, such a request is refused. -/
def Answers (selfDescribing : Bool) (d : Datum) (r : Request) (i : Option Input) : Prop :=
  match r, d with
  | .str, .str t => GivesText t i
  | .bytes, .bytes b => GivesBytes b i
  | .any, .str t => i = if selfDescribing then some (.str t) else none
  | .any, .bytes _ => selfDescribing = false → i = none
  | _, _ => True

/-- The number of bytes of a text or of a byte string. -/
def Datum.size : Datum → Nat
  | .str t => t.length
  | .bytes b => b.length

/-- The format gives back what was written, at least as long as no field exceeds 78 bytes. Without `selfDescribing` it
refuses to answer `deserialize_any`. -/
def Format.Faithful (f : Format) (selfDescribing : Bool) : Prop :=
  ∀ (ds : List Datum) (rs : List Request), ds.length = rs.length → (∀ d ∈ ds, d.size ≤ 78) →
    ∀ (i : Nat) d r, ds[i]? = some d → rs[i]? = some r →
      ∃ a, (f.read rs (f.write ds))[i]? = some a ∧ Answers selfDescribing d r a

/-- A field of a record: a number of either type, and how it is annotated. -/
inductive Field where
  | unsigned (s : Scheme) (x : U256)
  | signed (s : Scheme) (x : I256)
  deriving DecidableEq, Repr

/-- The annotation of a field, without its value: what the reader of a document knows. -/
inductive Shape where
  | unsigned (s : Scheme)
  | signed (s : Scheme)
  deriving DecidableEq, Repr

/-- The scheme. -/
def Shape.scheme : Shape → Scheme
  | .unsigned s => s
  | .signed s => s

/-- The annotation of the field. -/
def Field.shape : Field → Shape
  | .unsigned s _ => .unsigned s
  | .signed s _ => .signed s

/-- Client code: what `#[derive(Serialize)]` does for a field. -/
def Field.serialize (c : Cfg) (k : Chunking) : Field → Res Datum
  | .unsigned s x => x.serializeWith c k s
  | .signed s x => x.serializeWith c k s

/-- Client code: what `#[derive(Deserialize)]` does for a field: a request the format refuses is an error. -/
def Shape.deserialize (c : Cfg) (a : Option Input) : Shape → Res (Outcome Field)
  | .unsigned s =>
    match a with
    | none => fail .input
    | some i => do return (← U256.deserializeWith c s i).map (Field.unsigned s)
  | .signed s =>
    match a with
    | none => fail .input
    | some i => do return (← I256.deserializeWith c s i).map (Field.signed s)

/-- Client code: all fields in order. -/
def serializeAll (c : Cfg) (k : Chunking) : List Field → Res (List Datum)
  | [] => .ok []
  | f :: l => do
    let d ← f.serialize c k
    let ds ← serializeAll c k l
    return d :: ds

/-- Client code: all fields in order, stopping at the first error. -/
def deserializeAll (c : Cfg) : List Shape → List (Option Input) → Res (Outcome (List Field))
  | [], _ => done []
  | s :: l, as => do
    match ← s.deserialize c as.head?.join with
    | .error e => fail e
    | .ok f => do
      match ← deserializeAll c l as.tail with
      | .error e => fail e
      | .ok fs => done (f :: fs)

/-- Client code: write a record in a format. -/
def Format.save (f : Format) (c : Cfg) (k : Chunking) (l : List Field) : Res f.Doc := do
  return f.write (← serializeAll c k l)

/-- Client code: read a record of known shape from a document. -/
def Format.load (f : Format) (c : Cfg) (l : List Shape) (d : f.Doc) : Res (Outcome (List Field)) :=
  deserializeAll c l (f.read (l.map fun s => s.scheme.request) d)

/-- Fields that survive: all of them but signed ones in the compressed byte formats that the format cannot tell from
another number (C40). -/
def Field.Survives (c : Cfg) : Field → Prop
  | .signed (.compressed .le) x => ¬ ∃ n : Nat, 256 ^ n ≤ 2 * x.toInt c ∧ x.toInt c < 256 ^ n
  | .signed (.compressed .be) x =>
    (x.toInt c < 0 ↔ 128 ≤ x.toInt c % 256) ∨ 256 ^ 31 ≤ x.toInt c ∨ 2 * x.toInt c < -256 ^ 31
  | _ => True

/-- A `U256` field of the scheme that holds `n` is written as `d`. -/
def Scheme.WritesU : Scheme → Nat → Datum → Prop
  | .own, n, d | .prefixed, n, d | .permissive, n, d => d = .str (str "0x" ++ (Nat.toDigits 16 n).map asc)
  | .decimal, n, d => d = .str (str (toString n))
  | .bytes o, n, d => d = .bytes (o.arrange (leBytes 32 n))
  | .compressed o, n, d => ∃ k, d = .bytes (o.arrange (leBytes k n)) ∧ n < 256 ^ k ∧ ∀ m, n < 256 ^ m → k ≤ m

/-- An `I256` field of the scheme that holds `z` is written as `d`. -/
def Scheme.WritesI : Scheme → Int → Datum → Prop
  | .own, z, d | .prefixed, z, d | .permissive, z, d =>
    d = .str ((if z < 0 then str "-0x" else str "0x") ++ (Nat.toDigits 16 z.natAbs).map asc)
  | .decimal, z, d => d = .str (str (toString z))
  | .bytes o, z, d => d = .bytes (o.arrange (leBytes 32 (z % 2 ^ 256).toNat))
  | .compressed o, z, d => ∃ k, d = .bytes (o.arrange (leBytes k (z % 2 ^ 256).toNat))
      ∧ (0 ≤ z → z < 256 ^ k ∧ ∀ m : Nat, z < 256 ^ m → k ≤ m)
      ∧ (z < 0 → 1 ≤ k ∧ -256 ^ k ≤ 2 * z ∧ ∀ m : Nat, 1 ≤ m → -256 ^ m ≤ 2 * z → k ≤ m)

/-- The input is the text `t`, as a string or as its bytes. -/
def Input.IsText (i : Input) (t : List U8) : Prop := i = .str t ∨ i = .bytes t

/-- The input is the bytes `b`, a slice or a sequence that does not announce more than 32 of them. -/
def Input.IsBytes (i : Input) (b : List U8) : Prop :=
  i = .bytes b ∨ ∃ hint, i = .seq hint (b.map some) ∧ ∀ n, hint = some n → n ≤ 32

/-- A `U256` field of the scheme takes the input for the number `n`. -/
def Scheme.ReadsU : Scheme → Input → Nat → Prop
  | .own, i, n => ∃ t d, i.IsText t ∧ dropPlus t = str "0x" ++ d ∧ Numeral 16 d n
  | .decimal, i, n => ∃ t, i.IsText t ∧ Numeral 10 (dropPlus t) n
  | .prefixed, i, n => ∃ t, i.IsText t ∧ PrefixedNumeral (dropPlus t) n
  | .permissive, i, n => (∃ t, i = .str t ∧ PrefixedNumeral (dropPlus t) n)
      ∨ ∃ z : Int, i.number = some (z : ℚ) ∧ ¬ i.beyondExact ∧ (n : Int) = z % 2 ^ 256
  | .bytes o, i, n => ∃ b, b.length = 32 ∧ i.Delivers b ∧ o.value b = n
  | .compressed o, i, n => ∃ b, b.length ≤ 32 ∧ i.IsBytes b ∧ o.value b = n

/-- An `I256` field of the scheme takes the input for the number `z`. -/
def Scheme.ReadsI : Scheme → Input → Int → Prop
  | .own, i, z => ∃ t, i.IsText t ∧ SignedNumeral (str "0x") 16 t z
  | .decimal, i, z => ∃ t, i.IsText t ∧ SignedNumeral [] 10 t z
  | .prefixed, i, z => ∃ t, i.IsText t ∧ SignedPrefixedNumeral t z
  | .permissive, i, z => (∃ t, i = .str t ∧ SignedPrefixedNumeral t z) ∨ (i.number = some (z : ℚ) ∧ ¬ i.beyondExact)
  | .bytes o, i, z => ∃ b, b.length = 32 ∧ i.Delivers b ∧ o.signedValue b = z
  | .compressed .le, i, z => ∃ b, b.length ≤ 32 ∧ i.IsBytes b ∧ Order.le.signedValue b = z
  | .compressed .be, i, z => ∃ b, b.length ≤ 32 ∧ i.IsBytes b
      ∧ z = if b.length = 32 then Order.be.signedValue b
            else if 128 ≤ Order.be.value b % 256 then (Order.be.value b : Int) - 256 ^ b.length
            else Order.be.value b

end Ethnum.Serde
