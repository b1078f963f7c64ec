import Verif.Model.Serde

/-
The serialization schemes of src/serde.rs side by side: the function pair a field is annotated with, and the method
each `deserialize` calls on the deserializer.
-/

namespace Ethnum
namespace Serde

/-- The ways to serialize a field (src/serde.rs 1-34): the type's own implementation or a
`#[serde(with = "ethnum::serde::…")]`. -/
inductive Scheme where
  | own | decimal | prefixed | permissive
  | bytes (o : Order)
  | compressed (o : Order)
  deriving DecidableEq, Repr

/-- The method called on the deserializer, which tells it what to expect. -/
inductive Request where
  | str | bytes | any
  deriving DecidableEq, Repr

/-- `deserialize_str` (src/serde.rs 74, 83, 134, 179), `deserialize_any` (319), `deserialize_bytes` (432, 587) -/
def Scheme.request : Scheme → Request
  | .own => .str
  | .decimal => .str
  | .prefixed => .str
  | .permissive => .any
  | .bytes _ => .bytes
  | .compressed _ => .bytes

end Serde

open Serde

/-- The call a `U256` field makes on the serializer (src/serde.rs 58-67, 118-126, 165-171, 216-222, 365-372, 510-519) -/
def U256.serializeWith (c : Cfg) (k : Chunking) (s : Scheme) (x : U256) : Res Datum :=
  match s with
  | .own => x.serialize c k
  | .decimal => x.serialize_decimal c k
  | .prefixed => x.serialize c k
  | .permissive => x.serialize c k
  | .bytes o => x.serialize_bytes c o
  | .compressed o => x.serialize_compressed c o

/-- What a `U256` field makes of the deserializer's answer (src/serde.rs 78-85, 129-135, 174-180, 314-320, 427-433,
582-588) -/
def U256.deserializeWith (c : Cfg) (s : Scheme) : Input → Res (Outcome U256) :=
  match s with
  | .own => U256.deserialize c
  | .decimal => U256.deserialize_decimal c
  | .prefixed => U256.deserialize_prefixed c
  | .permissive => U256.deserialize_permissive c
  | .bytes o => U256.deserialize_bytes c o
  | .compressed o => U256.deserialize_compressed c o

/-- The call an `I256` field makes on the serializer (src/serde.rs 47-56, 118-126, 165-171, 216-222, 365-372, 510-519) -/
def I256.serializeWith (c : Cfg) (k : Chunking) (s : Scheme) (x : I256) : Res Datum :=
  match s with
  | .own => x.serialize c k
  | .decimal => x.serialize_decimal c k
  | .prefixed => x.serialize c k
  | .permissive => x.serialize c k
  | .bytes o => x.serialize_bytes c o
  | .compressed o => x.serialize_compressed c o

/-- What an `I256` field makes of the deserializer's answer (src/serde.rs 69-76, 129-135, 174-180, 314-320, 427-433,
582-588) -/
def I256.deserializeWith (c : Cfg) (s : Scheme) : Input → Res (Outcome I256) :=
  match s with
  | .own => I256.deserialize c
  | .decimal => I256.deserialize_decimal c
  | .prefixed => I256.deserialize_prefixed c
  | .permissive => I256.deserialize_permissive c
  | .bytes o => I256.deserialize_bytes c o
  | .compressed o => I256.deserialize_compressed c o

end Ethnum
