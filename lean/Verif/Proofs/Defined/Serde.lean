import Verif.Proofs.Defined.Text
import Verif.Props.Serde
import Verif.Props.SerdePermissive
import Verif.Props.SerdeBytes
import Verif.Props.SerdeCompressed

/-!
Serialization and deserialization return or panic.
-/

namespace Ethnum
open Serde

theorem Defined.of_exists {α : Type} {x : Res α} (h : ∃ a, x = .ok a) : Defined x := .inl h

@[defd] theorem Serde.done_defined {T : Type} (x : T) : Defined (done x) := .ok _
@[defd] theorem Serde.fail_defined {T : Type} (e : DeErr) : Defined (fail e : Res (Outcome T)) := .ok _

theorem Serde.format_visit_str_defined {T : Type} {p : List U8 → Res (ParseResult T)} (hp : ∀ s, Defined (p s))
    (s : List U8) : Defined (format_visit_str p s) := by
  unfold format_visit_str
  refine .bind (hp s) (fun _ => ?_)
  split
  · exact .ok _
  · exact .ok _

theorem Serde.FormatVisitor_defined {T : Type} {p : List U8 → Res (ParseResult T)} (hp : ∀ s, Defined (p s))
    (i : Input) : Defined ((FormatVisitor p).call i) := by
  cases i
  case str s => exact format_visit_str_defined hp s
  case bytes s => exact .ite (fun _ => format_visit_str_defined hp s) (fun _ => .ok _)
  all_goals exact .ok _

@[defd] theorem U256.serialize_defined (c : Cfg) (k : Chunking) (x : U256) : Defined (U256.serialize c k x) :=
  .of_ok (C37_serialize c k x I256.ZERO).1
@[defd] theorem U256.serialize_decimal_defined (c : Cfg) (k : Chunking) (x : U256) : Defined (U256.serialize_decimal c k x) :=
  .of_ok (C37_serialize c k x I256.ZERO).2.2.1
@[defd] theorem U256.deserialize_defined (c : Cfg) (i : Input) : Defined (U256.deserialize c i) :=
  FormatVisitor_defined (U256.from_str_hex_defined c) i
@[defd] theorem U256.deserialize_decimal_defined (c : Cfg) (i : Input) : Defined (U256.deserialize_decimal c i) :=
  FormatVisitor_defined (fun s => U256.from_str_radix_defined c s 10) i
@[defd] theorem U256.deserialize_prefixed_defined (c : Cfg) (i : Input) : Defined (U256.deserialize_prefixed c i) :=
  FormatVisitor_defined (U256.from_str_prefixed_defined c) i
@[defd] theorem U256.deserialize_permissive_defined (c : Cfg) (i : Input) : Defined (U256.deserialize_permissive c i) :=
  .of_exists (C38_total c i).2.1
@[defd] theorem U256.serialize_bytes_defined (c : Cfg) (o : Order) (x : U256) : Defined (U256.serialize_bytes c o x) := .ok _
@[defd] theorem U256.deserialize_bytes_defined (c : Cfg) (o : Order) (i : Input) : Defined (U256.deserialize_bytes c o i) :=
  .of_exists (C39_accepts c o i).2.2.1
@[defd] theorem U256.serialize_compressed_defined (c : Cfg) (o : Order) (x : U256) :
    Defined (U256.serialize_compressed c o x) := by
  obtain ⟨_, h, _⟩ := C40_u256_serialize c o x
  exact .of_ok h
@[defd] theorem U256.deserialize_compressed_defined (c : Cfg) (o : Order) (i : Input) :
    Defined (U256.deserialize_compressed c o i) := .of_exists (C40_u256_accepts c o i).2

@[defd] theorem I256.serialize_defined (c : Cfg) (k : Chunking) (x : I256) : Defined (I256.serialize c k x) :=
  .of_ok (C37_serialize c k U256.ZERO x).2.1
@[defd] theorem I256.serialize_decimal_defined (c : Cfg) (k : Chunking) (x : I256) : Defined (I256.serialize_decimal c k x) :=
  .of_ok (C37_serialize c k U256.ZERO x).2.2.2
@[defd] theorem I256.deserialize_defined (c : Cfg) (i : Input) : Defined (I256.deserialize c i) :=
  FormatVisitor_defined (I256.from_str_hex_defined c) i
@[defd] theorem I256.deserialize_decimal_defined (c : Cfg) (i : Input) : Defined (I256.deserialize_decimal c i) :=
  FormatVisitor_defined (fun s => I256.from_str_radix_defined c s 10) i
@[defd] theorem I256.deserialize_prefixed_defined (c : Cfg) (i : Input) : Defined (I256.deserialize_prefixed c i) :=
  FormatVisitor_defined (I256.from_str_prefixed_defined c) i
@[defd] theorem I256.deserialize_permissive_defined (c : Cfg) (i : Input) : Defined (I256.deserialize_permissive c i) :=
  .of_exists (C38_total c i).1
@[defd] theorem I256.serialize_bytes_defined (c : Cfg) (o : Order) (x : I256) : Defined (I256.serialize_bytes c o x) := .ok _
@[defd] theorem I256.deserialize_bytes_defined (c : Cfg) (o : Order) (i : Input) : Defined (I256.deserialize_bytes c o i) :=
  .of_exists (C39_accepts c o i).2.2.2
@[defd] theorem I256.serialize_compressed_defined (c : Cfg) (o : Order) (x : I256) :
    Defined (I256.serialize_compressed c o x) := by
  obtain ⟨_, h, _⟩ := C40_i256_serialize c o x
  exact .of_ok h
@[defd] theorem I256.deserialize_compressed_defined (c : Cfg) (o : Order) (i : Input) :
    Defined (I256.deserialize_compressed c o i) := .of_exists (C40_i256_delivery c o i).2

end Ethnum
