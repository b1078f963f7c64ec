import Verif.Model.Serde
import Verif.Model.Bytes
import Verif.Spec

/-
The unit tests of /repo/src that tools/doctests.py does not translate, written out for the model: serialization,
floating-point casts, the division and multiplication kernels, error kinds and comparisons. They are tests of the model,
not proofs of the properties.
-/

set_option maxRecDepth 100000

namespace Ethnum.UnitTests
open Serde

/-- A little-endian build with debug assertions and a big-endian release build. -/
def cfgs : List Cfg := [⟨false, true, true, .w64, false⟩, ⟨true, false, false, .w32, false⟩]
/-- Two ways the formatter may cut the text it writes. -/
def chunkings : List Chunking := [.whole, .bytewise]
/-- The call panics. -/
def Panics {α : Type} (r : Res α) : Prop := match r with | .error (.panic _) => True | _ => False
instance {α : Type} (r : Res α) : Decidable (Panics r) := by unfold Panics; split <;> infer_instance
/-- `is_err()` -/
def rejected {α : Type} (r : Res (Outcome α)) : Bool := match r with | .ok (.error _) => true | _ => false
/-- `assert_de_bytes!` (src/serde.rs 908-929): the slice and the sequence with an exact size hint -/
def deBytes {α : Type} [DecidableEq α] (f : Input → Res (Outcome α)) (l : List U8) (v : Option α) : Bool :=
  match v with
  | some v => decide (f (.bytes l) = .ok (.ok v)) && decide (f (.seq (some l.length) (l.map some)) = .ok (.ok v))
  | none => rejected (f (.bytes l)) && rejected (f (.seq (some l.length) (l.map some)))

/- src/serde.rs 758-783 -/
example : ∀ c ∈ cfgs,
    (∀ k ∈ chunkings, I256.serialize c k (I256.MIN c) = .ok (.str (str "-0x8000000000000000000000000000000000000000000000000000000000000000")))
    ∧ (∀ k ∈ chunkings, I256.serialize c k (I256.new c (-1)) = .ok (.str (str "-0x1")))
    ∧ (∀ k ∈ chunkings, I256.serialize c k (I256.new c (0)) = .ok (.str (str "0x0")))
    ∧ (∀ k ∈ chunkings, I256.serialize c k (I256.new c (42)) = .ok (.str (str "0x2a")))
    ∧ (∀ k ∈ chunkings, U256.serialize c k (U256.new c (0)) = .ok (.str (str "0x0")))
    ∧ (∀ k ∈ chunkings, U256.serialize c k (U256.new c (4919)) = .ok (.str (str "0x1337")))
    ∧ (∀ k ∈ chunkings, U256.serialize c k U256.MAX = .ok (.str (str "0xffffffffffffffffffffffffffffffffffffffffffffffffffffffffffffffff"))) := by decide +kernel

/- src/serde.rs 774-789 -/
example : ∀ c ∈ cfgs,
    (∀ k ∈ chunkings, I256.serialize_decimal c k (I256.MIN c) = .ok (.str (str "-57896044618658097711785492504343953926634992332820282019728792003956564819968")))
    ∧ (∀ k ∈ chunkings, I256.serialize_decimal c k (I256.new c (-1)) = .ok (.str (str "-1")))
    ∧ (∀ k ∈ chunkings, I256.serialize_decimal c k (I256.new c (0)) = .ok (.str (str "0")))
    ∧ (∀ k ∈ chunkings, I256.serialize_decimal c k (I256.new c (42)) = .ok (.str (str "42")))
    ∧ (∀ k ∈ chunkings, U256.serialize_decimal c k (U256.new c (0)) = .ok (.str (str "0")))
    ∧ (∀ k ∈ chunkings, U256.serialize_decimal c k (U256.new c (4919)) = .ok (.str (str "4919")))
    ∧ (∀ k ∈ chunkings, U256.serialize_decimal c k U256.MAX = .ok (.str (str "115792089237316195423570985008687907853269984665640564039457584007913129639935"))) := by decide +kernel

/- src/serde.rs bytes -/
example : ∀ c ∈ cfgs,
    U256.serialize_bytes c .le U256.ZERO = .ok (.bytes (List.replicate 32 0))
    ∧ U256.serialize_bytes c .le U256.MAX = .ok (.bytes (List.replicate 32 255))
    ∧ U256.serialize_bytes c .le (U256.new c (0x4215)) = .ok (.bytes ([0x15, 0x42] ++ List.replicate 30 0))
    ∧ I256.serialize_bytes c .le (I256.new c (-1)) = .ok (.bytes (List.replicate 32 255))
    ∧ I256.serialize_bytes c .le (I256.new c (-424242)) = .ok (.bytes ([0xce, 0x86, 0xf9] ++ List.replicate 29 255))
    ∧ U256.serialize_bytes c .be U256.ZERO = .ok (.bytes (List.replicate 32 0))
    ∧ U256.serialize_bytes c .be U256.MAX = .ok (.bytes (List.replicate 32 255))
    ∧ U256.serialize_bytes c .be (U256.new c (0x4215)) = .ok (.bytes (List.replicate 30 0 ++ [0x42, 0x15]))
    ∧ I256.serialize_bytes c .be (I256.new c (-1)) = .ok (.bytes (List.replicate 32 255))
    ∧ I256.serialize_bytes c .be (I256.new c (-424242)) = .ok (.bytes (List.replicate 29 255 ++ [0xf9, 0x86, 0xce])) := by decide +kernel

/- src/serde.rs compressed_bytes::le -/
example : ∀ c ∈ cfgs,
    U256.serialize_compressed c .le U256.ZERO = .ok (.bytes ([]))
    ∧ U256.serialize_compressed c .le U256.MAX = .ok (.bytes (List.replicate 32 255))
    ∧ U256.serialize_compressed c .le (U256.new c (0x4215)) = .ok (.bytes ([0x15, 0x42]))
    ∧ I256.serialize_compressed c .le (I256.MIN c) = .ok (.bytes (List.replicate 31 0 ++ [0x80]))
    ∧ I256.serialize_compressed c .le I256.ZERO = .ok (.bytes ([]))
    ∧ I256.serialize_compressed c .le (I256.new c (-1)) = .ok (.bytes ([0xff]))
    ∧ I256.serialize_compressed c .le (I256.new c (-0x8000)) = .ok (.bytes ([0, 0x80]))
    ∧ I256.serialize_compressed c .le (I256.new c (-424242)) = .ok (.bytes ([0xce, 0x86, 0xf9])) := by decide +kernel

/- src/serde.rs compressed_bytes::be -/
example : ∀ c ∈ cfgs,
    U256.serialize_compressed c .be U256.ZERO = .ok (.bytes ([]))
    ∧ U256.serialize_compressed c .be U256.MAX = .ok (.bytes (List.replicate 32 255))
    ∧ U256.serialize_compressed c .be (U256.new c (0x4215)) = .ok (.bytes ([0x42, 0x15]))
    ∧ I256.serialize_compressed c .be (I256.MIN c) = .ok (.bytes ([0x80] ++ List.replicate 31 0))
    ∧ I256.serialize_compressed c .be I256.ZERO = .ok (.bytes ([]))
    ∧ I256.serialize_compressed c .be (I256.new c (-1)) = .ok (.bytes ([0xff]))
    ∧ I256.serialize_compressed c .be (I256.new c (-0x8000)) = .ok (.bytes ([0x80, 0]))
    ∧ I256.serialize_compressed c .be (I256.new c (-424242)) = .ok (.bytes ([0xf9, 0x86, 0xce])) := by decide +kernel

/- src/serde.rs deserialize -/
example : ∀ c ∈ cfgs,
    I256.deserialize c (.str (str "-0x8000000000000000000000000000000000000000000000000000000000000000")) = .ok (.ok (I256.MIN c))
    ∧ I256.deserialize c (.str (str "-0x1337")) = .ok (.ok (I256.new c (-4919)))
    ∧ I256.deserialize c (.str (str "0x0")) = .ok (.ok (I256.new c (0)))
    ∧ I256.deserialize c (.str (str "0x2a")) = .ok (.ok (I256.new c (42)))
    ∧ I256.deserialize c (.str (str "0x2A")) = .ok (.ok (I256.new c (42)))
    ∧ U256.deserialize c (.str (str "0x0")) = .ok (.ok (U256.new c (0)))
    ∧ U256.deserialize c (.str (str "0x2a")) = .ok (.ok (U256.new c (42)))
    ∧ U256.deserialize c (.str (str "0x2A")) = .ok (.ok (U256.new c (42)))
    ∧ U256.deserialize c (.str (str "0xffffffffffffffffffffffffffffffffffffffffffffffffffffffffffffffff")) = .ok (.ok U256.MAX) := by decide +kernel

/- src/serde.rs decimal::deserialize -/
example : ∀ c ∈ cfgs,
    I256.deserialize_decimal c (.str (str "-57896044618658097711785492504343953926634992332820282019728792003956564819968")) = .ok (.ok (I256.MIN c))
    ∧ I256.deserialize_decimal c (.str (str "-1")) = .ok (.ok (I256.new c (-1)))
    ∧ I256.deserialize_decimal c (.str (str "0")) = .ok (.ok (I256.new c (0)))
    ∧ I256.deserialize_decimal c (.str (str "42")) = .ok (.ok (I256.new c (42)))
    ∧ U256.deserialize_decimal c (.str (str "0")) = .ok (.ok (U256.new c (0)))
    ∧ U256.deserialize_decimal c (.str (str "42")) = .ok (.ok (U256.new c (42)))
    ∧ U256.deserialize_decimal c (.str (str "115792089237316195423570985008687907853269984665640564039457584007913129639935")) = .ok (.ok U256.MAX) := by decide +kernel

/- src/serde.rs prefixed::deserialize -/
example : ∀ c ∈ cfgs,
    I256.deserialize_prefixed c (.str (str "-1")) = .ok (.ok (I256.new c (-1)))
    ∧ I256.deserialize_prefixed c (.str (str "-0x1")) = .ok (.ok (I256.new c (-1)))
    ∧ I256.deserialize_prefixed c (.str (str "42")) = .ok (.ok (I256.new c (42)))
    ∧ I256.deserialize_prefixed c (.str (str "0x2a")) = .ok (.ok (I256.new c (42)))
    ∧ I256.deserialize_prefixed c (.str (str "0x2A")) = .ok (.ok (I256.new c (42)))
    ∧ U256.deserialize_prefixed c (.str (str "42")) = .ok (.ok (U256.new c (42)))
    ∧ U256.deserialize_prefixed c (.str (str "0x2a")) = .ok (.ok (U256.new c (42)))
    ∧ U256.deserialize_prefixed c (.str (str "0x2A")) = .ok (.ok (U256.new c (42))) := by decide +kernel

/- src/serde.rs permissive::deserialize I256 -/
example : ∀ c ∈ cfgs,
    I256.deserialize_permissive c (.i64 (BitVec.ofInt 64 (-42))) = .ok (.ok (I256.new c (-42)))
    ∧ I256.deserialize_permissive c (.u64 (BitVec.ofInt 64 (42))) = .ok (.ok (I256.new c (42)))
    ∧ I256.deserialize_permissive c (.i128 (BitVec.ofInt 128 (-1337))) = .ok (.ok (I256.new c (-1337)))
    ∧ I256.deserialize_permissive c (.u128 (BitVec.ofInt 128 (1337))) = .ok (.ok (I256.new c (1337)))
    ∧ I256.deserialize_permissive c (.f32 0x42c80000) = .ok (.ok (I256.new c (100)))
    ∧ I256.deserialize_permissive c (.f64 0xc059000000000000) = .ok (.ok (I256.new c (-100)))
    ∧ I256.deserialize_permissive c (.str (str "-1")) = .ok (.ok (I256.new c (-1)))
    ∧ I256.deserialize_permissive c (.str (str "1000")) = .ok (.ok (I256.new c (1000)))
    ∧ I256.deserialize_permissive c (.str (str "0x42")) = .ok (.ok (I256.new c (66)))
    ∧ I256.deserialize_permissive c (.str (str "-0x2a")) = .ok (.ok (I256.new c (-42)))
    ∧ I256.deserialize_permissive c (.str (str "0x7fffffffffffffffffffffffffffffffffffffffffffffffffffffffffffffff")) = .ok (.ok (I256.MAX c))
    ∧ I256.deserialize_permissive c (.str (str "-0x8000000000000000000000000000000000000000000000000000000000000000")) = .ok (.ok (I256.MIN c)) := by decide +kernel

/- src/serde.rs permissive::deserialize U256 -/
example : ∀ c ∈ cfgs,
    U256.deserialize_permissive c (.u64 (BitVec.ofInt 64 (42))) = .ok (.ok (U256.new c (42)))
    ∧ U256.deserialize_permissive c (.u128 (BitVec.ofInt 128 (1337))) = .ok (.ok (U256.new c (1337)))
    ∧ U256.deserialize_permissive c (.f32 0x42c80000) = .ok (.ok (U256.new c (100)))
    ∧ U256.deserialize_permissive c (.f64 0x4059000000000000) = .ok (.ok (U256.new c (100)))
    ∧ U256.deserialize_permissive c (.str (str "1000")) = .ok (.ok (U256.new c (1000)))
    ∧ U256.deserialize_permissive c (.str (str "0x42")) = .ok (.ok (U256.new c (66)))
    ∧ U256.deserialize_permissive c (.str (str "0xffffffffffffffffffffffffffffffffffffffffffffffffffffffffffffffff")) = .ok (.ok U256.MAX) := by decide +kernel

/- src/serde.rs permissive::deserialize errors -/
example : ∀ c ∈ cfgs,
    rejected (I256.deserialize_permissive c (.f32 0x40866666)) = true
    ∧ rejected (I256.deserialize_permissive c (.f32 0x4b800000)) = true
    ∧ rejected (I256.deserialize_permissive c (.f64 0xc02abd70a3d70a3d)) = true
    ∧ rejected (I256.deserialize_permissive c (.f32 0x5a000000)) = true
    ∧ rejected (I256.deserialize_permissive c (.str (str "0x8000000000000000000000000000000000000000000000000000000000000000"))) = true
    ∧ rejected (I256.deserialize_permissive c (.str (str "-0x8000000000000000000000000000000000000000000000000000000000000001"))) = true
    ∧ rejected (U256.deserialize_permissive c (.f32 0x40866666)) = true
    ∧ rejected (U256.deserialize_permissive c (.f32 0x4b800000)) = true
    ∧ rejected (U256.deserialize_permissive c (.f64 0x402abd70a3d70a3d)) = true
    ∧ rejected (U256.deserialize_permissive c (.f32 0x5a000000)) = true
    ∧ rejected (U256.deserialize_permissive c (.str (str "0x10000000000000000000000000000000000000000000000000000000000000000"))) = true := by decide +kernel

/- src/serde.rs bytes::le::deserialize -/
example : ∀ c ∈ cfgs,
    deBytes (U256.deserialize_bytes c .le) (List.replicate 32 0) (some U256.ZERO) = true
    ∧ deBytes (U256.deserialize_bytes c .le) (List.replicate 32 255) (some U256.MAX) = true
    ∧ deBytes (I256.deserialize_bytes c .le) (List.replicate 32 0) (some I256.ZERO) = true
    ∧ deBytes (I256.deserialize_bytes c .le) (List.replicate 32 255) (some (I256.new c (-1))) = true
    ∧ deBytes (U256.deserialize_bytes c .le) ([0x2a] ++ List.replicate 31 0) (some (U256.new c (42))) = true
    ∧ deBytes (I256.deserialize_bytes c .le) ([0x2a] ++ List.replicate 31 0) (some (I256.new c (42))) = true
    ∧ deBytes (U256.deserialize_bytes c .le) (List.replicate 31 255) none = true
    ∧ deBytes (U256.deserialize_bytes c .le) (List.replicate 33 255) none = true
    ∧ deBytes (I256.deserialize_bytes c .le) (List.replicate 31 255) none = true
    ∧ deBytes (I256.deserialize_bytes c .le) (List.replicate 33 255) none = true := by decide +kernel

/- src/serde.rs compressed_bytes::le::deserialize -/
example : ∀ c ∈ cfgs,
    deBytes (U256.deserialize_compressed c .le) ([]) (some U256.ZERO) = true
    ∧ deBytes (U256.deserialize_compressed c .le) (List.replicate 32 255) (some U256.MAX) = true
    ∧ deBytes (U256.deserialize_compressed c .le) ([0x2a]) (some (U256.new c (42))) = true
    ∧ deBytes (U256.deserialize_compressed c .le) ([0xee, 0xff]) (some (U256.new c (0xffee))) = true
    ∧ deBytes (I256.deserialize_compressed c .le) ([]) (some I256.ZERO) = true
    ∧ deBytes (I256.deserialize_compressed c .le) ([0xff]) (some (I256.new c (-1))) = true
    ∧ deBytes (U256.deserialize_compressed c .le) (List.replicate 33 255) none = true
    ∧ deBytes (I256.deserialize_compressed c .le) (List.replicate 33 255) none = true := by decide +kernel

/- src/serde.rs bytes::be::deserialize -/
example : ∀ c ∈ cfgs,
    deBytes (U256.deserialize_bytes c .be) (List.replicate 32 0) (some U256.ZERO) = true
    ∧ deBytes (U256.deserialize_bytes c .be) (List.replicate 32 255) (some U256.MAX) = true
    ∧ deBytes (I256.deserialize_bytes c .be) (List.replicate 32 0) (some I256.ZERO) = true
    ∧ deBytes (I256.deserialize_bytes c .be) (List.replicate 32 255) (some (I256.new c (-1))) = true
    ∧ deBytes (U256.deserialize_bytes c .be) (List.replicate 31 0 ++ [0x2a]) (some (U256.new c (42))) = true
    ∧ deBytes (I256.deserialize_bytes c .be) (List.replicate 31 0 ++ [0x2a]) (some (I256.new c (42))) = true
    ∧ deBytes (U256.deserialize_bytes c .be) (List.replicate 31 255) none = true
    ∧ deBytes (U256.deserialize_bytes c .be) (List.replicate 33 255) none = true
    ∧ deBytes (I256.deserialize_bytes c .be) (List.replicate 31 255) none = true
    ∧ deBytes (I256.deserialize_bytes c .be) (List.replicate 33 255) none = true := by decide +kernel

/- src/serde.rs compressed_bytes::be::deserialize -/
example : ∀ c ∈ cfgs,
    deBytes (U256.deserialize_compressed c .be) ([]) (some U256.ZERO) = true
    ∧ deBytes (U256.deserialize_compressed c .be) (List.replicate 32 255) (some U256.MAX) = true
    ∧ deBytes (U256.deserialize_compressed c .be) ([0x2a]) (some (U256.new c (42))) = true
    ∧ deBytes (U256.deserialize_compressed c .be) ([0xff, 0xee]) (some (U256.new c (0xffee))) = true
    ∧ deBytes (I256.deserialize_compressed c .be) ([]) (some I256.ZERO) = true
    ∧ deBytes (I256.deserialize_compressed c .be) ([0xfe]) (some (I256.new c (-2))) = true
    ∧ deBytes (U256.deserialize_compressed c .be) (List.replicate 33 255) none = true
    ∧ deBytes (I256.deserialize_compressed c .be) (List.replicate 33 255) none = true := by decide +kernel

/- src/uint/convert.rs 66-71, src/int/convert.rs 48-54 -/
example : ∀ c ∈ cfgs,
    U256.of_float c .f64 0xfff0000000000000 = .ok U256.ZERO
    ∧ U256.of_float c .f64 0xbff0000000000000 = .ok U256.ZERO
    ∧ U256.of_float c .f64 0x7ff0000000000000 = .ok U256.MAX
    ∧ U256.of_float c .f64 0x5000000000000000 = .ok U256.MAX
    ∧ U256.of_float c .f64 0x7ff8000000000000 = .ok U256.ZERO := by decide +kernel

/- src/uint.rs, src/int.rs converts_to_f64 -/
example : ∀ c ∈ cfgs,
    (U256.from_words c 1 0).as_f64 c = 0x47f0000000000000
    ∧ (do let x ← (I256.from_words c 1 0).neg c; pure (x.as_f64 c) : Res _) = .ok 0xc7f0000000000000 := by decide +kernel

/- src/intrinsics/native/divmod.rs 499-606 -/
example : ∀ c ∈ cfgs,
    (do let b ← (pure (U256.new c (9))); Intr.udiv3 c (U256.new c (100)) b : Res _) = .ok (U256.new c (11))
    ∧ (do let b ← (pure (U256.new c (9))); Intr.urem3 c (U256.new c (100)) b : Res _) = .ok (U256.new c (1))
    ∧ (do let b ← (U256.ONE c).shl c 128; Intr.udiv3 c (U256.new c (-1)) b : Res _) = .ok (U256.new c (0))
    ∧ (do let b ← (U256.ONE c).shl c 128; Intr.urem3 c (U256.new c (-1)) b : Res _) = .ok (U256.new c (-1))
    ∧ (do let b ← (pure (U256.from_words c (10) (0))); Intr.udiv3 c (U256.from_words c (100) (0)) b : Res _) = .ok (U256.new c (10))
    ∧ (do let b ← (pure (U256.from_words c (10) (0))); Intr.urem3 c (U256.from_words c (100) (0)) b : Res _) = .ok (U256.new c (0))
    ∧ (do let b ← (U256.ONE c).shl c 130; Intr.udiv3 c (U256.from_words c (100) (1337)) b : Res _) = .ok (U256.new c (25))
    ∧ (do let b ← (U256.ONE c).shl c 130; Intr.urem3 c (U256.from_words c (100) (1337)) b : Res _) = .ok (U256.new c (1337))
    ∧ (do let b ← (pure (U256.from_words c (63) (0))); Intr.udiv3 c (U256.from_words c (1337) (-1)) b : Res _) = .ok (U256.new c (21))
    ∧ (do let b ← (pure (U256.from_words c (63) (0))); Intr.urem3 c (U256.from_words c (1337) (-1)) b : Res _) = .ok (U256.from_words c (14) (-1))
    ∧ (do let b ← (pure (U256.ONE c)); Intr.udiv3 c (U256.from_words c (42) (0)) b : Res _) = .ok (U256.from_words c (42) (0))
    ∧ (do let b ← (pure (U256.ONE c)); Intr.urem3 c (U256.from_words c (42) (0)) b : Res _) = .ok (U256.new c (0))
    ∧ (do let b ← (U256.ONE c).shl c 42; Intr.udiv3 c (U256.from_words c (42) (42)) b : Res _) = .ok (U256.new c (3249592603124123221610201088))
    ∧ (do let b ← (U256.ONE c).shl c 42; Intr.urem3 c (U256.from_words c (42) (42)) b : Res _) = .ok (U256.new c (42))
    ∧ (do let b ← (pure (U256.new c (0xc0ffee))); Intr.udiv3 c (U256.from_words c (1337) (-1)) b : Res _) = .ok (U256.new c (35996389033280467545299711090127855))
    ∧ (do let b ← (pure (U256.new c (0xc0ffee))); Intr.urem3 c (U256.from_words c (1337) (-1)) b : Res _) = .ok (U256.new c (1910477))
    ∧ (do let b ← (pure (U256.new c (99))); Intr.udiv3 c (U256.from_words c (42) (0)) b : Res _) = .ok (U256.new c (144362216269489045105674075880144089708))
    ∧ (do let b ← (pure (U256.new c (99))); Intr.urem3 c (U256.from_words c (42) (0)) b : Res _) = .ok (U256.new c (60))
    ∧ (do let b ← (pure (U256.from_words c (1000) (1000))); Intr.udiv3 c (U256.from_words c (100) (100)) b : Res _) = .ok (U256.new c (0))
    ∧ (do let b ← (pure (U256.from_words c (1000) (1000))); Intr.urem3 c (U256.from_words c (100) (100)) b : Res _) = .ok (U256.from_words c (100) (100))
    ∧ (do let b ← (pure (U256.from_words c (43) (-1))); Intr.udiv3 c (U256.from_words c (1337) (-1)) b : Res _) = .ok (U256.new c (30))
    ∧ (do let b ← (pure (U256.from_words c (43) (-1))); Intr.urem3 c (U256.from_words c (1337) (-1)) b : Res _) = .ok (U256.from_words c (18) (29)) := by decide +kernel

/- src/intrinsics/native/divmod.rs 556-560, 609-613 (should_panic) -/
example : ∀ c ∈ cfgs,
    Panics (Intr.udiv3 c (U256.new c (1)) (U256.new c (0)))
    ∧ Panics (Intr.urem3 c (U256.new c (1)) (U256.new c (0))) := by decide +kernel

/- src/intrinsics/native/mul.rs 105-117 -/
example : ∀ c ∈ cfgs,
    Intr.umulc c (U256.new c (6)) (U256.new c (7)) = .ok ((U256.new c (42)), false)
    ∧ Intr.umulc c U256.MAX (U256.new c (1)) = .ok (U256.MAX, false)
    ∧ Intr.umulc c (U256.new c (1)) U256.MAX = .ok (U256.MAX, false)
    ∧ Intr.umulc c U256.MAX (U256.new c (0)) = .ok (U256.ZERO, false)
    ∧ Intr.umulc c (U256.new c (0)) U256.MAX = .ok (U256.ZERO, false)
    ∧ Intr.umulc c U256.MAX (U256.new c (5)) = .ok (U256.MAX.bitxor (U256.new c (4)), true)
    ∧ Intr.umulc c (U256.new c (-1)) (U256.new c (-1)) = .ok ((U256.from_words c (-2) (1)), false) := by decide +kernel

/- src/uint/parse.rs 29-62 -/
example : ∀ c ∈ cfgs,
    from_str_radix (U256.radixHelper c) (str "0b101") 2 (some (str "0b")) = .ok (.ok (U256.new c (5)))
    ∧ from_str_radix (U256.radixHelper c) (str "0xf") 16 (some (str "0x")) = .ok (.ok (U256.new c (15)))
    ∧ from_str_radix (U256.radixHelper c) (str "") 2 none = .ok (.error .empty)
    ∧ from_str_radix (U256.radixHelper c) (str "?") 2 none = .ok (.error .invalidDigit)
    ∧ from_str_radix (U256.radixHelper c) (str "1") 16 (some (str "0x")) = .ok (.error .invalidDigit)
    ∧ from_str_radix (U256.radixHelper c) (str "-1") 10 none = .ok (.error .invalidDigit)
    ∧ from_str_radix (U256.radixHelper c) (str "zzzzzzzzzzzzzzzzzzzzzzzzzzzzzzzzzzzzzzzzzzzzzzzzzz") 36 none = .ok (.error .posOverflow) := by decide +kernel

/- src/int/parse.rs 51-91 -/
example : ∀ c ∈ cfgs,
    from_str_radix (I256.radixHelper c) (str "0b101") 2 (some (str "0b")) = .ok (.ok (I256.new c (5)))
    ∧ from_str_radix (I256.radixHelper c) (str "-0xf") 16 (some (str "0x")) = .ok (.ok (I256.new c (-15)))
    ∧ from_str_radix (I256.radixHelper c) (str "") 2 none = .ok (.error .empty)
    ∧ from_str_radix (I256.radixHelper c) (str "?") 2 none = .ok (.error .invalidDigit)
    ∧ from_str_radix (I256.radixHelper c) (str "1") 16 (some (str "0x")) = .ok (.error .invalidDigit)
    ∧ from_str_radix (I256.radixHelper c) (str "zzzzzzzzzzzzzzzzzzzzzzzzzzzzzzzzzzzzzzzzzzzzzzzzzz") 36 none = .ok (.error .posOverflow)
    ∧ from_str_radix (I256.radixHelper c) (str "-zzzzzzzzzzzzzzzzzzzzzzzzzzzzzzzzzzzzzzzzzzzzzzzzzz") 36 none = .ok (.error .negOverflow) := by decide +kernel

/- src/uint/parse.rs 66-120 -/
example : ∀ c ∈ cfgs,
    U256.const_from_str_prefixed c (str "+0b1101") = .ok (U256.new c (0b1101))
    ∧ U256.const_from_str_prefixed c (str "0o777") = .ok (U256.new c (0o777))
    ∧ U256.const_from_str_prefixed c (str "+0x1f") = .ok (U256.new c (0x1f))
    ∧ U256.const_from_str_prefixed c (str "42") = .ok (U256.new c (42))
    ∧ U256.const_from_str_prefixed c (str "0xffff_ffff_ffff_ffff_ffff_ffff_ffff_fffebaae_dce6_af48_a03b_bfd2_5e8c_d036_4141") = .ok (U256.from_words c (0xfffffffffffffffffffffffffffffffe) (0xbaaedce6af48a03bbfd25e8cd0364141))
    ∧ U256.const_from_str_prefixed c (str "0x0000_0000_0000_0000_0000_0000_0000_00000000_0000_0000_0000_0000_0000_0000_0000") = .ok U256.MIN
    ∧ U256.const_from_str_prefixed c (str "+0xffff_ffff_ffff_ffff_ffff_ffff_ffff_ffffffff_ffff_ffff_ffff_ffff_ffff_ffff_ffff") = .ok U256.MAX
    ∧ Panics (U256.const_from_str_prefixed c (str "0x10000_0000_0000_0000_0000_0000_0000_00000000_0000_0000_0000_0000_0000_0000_0000"))
    ∧ Panics (U256.const_from_str_prefixed c (str "invalid")) := by decide +kernel

/- src/int/parse.rs 95-160 -/
example : ∀ c ∈ cfgs,
    I256.const_from_str_prefixed c (str "-0b1101") = .ok (I256.new c (-0b1101))
    ∧ I256.const_from_str_prefixed c (str "0o777") = .ok (I256.new c (0o777))
    ∧ I256.const_from_str_prefixed c (str "-0x1f") = .ok (I256.new c (-0x1f))
    ∧ I256.const_from_str_prefixed c (str "+42") = .ok (I256.new c (42))
    ∧ I256.const_from_str_prefixed c (str "0x7fff_ffff_ffff_ffff_ffff_ffff_ffff_fffebaae_dce6_af48_a03b_bfd2_5e8c_d036_4141") = .ok (I256.from_words c (0x7ffffffffffffffffffffffffffffffe) (0xbaaedce6af48a03bbfd25e8cd0364141))
    ∧ I256.const_from_str_prefixed c (str "-0x8000_0000_0000_0000_0000_0000_0000_00000000_0000_0000_0000_0000_0000_0000_0000") = .ok (I256.MIN c)
    ∧ I256.const_from_str_prefixed c (str "+0x7fff_ffff_ffff_ffff_ffff_ffff_ffff_ffffffff_ffff_ffff_ffff_ffff_ffff_ffff_ffff") = .ok (I256.MAX c)
    ∧ Panics (I256.const_from_str_prefixed c (str "0x8000_0000_0000_0000_0000_0000_0000_00000000_0000_0000_0000_0000_0000_0000_0000"))
    ∧ Panics (I256.const_from_str_prefixed c (str "-0x8000_0000_0000_0000_0000_0000_0000_00000000_0000_0000_0000_0000_0000_0000_0001"))
    ∧ Panics (I256.const_from_str_prefixed c (str "invalid")) := by decide +kernel

/- src/int/convert.rs 206-229 -/
example : ∀ c ∈ cfgs,
    ((I256.prim_try_from c .i32 (I256.new c (-10))).map (PrimTy.toInt (c := c) .i32) = some (-10))
    ∧ ((I256.prim_try_from c .i32 (I256.new c (10))).map (PrimTy.toInt (c := c) .i32) = some 10)
    ∧ ((I256.prim_try_from c .i32 (I256.MIN c)).map (PrimTy.toInt (c := c) .i32) = none)
    ∧ ((I256.prim_try_from c .i32 (I256.MAX c)).map (PrimTy.toInt (c := c) .i32) = none)
    ∧ (do let l ← (I256.from_prim c .i128 (BitVec.ofInt 128 (2 ^ 127 - 1))).mul c (I256.ofInt c 10000000000000000000); let q ← l.checked_div c (I256.ofInt c (-1000000000000000000)); pure (q.map fun q => (q.prim_try_from c .i128).isNone) : Res _) = .ok (some true) := by decide +kernel

/- src/uint/cmp.rs -/
example : ∀ c ∈ cfgs,
    U256.lt c (U256.from_words c (0) (100000000000000000000000000000000000000)) (U256.from_words c (2938735877) (18960114910927365649471927446130393088)) = true
    ∧ U256.cmp c (U256.from_words c (0) (100000000000000000000000000000000000000)) (U256.from_words c (2938735877) (18960114910927365649471927446130393088)) = .lt
    ∧ U256.gt c (U256.from_words c (2938735877) (18960114910927365649471927446130393088)) (U256.from_words c (0) (100000000000000000000000000000000000000)) = true
    ∧ U256.cmp c (U256.from_words c (2938735877) (18960114910927365649471927446130393088)) (U256.from_words c (0) (100000000000000000000000000000000000000)) = .gt
    ∧ U256.le c (U256.new c 100) (U256.new c 100) = true
    ∧ U256.cmp c (U256.new c 100) (U256.new c 100) = .eq
    ∧ (U256.ONE c).gt_prim c 0 = true
    ∧ U256.ZERO.eq_prim c 0 = true := by decide +kernel

/- src/uint/iter.rs -/
example : ∀ c ∈ cfgs,
    U256.sum c [U256.new c 1, U256.new c 2, U256.new c 3] = .ok (U256.new c 6)
    ∧ U256.product c [U256.new c 6, U256.new c 7] = .ok (U256.new c 42) := by decide +kernel

/- src/int/cmp.rs -/
example : ∀ c ∈ cfgs,
    I256.lt c (I256.from_words c (0) (100000000000000000000000000000000000000)) (I256.from_words c (2938735877) (18960114910927365649471927446130393088)) = true
    ∧ I256.cmp c (I256.from_words c (0) (100000000000000000000000000000000000000)) (I256.from_words c (2938735877) (18960114910927365649471927446130393088)) = .lt
    ∧ I256.gt c (I256.from_words c (2938735877) (18960114910927365649471927446130393088)) (I256.from_words c (0) (100000000000000000000000000000000000000)) = true
    ∧ I256.cmp c (I256.from_words c (2938735877) (18960114910927365649471927446130393088)) (I256.from_words c (0) (100000000000000000000000000000000000000)) = .gt
    ∧ I256.le c (I256.new c 100) (I256.new c 100) = true
    ∧ I256.cmp c (I256.new c 100) (I256.new c 100) = .eq
    ∧ (I256.ONE c).gt_prim c 0 = true
    ∧ I256.ZERO.eq_prim c 0 = true := by decide +kernel

/- src/int/iter.rs -/
example : ∀ c ∈ cfgs,
    I256.sum c [I256.new c 1, I256.new c 2, I256.new c 3] = .ok (I256.new c 6)
    ∧ I256.product c [I256.new c 6, I256.new c 7] = .ok (I256.new c 42) := by decide +kernel

/- src/int/cmp.rs 56-61 -/
example : ∀ c ∈ cfgs,
    I256.ZERO.gt c (I256.MIN c) = true
    ∧ I256.ZERO.lt c (I256.MAX c) = true
    ∧ (I256.MAX c).gt c (I256.MIN c) = true
    ∧ (I256.MIN c).lt c (I256.MAX c) = true := by decide +kernel

/- src/uint/api.rs from_be, from_le, to_be, to_le -/
example : ∀ c ∈ cfgs,
    U256.from_be c (U256.new c 0x1A) = (if c.bigEndian then (U256.new c 0x1A) else (U256.new c 0x1A).swap_bytes)
    ∧ U256.from_le c (U256.new c 0x1A) = (if c.bigEndian then (U256.new c 0x1A).swap_bytes else (U256.new c 0x1A))
    ∧ U256.to_be c (U256.new c 0x1A) = (if c.bigEndian then (U256.new c 0x1A) else (U256.new c 0x1A).swap_bytes)
    ∧ U256.to_le c (U256.new c 0x1A) = (if c.bigEndian then (U256.new c 0x1A).swap_bytes else (U256.new c 0x1A)) := by decide +kernel

/- src/int/api.rs from_be, from_le, to_be, to_le -/
example : ∀ c ∈ cfgs,
    I256.from_be c (I256.new c 0x1A) = (if c.bigEndian then (I256.new c 0x1A) else (I256.new c 0x1A).swap_bytes)
    ∧ I256.from_le c (I256.new c 0x1A) = (if c.bigEndian then (I256.new c 0x1A).swap_bytes else (I256.new c 0x1A))
    ∧ I256.to_be c (I256.new c 0x1A) = (if c.bigEndian then (I256.new c 0x1A) else (I256.new c 0x1A).swap_bytes)
    ∧ I256.to_le c (I256.new c 0x1A) = (if c.bigEndian then (I256.new c 0x1A).swap_bytes else (I256.new c 0x1A)) := by decide +kernel

end Ethnum.UnitTests
