import Verif.Model.Parse
import Verif.Model.Fmt
import Verif.Model.Bytes
import Verif.Model.IntApi
import Verif.Model.Convert
import Verif.Spec

/-
Generated by tools/doctests.py from the documentation examples and unit tests of /repo/src: the assertions the authors
make about the code, checked of the model. They are tests of the model, not proofs of the properties.
-/

set_option maxRecDepth 100000

namespace Ethnum.DocTests

/-- A little-endian build with debug assertions and a big-endian release build. -/
def cfgs : List Cfg := [⟨false, true, true, .w64, false⟩, ⟨true, false, false, .w32, false⟩]
/-- `Result::unwrap` of a parse -/
def unwrap {α : Type} : ParseResult α → Res α | .ok v => .ok v | .error _ => throwPanic .explicit
/-- `Option::unwrap` -/
def unwrapO {α : Type} : Option α → Res α | some v => .ok v | none => throwPanic .explicit

/- src/int.rs:129 -/
example : ∀ c ∈ cfgs, (do let t0 ← I256.from_str_hex c (str "0x2A"); let t1 := I256.new c (BitVec.ofInt 128 (42)); pure ((match t0 with | .ok v => (I256.eq c v t1) | .error _ => false)) : Res Bool) = .ok true := by decide +kernel

/- src/int.rs:130 -/
example : ∀ c ∈ cfgs, (do let t0 ← I256.from_str_hex c (str "-0xa"); let t1 := I256.new c (BitVec.ofInt 128 (-10)); pure ((match t0 with | .ok v => (I256.eq c v t1) | .error _ => false)) : Res Bool) = .ok true := by decide +kernel

/- src/int.rs:155 -/
example : ∀ c ∈ cfgs, (do let t0 ← I256.from_str_prefixed c (str "-0b101"); let t1 := I256.new c (BitVec.ofInt 128 (-5)); pure ((match t0 with | .ok v => (I256.eq c v t1) | .error _ => false)) : Res Bool) = .ok true := by decide +kernel

/- src/int.rs:156 -/
example : ∀ c ∈ cfgs, (do let t0 ← I256.from_str_prefixed c (str "0o17"); let t1 := I256.new c (BitVec.ofInt 128 (15)); pure ((match t0 with | .ok v => (I256.eq c v t1) | .error _ => false)) : Res Bool) = .ok true := by decide +kernel

/- src/int.rs:157 -/
example : ∀ c ∈ cfgs, (do let t0 ← I256.from_str_prefixed c (str "-0xa"); let t1 := I256.new c (BitVec.ofInt 128 (-10)); pure ((match t0 with | .ok v => (I256.eq c v t1) | .error _ => false)) : Res Bool) = .ok true := by decide +kernel

/- src/int.rs:158 -/
example : ∀ c ∈ cfgs, (do let t0 ← I256.from_str_prefixed c (str "42"); let t1 := I256.new c (BitVec.ofInt 128 (42)); pure ((match t0 with | .ok v => (I256.eq c v t1) | .error _ => false)) : Res Bool) = .ok true := by decide +kernel

/- src/int.rs:288 -/
example : ∀ c ∈ cfgs, (do let t0 := I256.new c (BitVec.ofInt 128 (22)); let t1 := I256.new c (BitVec.ofInt 128 (5)); let t2 ← I256.div_rem c t0 t1; let t3 := I256.new c (BitVec.ofInt 128 (4)); let t4 := I256.new c (BitVec.ofInt 128 (2)); pure (((I256.eq c (t2).1 t3) && (I256.eq c (t2).2 t4))) : Res Bool) = .ok true := by decide +kernel

/- src/int.rs:289 -/
example : ∀ c ∈ cfgs, (do let t0 := I256.new c (BitVec.ofInt 128 (-22)); let t1 := I256.new c (BitVec.ofInt 128 (5)); let t2 ← I256.div_rem c t0 t1; let t3 := I256.new c (BitVec.ofInt 128 (-4)); let t4 := I256.new c (BitVec.ofInt 128 (-2)); pure (((I256.eq c (t2).1 t3) && (I256.eq c (t2).2 t4))) : Res Bool) = .ok true := by decide +kernel

/- src/int.rs:290 -/
example : ∀ c ∈ cfgs, (do let t0 := I256.new c (BitVec.ofInt 128 (22)); let t1 := I256.new c (BitVec.ofInt 128 (-5)); let t2 ← I256.div_rem c t0 t1; let t3 := I256.new c (BitVec.ofInt 128 (-4)); let t4 := I256.new c (BitVec.ofInt 128 (2)); pure (((I256.eq c (t2).1 t3) && (I256.eq c (t2).2 t4))) : Res Bool) = .ok true := by decide +kernel

/- src/int.rs:291 -/
example : ∀ c ∈ cfgs, (do let t0 := I256.new c (BitVec.ofInt 128 (-22)); let t1 := I256.new c (BitVec.ofInt 128 (-5)); let t2 ← I256.div_rem c t0 t1; let t3 := I256.new c (BitVec.ofInt 128 (4)); let t4 := I256.new c (BitVec.ofInt 128 (-2)); pure (((I256.eq c (t2).1 t3) && (I256.eq c (t2).2 t4))) : Res Bool) = .ok true := by decide +kernel

/- src/int.rs:318 -/
example : ∀ c ∈ cfgs, (do let t0 := I256.new c (BitVec.ofInt 128 (22)); let t1 := I256.new c (BitVec.ofInt 128 (5)); let t2 ← I256.div_rem_euclid c t0 t1; let t3 := I256.new c (BitVec.ofInt 128 (4)); let t4 := I256.new c (BitVec.ofInt 128 (2)); pure (((I256.eq c (t2).1 t3) && (I256.eq c (t2).2 t4))) : Res Bool) = .ok true := by decide +kernel

/- src/int.rs:319 -/
example : ∀ c ∈ cfgs, (do let t0 := I256.new c (BitVec.ofInt 128 (-22)); let t1 := I256.new c (BitVec.ofInt 128 (5)); let t2 ← I256.div_rem_euclid c t0 t1; let t3 := I256.new c (BitVec.ofInt 128 (-5)); let t4 := I256.new c (BitVec.ofInt 128 (3)); pure (((I256.eq c (t2).1 t3) && (I256.eq c (t2).2 t4))) : Res Bool) = .ok true := by decide +kernel

/- src/int.rs:320 -/
example : ∀ c ∈ cfgs, (do let t0 := I256.new c (BitVec.ofInt 128 (22)); let t1 := I256.new c (BitVec.ofInt 128 (-5)); let t2 ← I256.div_rem_euclid c t0 t1; let t3 := I256.new c (BitVec.ofInt 128 (-4)); let t4 := I256.new c (BitVec.ofInt 128 (2)); pure (((I256.eq c (t2).1 t3) && (I256.eq c (t2).2 t4))) : Res Bool) = .ok true := by decide +kernel

/- src/int.rs:321 -/
example : ∀ c ∈ cfgs, (do let t0 := I256.new c (BitVec.ofInt 128 (-22)); let t1 := I256.new c (BitVec.ofInt 128 (-5)); let t2 ← I256.div_rem_euclid c t0 t1; let t3 := I256.new c (BitVec.ofInt 128 (5)); let t4 := I256.new c (BitVec.ofInt 128 (3)); pure (((I256.eq c (t2).1 t3) && (I256.eq c (t2).2 t4))) : Res Bool) = .ok true := by decide +kernel

/- src/int.rs:323 -/
example : ∀ c ∈ cfgs, (do let t0 := I256.new c (BitVec.ofInt 128 (20)); let t1 := I256.new c (BitVec.ofInt 128 (5)); let t2 ← I256.div_rem_euclid c t0 t1; let t3 := I256.new c (BitVec.ofInt 128 (4)); let t4 := I256.new c (BitVec.ofInt 128 (0)); pure (((I256.eq c (t2).1 t3) && (I256.eq c (t2).2 t4))) : Res Bool) = .ok true := by decide +kernel

/- src/int.rs:324 -/
example : ∀ c ∈ cfgs, (do let t0 := I256.new c (BitVec.ofInt 128 (-20)); let t1 := I256.new c (BitVec.ofInt 128 (5)); let t2 ← I256.div_rem_euclid c t0 t1; let t3 := I256.new c (BitVec.ofInt 128 (-4)); let t4 := I256.new c (BitVec.ofInt 128 (0)); pure (((I256.eq c (t2).1 t3) && (I256.eq c (t2).2 t4))) : Res Bool) = .ok true := by decide +kernel

/- src/int.rs:325 -/
example : ∀ c ∈ cfgs, (do let t0 := I256.new c (BitVec.ofInt 128 (20)); let t1 := I256.new c (BitVec.ofInt 128 (-5)); let t2 ← I256.div_rem_euclid c t0 t1; let t3 := I256.new c (BitVec.ofInt 128 (-4)); let t4 := I256.new c (BitVec.ofInt 128 (0)); pure (((I256.eq c (t2).1 t3) && (I256.eq c (t2).2 t4))) : Res Bool) = .ok true := by decide +kernel

/- src/int.rs:326 -/
example : ∀ c ∈ cfgs, (do let t0 := I256.new c (BitVec.ofInt 128 (-20)); let t1 := I256.new c (BitVec.ofInt 128 (-5)); let t2 ← I256.div_rem_euclid c t0 t1; let t3 := I256.new c (BitVec.ofInt 128 (4)); let t4 := I256.new c (BitVec.ofInt 128 (0)); pure (((I256.eq c (t2).1 t3) && (I256.eq c (t2).2 t4))) : Res Bool) = .ok true := by decide +kernel

/- src/int.rs:348 -/
example : ∀ c ∈ cfgs, (do let t0 := I256.MIN c; let t1 := I256.new c (BitVec.ofInt 128 (1)); let t2 ← I256.add c t0 t1; let t3 := I256.new c (BitVec.ofInt 128 (-1)); let t4 ← I256.checked_div_rem c t2 t3; let t5 := I256.MAX c; let t6 := I256.new c (BitVec.ofInt 128 (0)); pure ((match t4 with | some v => ((I256.eq c (v).1 t5) && (I256.eq c (v).2 t6)) | none => false)) : Res Bool) = .ok true := by decide +kernel

/- src/int.rs:349 -/
example : ∀ c ∈ cfgs, (do let t0 := I256.MIN c; let t1 := I256.new c (BitVec.ofInt 128 (-1)); let t2 ← I256.checked_div_rem c t0 t1; pure ((t2).isNone) : Res Bool) = .ok true := by decide +kernel

/- src/int.rs:350 -/
example : ∀ c ∈ cfgs, (do let t0 := I256.new c (BitVec.ofInt 128 (1)); let t1 := I256.new c (BitVec.ofInt 128 (0)); let t2 ← I256.checked_div_rem c t0 t1; pure ((t2).isNone) : Res Bool) = .ok true := by decide +kernel

/- src/int.rs:381 -/
example : ∀ c ∈ cfgs, (do let t0 := I256.MIN c; let t1 := I256.new c (BitVec.ofInt 128 (1)); let t2 ← I256.add c t0 t1; let t3 := I256.new c (BitVec.ofInt 128 (-1)); let t4 ← I256.checked_div_rem_euclid c t2 t3; let t5 := I256.MAX c; let t6 := I256.new c (BitVec.ofInt 128 (0)); pure ((match t4 with | some v => ((I256.eq c (v).1 t5) && (I256.eq c (v).2 t6)) | none => false)) : Res Bool) = .ok true := by decide +kernel

/- src/int.rs:382 -/
example : ∀ c ∈ cfgs, (do let t0 := I256.MIN c; let t1 := I256.new c (BitVec.ofInt 128 (-1)); let t2 ← I256.checked_div_rem_euclid c t0 t1; pure ((t2).isNone) : Res Bool) = .ok true := by decide +kernel

/- src/int.rs:383 -/
example : ∀ c ∈ cfgs, (do let t0 := I256.new c (BitVec.ofInt 128 (1)); let t1 := I256.new c (BitVec.ofInt 128 (0)); let t2 ← I256.checked_div_rem_euclid c t0 t1; pure ((t2).isNone) : Res Bool) = .ok true := by decide +kernel

/- src/int.rs:411 -/
example : ∀ c ∈ cfgs, (do let t0 := I256.new c (BitVec.ofInt 128 (5)); let t1 := I256.new c (BitVec.ofInt 128 (2)); let t2 ← I256.saturating_div_rem c t0 t1; let t3 := I256.new c (BitVec.ofInt 128 (2)); let t4 := I256.new c (BitVec.ofInt 128 (1)); pure (((I256.eq c (t2).1 t3) && (I256.eq c (t2).2 t4))) : Res Bool) = .ok true := by decide +kernel

/- src/int.rs:412 -/
example : ∀ c ∈ cfgs, (do let t0 := I256.MAX c; let t1 := I256.new c (BitVec.ofInt 128 (-1)); let t2 ← I256.saturating_div_rem c t0 t1; let t3 := I256.MIN c; let t4 := I256.new c (BitVec.ofInt 128 (1)); let t5 ← I256.add c t3 t4; let t6 := I256.new c (BitVec.ofInt 128 (0)); pure (((I256.eq c (t2).1 t5) && (I256.eq c (t2).2 t6))) : Res Bool) = .ok true := by decide +kernel

/- src/int.rs:413 -/
example : ∀ c ∈ cfgs, (do let t0 := I256.MIN c; let t1 := I256.new c (BitVec.ofInt 128 (-1)); let t2 ← I256.saturating_div_rem c t0 t1; let t3 := I256.MAX c; let t4 := I256.new c (BitVec.ofInt 128 (0)); pure (((I256.eq c (t2).1 t3) && (I256.eq c (t2).2 t4))) : Res Bool) = .ok true := by decide +kernel

/- src/int.rs:439 -/
example : ∀ c ∈ cfgs, (do let t0 := I256.new c (BitVec.ofInt 128 (5)); let t1 := I256.new c (BitVec.ofInt 128 (2)); let t2 ← I256.saturating_div_rem_euclid c t0 t1; let t3 := I256.new c (BitVec.ofInt 128 (2)); let t4 := I256.new c (BitVec.ofInt 128 (1)); pure (((I256.eq c (t2).1 t3) && (I256.eq c (t2).2 t4))) : Res Bool) = .ok true := by decide +kernel

/- src/int.rs:440 -/
example : ∀ c ∈ cfgs, (do let t0 := I256.MAX c; let t1 := I256.new c (BitVec.ofInt 128 (-1)); let t2 ← I256.saturating_div_rem_euclid c t0 t1; let t3 := I256.MIN c; let t4 := I256.new c (BitVec.ofInt 128 (1)); let t5 ← I256.add c t3 t4; let t6 := I256.new c (BitVec.ofInt 128 (0)); pure (((I256.eq c (t2).1 t5) && (I256.eq c (t2).2 t6))) : Res Bool) = .ok true := by decide +kernel

/- src/int.rs:441 -/
example : ∀ c ∈ cfgs, (do let t0 := I256.MIN c; let t1 := I256.new c (BitVec.ofInt 128 (-1)); let t2 ← I256.saturating_div_rem_euclid c t0 t1; let t3 := I256.MAX c; let t4 := I256.new c (BitVec.ofInt 128 (0)); pure (((I256.eq c (t2).1 t3) && (I256.eq c (t2).2 t4))) : Res Bool) = .ok true := by decide +kernel

/- src/int.rs:470 -/
example : ∀ c ∈ cfgs, (do let t0 := I256.new c (BitVec.ofInt 128 (22)); let t1 := I256.new c (BitVec.ofInt 128 (5)); let t2 ← I256.wrapping_div_rem c t0 t1; let t3 := I256.new c (BitVec.ofInt 128 (4)); let t4 := I256.new c (BitVec.ofInt 128 (2)); pure (((I256.eq c (t2).1 t3) && (I256.eq c (t2).2 t4))) : Res Bool) = .ok true := by decide +kernel

/- src/int.rs:471 -/
example : ∀ c ∈ cfgs, (do let t0 := I256.new c (BitVec.ofInt 128 (-22)); let t1 := I256.new c (BitVec.ofInt 128 (5)); let t2 ← I256.wrapping_div_rem c t0 t1; let t3 := I256.new c (BitVec.ofInt 128 (-4)); let t4 := I256.new c (BitVec.ofInt 128 (-2)); pure (((I256.eq c (t2).1 t3) && (I256.eq c (t2).2 t4))) : Res Bool) = .ok true := by decide +kernel

/- src/int.rs:472 -/
example : ∀ c ∈ cfgs, (do let t0 := I256.new c (BitVec.ofInt 128 (22)); let t1 := I256.new c (BitVec.ofInt 128 (-5)); let t2 ← I256.wrapping_div_rem c t0 t1; let t3 := I256.new c (BitVec.ofInt 128 (-4)); let t4 := I256.new c (BitVec.ofInt 128 (2)); pure (((I256.eq c (t2).1 t3) && (I256.eq c (t2).2 t4))) : Res Bool) = .ok true := by decide +kernel

/- src/int.rs:473 -/
example : ∀ c ∈ cfgs, (do let t0 := I256.new c (BitVec.ofInt 128 (-22)); let t1 := I256.new c (BitVec.ofInt 128 (-5)); let t2 ← I256.wrapping_div_rem c t0 t1; let t3 := I256.new c (BitVec.ofInt 128 (4)); let t4 := I256.new c (BitVec.ofInt 128 (-2)); pure (((I256.eq c (t2).1 t3) && (I256.eq c (t2).2 t4))) : Res Bool) = .ok true := by decide +kernel

/- src/int.rs:475 -/
example : ∀ c ∈ cfgs, (do let t0 := I256.MIN c; let t1 := I256.MINUS_ONE c; let t2 ← I256.wrapping_div_rem c t0 t1; let t3 := I256.MIN c; pure (((I256.eq c (t2).1 t3) && (I256.eq c (t2).2 I256.ZERO))) : Res Bool) = .ok true := by decide +kernel

/- src/int.rs:514 -/
example : ∀ c ∈ cfgs, (do let t0 := I256.new c (BitVec.ofInt 128 (22)); let t1 := I256.new c (BitVec.ofInt 128 (5)); let t2 ← I256.wrapping_div_rem_euclid c t0 t1; let t3 := I256.new c (BitVec.ofInt 128 (4)); let t4 := I256.new c (BitVec.ofInt 128 (2)); pure (((I256.eq c (t2).1 t3) && (I256.eq c (t2).2 t4))) : Res Bool) = .ok true := by decide +kernel

/- src/int.rs:515 -/
example : ∀ c ∈ cfgs, (do let t0 := I256.new c (BitVec.ofInt 128 (-22)); let t1 := I256.new c (BitVec.ofInt 128 (5)); let t2 ← I256.wrapping_div_rem_euclid c t0 t1; let t3 := I256.new c (BitVec.ofInt 128 (-5)); let t4 := I256.new c (BitVec.ofInt 128 (3)); pure (((I256.eq c (t2).1 t3) && (I256.eq c (t2).2 t4))) : Res Bool) = .ok true := by decide +kernel

/- src/int.rs:516 -/
example : ∀ c ∈ cfgs, (do let t0 := I256.new c (BitVec.ofInt 128 (22)); let t1 := I256.new c (BitVec.ofInt 128 (-5)); let t2 ← I256.wrapping_div_rem_euclid c t0 t1; let t3 := I256.new c (BitVec.ofInt 128 (-4)); let t4 := I256.new c (BitVec.ofInt 128 (2)); pure (((I256.eq c (t2).1 t3) && (I256.eq c (t2).2 t4))) : Res Bool) = .ok true := by decide +kernel

/- src/int.rs:517 -/
example : ∀ c ∈ cfgs, (do let t0 := I256.new c (BitVec.ofInt 128 (-22)); let t1 := I256.new c (BitVec.ofInt 128 (-5)); let t2 ← I256.wrapping_div_rem_euclid c t0 t1; let t3 := I256.new c (BitVec.ofInt 128 (5)); let t4 := I256.new c (BitVec.ofInt 128 (3)); pure (((I256.eq c (t2).1 t3) && (I256.eq c (t2).2 t4))) : Res Bool) = .ok true := by decide +kernel

/- src/int.rs:519 -/
example : ∀ c ∈ cfgs, (do let t0 := I256.MIN c; let t1 := I256.MINUS_ONE c; let t2 ← I256.wrapping_div_rem c t0 t1; let t3 := I256.MIN c; pure (((I256.eq c (t2).1 t3) && (I256.eq c (t2).2 I256.ZERO))) : Res Bool) = .ok true := by decide +kernel

/- src/int.rs:520 -/
example : ∀ c ∈ cfgs, (do let t0 := I256.new c (BitVec.ofInt 128 (20)); let t1 := I256.new c (BitVec.ofInt 128 (5)); let t2 ← I256.wrapping_div_rem_euclid c t0 t1; let t3 := I256.new c (BitVec.ofInt 128 (4)); let t4 := I256.new c (BitVec.ofInt 128 (0)); pure (((I256.eq c (t2).1 t3) && (I256.eq c (t2).2 t4))) : Res Bool) = .ok true := by decide +kernel

/- src/int.rs:521 -/
example : ∀ c ∈ cfgs, (do let t0 := I256.new c (BitVec.ofInt 128 (-20)); let t1 := I256.new c (BitVec.ofInt 128 (5)); let t2 ← I256.wrapping_div_rem_euclid c t0 t1; let t3 := I256.new c (BitVec.ofInt 128 (-4)); let t4 := I256.new c (BitVec.ofInt 128 (0)); pure (((I256.eq c (t2).1 t3) && (I256.eq c (t2).2 t4))) : Res Bool) = .ok true := by decide +kernel

/- src/int.rs:522 -/
example : ∀ c ∈ cfgs, (do let t0 := I256.new c (BitVec.ofInt 128 (20)); let t1 := I256.new c (BitVec.ofInt 128 (-5)); let t2 ← I256.wrapping_div_rem_euclid c t0 t1; let t3 := I256.new c (BitVec.ofInt 128 (-4)); let t4 := I256.new c (BitVec.ofInt 128 (0)); pure (((I256.eq c (t2).1 t3) && (I256.eq c (t2).2 t4))) : Res Bool) = .ok true := by decide +kernel

/- src/int.rs:523 -/
example : ∀ c ∈ cfgs, (do let t0 := I256.new c (BitVec.ofInt 128 (-20)); let t1 := I256.new c (BitVec.ofInt 128 (-5)); let t2 ← I256.wrapping_div_rem_euclid c t0 t1; let t3 := I256.new c (BitVec.ofInt 128 (4)); let t4 := I256.new c (BitVec.ofInt 128 (0)); pure (((I256.eq c (t2).1 t3) && (I256.eq c (t2).2 t4))) : Res Bool) = .ok true := by decide +kernel

/- src/int.rs:580 -/
example : ∀ c ∈ cfgs, (do let t0 := I256.new c (BitVec.ofInt 128 (5)); let t1 := I256.new c (BitVec.ofInt 128 (2)); let t2 ← I256.overflowing_div_rem c t0 t1; let t3 := I256.new c (BitVec.ofInt 128 (2)); let t4 := I256.new c (BitVec.ofInt 128 (1)); pure (((I256.eq c (t2).1 t3) && (I256.eq c (t2).2.1 t4) && decide ((t2).2.2 = false))) : Res Bool) = .ok true := by decide +kernel

/- src/int.rs:581 -/
example : ∀ c ∈ cfgs, (do let t0 := I256.MIN c; let t1 := I256.new c (BitVec.ofInt 128 (-1)); let t2 ← I256.overflowing_div_rem c t0 t1; let t3 := I256.MIN c; let t4 := I256.new c (BitVec.ofInt 128 (0)); pure (((I256.eq c (t2).1 t3) && (I256.eq c (t2).2.1 t4) && decide ((t2).2.2 = true))) : Res Bool) = .ok true := by decide +kernel

/- src/int.rs:612 -/
example : ∀ c ∈ cfgs, (do let t0 := I256.new c (BitVec.ofInt 128 (5)); let t1 := I256.new c (BitVec.ofInt 128 (2)); let t2 ← I256.overflowing_div_rem_euclid c t0 t1; let t3 := I256.new c (BitVec.ofInt 128 (2)); let t4 := I256.new c (BitVec.ofInt 128 (1)); pure (((I256.eq c (t2).1 t3) && (I256.eq c (t2).2.1 t4) && decide ((t2).2.2 = false))) : Res Bool) = .ok true := by decide +kernel

/- src/int.rs:613 -/
example : ∀ c ∈ cfgs, (do let t0 := I256.MIN c; let t1 := I256.new c (BitVec.ofInt 128 (-1)); let t2 ← I256.overflowing_div_rem_euclid c t0 t1; let t3 := I256.MIN c; let t4 := I256.new c (BitVec.ofInt 128 (0)); pure (((I256.eq c (t2).1 t3) && (I256.eq c (t2).2.1 t4) && decide ((t2).2.2 = true))) : Res Bool) = .ok true := by decide +kernel

/- src/int/api.rs:20 -/
example : ∀ c ∈ cfgs, (do let t0 := I256.MIN c; let t1 ← I256.display c t0 .default; pure (decide (t1 = "-57896044618658097711785492504343953926634992332820282019728792003956564819968".toList)) : Res Bool) = .ok true := by decide +kernel

/- src/int/api.rs:36 -/
example : ∀ c ∈ cfgs, (do let t0 := I256.MAX c; let t1 ← I256.display c t0 .default; pure (decide (t1 = "57896044618658097711785492504343953926634992332820282019728792003956564819967".toList)) : Res Bool) = .ok true := by decide +kernel

/- src/int/api.rs:49 -/
example : ∀ c ∈ cfgs, (do pure (true) : Res Bool) = .ok true := by decide +kernel

/- src/int/api.rs:73 -/
example : ∀ c ∈ cfgs, (do let t0 ← I256.from_str_radix c (str "A") (BitVec.ofInt 32 (16)); let t1 := I256.new c (BitVec.ofInt 128 (10)); pure ((match t0 with | .ok v => (I256.eq c v t1) | .error _ => false)) : Res Bool) = .ok true := by decide +kernel

/- src/int/api.rs:89 -/
example : ∀ c ∈ cfgs, (do let t0 := I256.new c (BitVec.ofInt 128 (64)); let t1 ← I256.count_ones c t0; pure (decide (t1 = (BitVec.ofInt 32 (1)))) : Res Bool) = .ok true := by decide +kernel

/- src/int/api.rs:108 -/
example : ∀ c ∈ cfgs, (do let t0 := I256.MAX c; let t1 ← I256.count_zeros c t0; pure (decide (t1 = (BitVec.ofInt 32 (1)))) : Res Bool) = .ok true := by decide +kernel

/- src/int/api.rs:127 -/
example : ∀ c ∈ cfgs, (do let t0 := I256.new c (BitVec.ofInt 128 (-1)); let t1 ← I256.leading_zeros c t0; pure (decide (t1 = (BitVec.ofInt 32 (0)))) : Res Bool) = .ok true := by decide +kernel

/- src/int/api.rs:145 -/
example : ∀ c ∈ cfgs, (do let t0 := I256.new c (BitVec.ofInt 128 (-4)); let t1 ← I256.trailing_zeros c t0; pure (decide (t1 = (BitVec.ofInt 32 (2)))) : Res Bool) = .ok true := by decide +kernel

/- src/int/api.rs:163 -/
example : ∀ c ∈ cfgs, (do let t0 := I256.new c (BitVec.ofInt 128 (-1)); let t1 ← I256.leading_ones c t0; pure (decide (t1 = (BitVec.ofInt 32 (256)))) : Res Bool) = .ok true := by decide +kernel

/- src/int/api.rs:181 -/
example : ∀ c ∈ cfgs, (do let t0 := I256.new c (BitVec.ofInt 128 (3)); let t1 ← I256.trailing_ones c t0; pure (decide (t1 = (BitVec.ofInt 32 (2)))) : Res Bool) = .ok true := by decide +kernel

/- src/int/api.rs:205 -/
example : ∀ c ∈ cfgs, (do let t0 := I256.from_words c (BitVec.ofInt 128 (26522252353395899526533775249656250368)) (BitVec.ofInt 128 (20342)); let t1 := I256.new c (BitVec.ofInt 128 (1333138420)); let t2 ← I256.rotate_left c t0 (BitVec.ofInt 32 (16)); pure ((I256.eq c t2 t1)) : Res Bool) = .ok true := by decide +kernel

/- src/int/api.rs:234 -/
example : ∀ c ∈ cfgs, (do let t0 := I256.new c (BitVec.ofInt 128 (1333138420)); let t1 := I256.from_words c (BitVec.ofInt 128 (26522252353395899526533775249656250368)) (BitVec.ofInt 128 (20342)); let t2 ← I256.rotate_right c t0 (BitVec.ofInt 32 (16)); pure ((I256.eq c t2 t1)) : Res Bool) = .ok true := by decide +kernel

/- src/int/api.rs:258 -/
example : ∀ c ∈ cfgs, (do let t0 := I256.from_words c (BitVec.ofInt 128 (5233100606242806050955395731361295)) (BitVec.ofInt 128 (21356283574076891493948969979685445151)); let t1 := I256.swap_bytes t0; let t2 := I256.from_words c (BitVec.ofInt 128 (41362427191743139026751447860679676176)) (BitVec.ofInt 128 (20011376718272490338853433276725592320)); pure ((I256.eq c t1 t2)) : Res Bool) = .ok true := by decide +kernel

/- src/int/api.rs:432 -/
example : ∀ c ∈ cfgs, (do let t0 := I256.MAX c; let t1 := I256.new c (BitVec.ofInt 128 (2)); let t2 ← I256.sub c t0 t1; let t3 := I256.new c (BitVec.ofInt 128 (1)); let t4 := I256.checked_add c t2 t3; let t5 := I256.MAX c; let t6 := I256.new c (BitVec.ofInt 128 (1)); let t7 ← I256.sub c t5 t6; pure ((match t4 with | some v => (I256.eq c v t7) | none => false)) : Res Bool) = .ok true := by decide +kernel

/- src/int/api.rs:433 -/
example : ∀ c ∈ cfgs, (do let t0 := I256.MAX c; let t1 := I256.new c (BitVec.ofInt 128 (2)); let t2 ← I256.sub c t0 t1; let t3 := I256.new c (BitVec.ofInt 128 (3)); let t4 := I256.checked_add c t2 t3; pure ((t4).isNone) : Res Bool) = .ok true := by decide +kernel

/- src/int/api.rs:456 -/
example : ∀ c ∈ cfgs, (do let t0 := I256.new c (BitVec.ofInt 128 (1)); let t1 := U256.new c (BitVec.ofInt 128 (2)); let t2 := I256.checked_add_unsigned c t0 t1; let t3 := I256.new c (BitVec.ofInt 128 (3)); pure ((match t2 with | some v => (I256.eq c v t3) | none => false)) : Res Bool) = .ok true := by decide +kernel

/- src/int/api.rs:457 -/
example : ∀ c ∈ cfgs, (do let t0 := I256.MAX c; let t1 := I256.new c (BitVec.ofInt 128 (2)); let t2 ← I256.sub c t0 t1; let t3 := U256.new c (BitVec.ofInt 128 (3)); let t4 := I256.checked_add_unsigned c t2 t3; pure ((t4).isNone) : Res Bool) = .ok true := by decide +kernel

/- src/int/api.rs:480 -/
example : ∀ c ∈ cfgs, (do let t0 := I256.MIN c; let t1 := I256.new c (BitVec.ofInt 128 (2)); let t2 ← I256.add c t0 t1; let t3 := I256.new c (BitVec.ofInt 128 (1)); let t4 := I256.checked_sub c t2 t3; let t5 := I256.MIN c; let t6 := I256.new c (BitVec.ofInt 128 (1)); let t7 ← I256.add c t5 t6; pure ((match t4 with | some v => (I256.eq c v t7) | none => false)) : Res Bool) = .ok true := by decide +kernel

/- src/int/api.rs:481 -/
example : ∀ c ∈ cfgs, (do let t0 := I256.MIN c; let t1 := I256.new c (BitVec.ofInt 128 (2)); let t2 ← I256.add c t0 t1; let t3 := I256.new c (BitVec.ofInt 128 (3)); let t4 := I256.checked_sub c t2 t3; pure ((t4).isNone) : Res Bool) = .ok true := by decide +kernel

/- src/int/api.rs:504 -/
example : ∀ c ∈ cfgs, (do let t0 := I256.new c (BitVec.ofInt 128 (1)); let t1 := U256.new c (BitVec.ofInt 128 (2)); let t2 := I256.checked_sub_unsigned c t0 t1; let t3 := I256.new c (BitVec.ofInt 128 (-1)); pure ((match t2 with | some v => (I256.eq c v t3) | none => false)) : Res Bool) = .ok true := by decide +kernel

/- src/int/api.rs:505 -/
example : ∀ c ∈ cfgs, (do let t0 := I256.MIN c; let t1 := I256.new c (BitVec.ofInt 128 (2)); let t2 ← I256.add c t0 t1; let t3 := U256.new c (BitVec.ofInt 128 (3)); let t4 := I256.checked_sub_unsigned c t2 t3; pure ((t4).isNone) : Res Bool) = .ok true := by decide +kernel

/- src/int/api.rs:528 -/
example : ∀ c ∈ cfgs, (do let t0 := I256.MAX c; let t1 := I256.new c (BitVec.ofInt 128 (1)); let t2 ← I256.checked_mul c t0 t1; let t3 := I256.MAX c; pure ((match t2 with | some v => (I256.eq c v t3) | none => false)) : Res Bool) = .ok true := by decide +kernel

/- src/int/api.rs:529 -/
example : ∀ c ∈ cfgs, (do let t0 := I256.MAX c; let t1 := I256.new c (BitVec.ofInt 128 (2)); let t2 ← I256.checked_mul c t0 t1; pure ((t2).isNone) : Res Bool) = .ok true := by decide +kernel

/- src/int/api.rs:552 -/
example : ∀ c ∈ cfgs, (do let t0 := I256.MIN c; let t1 := I256.new c (BitVec.ofInt 128 (1)); let t2 ← I256.add c t0 t1; let t3 := I256.new c (BitVec.ofInt 128 (-1)); let t4 ← I256.checked_div c t2 t3; let t5 := I256.MAX c; pure ((match t4 with | some v => (I256.eq c v t5) | none => false)) : Res Bool) = .ok true := by decide +kernel

/- src/int/api.rs:553 -/
example : ∀ c ∈ cfgs, (do let t0 := I256.MIN c; let t1 := I256.new c (BitVec.ofInt 128 (-1)); let t2 ← I256.checked_div c t0 t1; pure ((t2).isNone) : Res Bool) = .ok true := by decide +kernel

/- src/int/api.rs:554 -/
example : ∀ c ∈ cfgs, (do let t0 := I256.new c (BitVec.ofInt 128 (1)); let t1 := I256.new c (BitVec.ofInt 128 (0)); let t2 ← I256.checked_div c t0 t1; pure ((t2).isNone) : Res Bool) = .ok true := by decide +kernel

/- src/int/api.rs:578 -/
example : ∀ c ∈ cfgs, (do let t0 := I256.MIN c; let t1 := I256.new c (BitVec.ofInt 128 (1)); let t2 ← I256.add c t0 t1; let t3 := I256.new c (BitVec.ofInt 128 (-1)); let t4 ← I256.checked_div_euclid c t2 t3; let t5 := I256.MAX c; pure ((match t4 with | some v => (I256.eq c v t5) | none => false)) : Res Bool) = .ok true := by decide +kernel

/- src/int/api.rs:579 -/
example : ∀ c ∈ cfgs, (do let t0 := I256.MIN c; let t1 := I256.new c (BitVec.ofInt 128 (-1)); let t2 ← I256.checked_div_euclid c t0 t1; pure ((t2).isNone) : Res Bool) = .ok true := by decide +kernel

/- src/int/api.rs:580 -/
example : ∀ c ∈ cfgs, (do let t0 := I256.new c (BitVec.ofInt 128 (1)); let t1 := I256.new c (BitVec.ofInt 128 (0)); let t2 ← I256.checked_div_euclid c t0 t1; pure ((t2).isNone) : Res Bool) = .ok true := by decide +kernel

/- src/int/api.rs:602 -/
example : ∀ c ∈ cfgs, (do let t0 := I256.new c (BitVec.ofInt 128 (5)); let t1 := I256.new c (BitVec.ofInt 128 (2)); let t2 ← I256.checked_rem c t0 t1; let t3 := I256.new c (BitVec.ofInt 128 (1)); pure ((match t2 with | some v => (I256.eq c v t3) | none => false)) : Res Bool) = .ok true := by decide +kernel

/- src/int/api.rs:603 -/
example : ∀ c ∈ cfgs, (do let t0 := I256.new c (BitVec.ofInt 128 (5)); let t1 := I256.new c (BitVec.ofInt 128 (0)); let t2 ← I256.checked_rem c t0 t1; pure ((t2).isNone) : Res Bool) = .ok true := by decide +kernel

/- src/int/api.rs:604 -/
example : ∀ c ∈ cfgs, (do let t0 := I256.MIN c; let t1 := I256.new c (BitVec.ofInt 128 (-1)); let t2 ← I256.checked_rem c t0 t1; pure ((t2).isNone) : Res Bool) = .ok true := by decide +kernel

/- src/int/api.rs:628 -/
example : ∀ c ∈ cfgs, (do let t0 := I256.new c (BitVec.ofInt 128 (5)); let t1 := I256.new c (BitVec.ofInt 128 (2)); let t2 ← I256.checked_rem_euclid c t0 t1; let t3 := I256.new c (BitVec.ofInt 128 (1)); pure ((match t2 with | some v => (I256.eq c v t3) | none => false)) : Res Bool) = .ok true := by decide +kernel

/- src/int/api.rs:629 -/
example : ∀ c ∈ cfgs, (do let t0 := I256.new c (BitVec.ofInt 128 (5)); let t1 := I256.new c (BitVec.ofInt 128 (0)); let t2 ← I256.checked_rem_euclid c t0 t1; pure ((t2).isNone) : Res Bool) = .ok true := by decide +kernel

/- src/int/api.rs:630 -/
example : ∀ c ∈ cfgs, (do let t0 := I256.MIN c; let t1 := I256.new c (BitVec.ofInt 128 (-1)); let t2 ← I256.checked_rem_euclid c t0 t1; pure ((t2).isNone) : Res Bool) = .ok true := by decide +kernel

/- src/int/api.rs:651 -/
example : ∀ c ∈ cfgs, (do let t0 := I256.new c (BitVec.ofInt 128 (5)); let t1 ← I256.checked_neg c t0; let t2 := I256.new c (BitVec.ofInt 128 (-5)); pure ((match t1 with | some v => (I256.eq c v t2) | none => false)) : Res Bool) = .ok true := by decide +kernel

/- src/int/api.rs:652 -/
example : ∀ c ∈ cfgs, (do let t0 := I256.MIN c; let t1 ← I256.checked_neg c t0; pure ((t1).isNone) : Res Bool) = .ok true := by decide +kernel

/- src/int/api.rs:673 -/
example : ∀ c ∈ cfgs, (do let t0 := I256.new c (BitVec.ofInt 128 (1)); let t1 ← I256.checked_shl c t0 (BitVec.ofInt 32 (4)); let t2 := I256.new c (BitVec.ofInt 128 (16)); pure ((match t1 with | some v => (I256.eq c v t2) | none => false)) : Res Bool) = .ok true := by decide +kernel

/- src/int/api.rs:674 -/
example : ∀ c ∈ cfgs, (do let t0 := I256.new c (BitVec.ofInt 128 (1)); let t1 ← I256.checked_shl c t0 (BitVec.ofInt 32 (257)); pure ((t1).isNone) : Res Bool) = .ok true := by decide +kernel

/- src/int/api.rs:697 -/
example : ∀ c ∈ cfgs, (do let t0 := I256.new c (BitVec.ofInt 128 (16)); let t1 ← I256.checked_shr c t0 (BitVec.ofInt 32 (4)); let t2 := I256.new c (BitVec.ofInt 128 (1)); pure ((match t1 with | some v => (I256.eq c v t2) | none => false)) : Res Bool) = .ok true := by decide +kernel

/- src/int/api.rs:698 -/
example : ∀ c ∈ cfgs, (do let t0 := I256.new c (BitVec.ofInt 128 (16)); let t1 ← I256.checked_shr c t0 (BitVec.ofInt 32 (256)); pure ((t1).isNone) : Res Bool) = .ok true := by decide +kernel

/- src/int/api.rs:721 -/
example : ∀ c ∈ cfgs, (do let t0 := I256.new c (BitVec.ofInt 128 (-5)); let t1 ← I256.checked_abs c t0; let t2 := I256.new c (BitVec.ofInt 128 (5)); pure ((match t1 with | some v => (I256.eq c v t2) | none => false)) : Res Bool) = .ok true := by decide +kernel

/- src/int/api.rs:722 -/
example : ∀ c ∈ cfgs, (do let t0 := I256.MIN c; let t1 ← I256.checked_abs c t0; pure ((t1).isNone) : Res Bool) = .ok true := by decide +kernel

/- src/int/api.rs:742 -/
example : ∀ c ∈ cfgs, (do let t0 := I256.new c (BitVec.ofInt 128 (8)); let t1 ← I256.checked_pow c t0 (BitVec.ofInt 32 (2)); let t2 := I256.new c (BitVec.ofInt 128 (64)); pure ((match t1 with | some v => (I256.eq c v t2) | none => false)) : Res Bool) = .ok true := by decide +kernel

/- src/int/api.rs:743 -/
example : ∀ c ∈ cfgs, (do let t0 := I256.MAX c; let t1 ← I256.checked_pow c t0 (BitVec.ofInt 32 (2)); pure ((t1).isNone) : Res Bool) = .ok true := by decide +kernel

/- src/int/api.rs:778 -/
example : ∀ c ∈ cfgs, (do let t0 := I256.new c (BitVec.ofInt 128 (100)); let t1 := I256.new c (BitVec.ofInt 128 (1)); let t2 := I256.saturating_add c t0 t1; pure ((I256.eq_prim c t2 (BitVec.ofInt 128 (101)))) : Res Bool) = .ok true := by decide +kernel

/- src/int/api.rs:779 -/
example : ∀ c ∈ cfgs, (do let t0 := I256.MAX c; let t1 := I256.new c (BitVec.ofInt 128 (100)); let t2 := I256.saturating_add c t0 t1; let t3 := I256.MAX c; pure ((I256.eq c t2 t3)) : Res Bool) = .ok true := by decide +kernel

/- src/int/api.rs:780 -/
example : ∀ c ∈ cfgs, (do let t0 := I256.MIN c; let t1 := I256.new c (BitVec.ofInt 128 (-1)); let t2 := I256.saturating_add c t0 t1; let t3 := I256.MIN c; pure ((I256.eq c t2 t3)) : Res Bool) = .ok true := by decide +kernel

/- src/int/api.rs:807 -/
example : ∀ c ∈ cfgs, (do let t0 := I256.new c (BitVec.ofInt 128 (1)); let t1 := U256.new c (BitVec.ofInt 128 (2)); let t2 := I256.saturating_add_unsigned c t0 t1; pure ((I256.eq_prim c t2 (BitVec.ofInt 128 (3)))) : Res Bool) = .ok true := by decide +kernel

/- src/int/api.rs:808 -/
example : ∀ c ∈ cfgs, (do let t0 := I256.MAX c; let t1 := U256.new c (BitVec.ofInt 128 (100)); let t2 := I256.saturating_add_unsigned c t0 t1; let t3 := I256.MAX c; pure ((I256.eq c t2 t3)) : Res Bool) = .ok true := by decide +kernel

/- src/int/api.rs:830 -/
example : ∀ c ∈ cfgs, (do let t0 := I256.new c (BitVec.ofInt 128 (100)); let t1 := I256.new c (BitVec.ofInt 128 (127)); let t2 := I256.saturating_sub c t0 t1; pure ((I256.eq_prim c t2 (BitVec.ofInt 128 (-27)))) : Res Bool) = .ok true := by decide +kernel

/- src/int/api.rs:831 -/
example : ∀ c ∈ cfgs, (do let t0 := I256.MIN c; let t1 := I256.new c (BitVec.ofInt 128 (100)); let t2 := I256.saturating_sub c t0 t1; let t3 := I256.MIN c; pure ((I256.eq c t2 t3)) : Res Bool) = .ok true := by decide +kernel

/- src/int/api.rs:832 -/
example : ∀ c ∈ cfgs, (do let t0 := I256.MAX c; let t1 := I256.new c (BitVec.ofInt 128 (-1)); let t2 := I256.saturating_sub c t0 t1; let t3 := I256.MAX c; pure ((I256.eq c t2 t3)) : Res Bool) = .ok true := by decide +kernel

/- src/int/api.rs:859 -/
example : ∀ c ∈ cfgs, (do let t0 := I256.new c (BitVec.ofInt 128 (100)); let t1 := U256.new c (BitVec.ofInt 128 (127)); let t2 := I256.saturating_sub_unsigned c t0 t1; pure ((I256.eq_prim c t2 (BitVec.ofInt 128 (-27)))) : Res Bool) = .ok true := by decide +kernel

/- src/int/api.rs:860 -/
example : ∀ c ∈ cfgs, (do let t0 := I256.MIN c; let t1 := U256.new c (BitVec.ofInt 128 (100)); let t2 := I256.saturating_sub_unsigned c t0 t1; let t3 := I256.MIN c; pure ((I256.eq c t2 t3)) : Res Bool) = .ok true := by decide +kernel

/- src/int/api.rs:882 -/
example : ∀ c ∈ cfgs, (do let t0 := I256.new c (BitVec.ofInt 128 (100)); let t1 := I256.saturating_neg c t0; pure ((I256.eq_prim c t1 (BitVec.ofInt 128 (-100)))) : Res Bool) = .ok true := by decide +kernel

/- src/int/api.rs:883 -/
example : ∀ c ∈ cfgs, (do let t0 := I256.new c (BitVec.ofInt 128 (-100)); let t1 := I256.saturating_neg c t0; pure ((I256.eq_prim c t1 (BitVec.ofInt 128 (100)))) : Res Bool) = .ok true := by decide +kernel

/- src/int/api.rs:884 -/
example : ∀ c ∈ cfgs, (do let t0 := I256.MIN c; let t1 := I256.saturating_neg c t0; let t2 := I256.MAX c; pure ((I256.eq c t1 t2)) : Res Bool) = .ok true := by decide +kernel

/- src/int/api.rs:885 -/
example : ∀ c ∈ cfgs, (do let t0 := I256.MAX c; let t1 := I256.saturating_neg c t0; let t2 := I256.MIN c; let t3 := I256.new c (BitVec.ofInt 128 (1)); let t4 ← I256.add c t2 t3; pure ((I256.eq c t1 t4)) : Res Bool) = .ok true := by decide +kernel

/- src/int/api.rs:901 -/
example : ∀ c ∈ cfgs, (do let t0 := I256.new c (BitVec.ofInt 128 (100)); let t1 := I256.saturating_abs c t0; pure ((I256.eq_prim c t1 (BitVec.ofInt 128 (100)))) : Res Bool) = .ok true := by decide +kernel

/- src/int/api.rs:902 -/
example : ∀ c ∈ cfgs, (do let t0 := I256.new c (BitVec.ofInt 128 (-100)); let t1 := I256.saturating_abs c t0; pure ((I256.eq_prim c t1 (BitVec.ofInt 128 (100)))) : Res Bool) = .ok true := by decide +kernel

/- src/int/api.rs:903 -/
example : ∀ c ∈ cfgs, (do let t0 := I256.MIN c; let t1 := I256.saturating_abs c t0; let t2 := I256.MAX c; pure ((I256.eq c t1 t2)) : Res Bool) = .ok true := by decide +kernel

/- src/int/api.rs:904 -/
example : ∀ c ∈ cfgs, (do let t0 := I256.MIN c; let t1 := I256.new c (BitVec.ofInt 128 (1)); let t2 ← I256.add c t0 t1; let t3 := I256.saturating_abs c t2; let t4 := I256.MAX c; pure ((I256.eq c t3 t4)) : Res Bool) = .ok true := by decide +kernel

/- src/int/api.rs:924 -/
example : ∀ c ∈ cfgs, (do let t0 := I256.new c (BitVec.ofInt 128 (10)); let t1 := I256.new c (BitVec.ofInt 128 (12)); let t2 ← I256.saturating_mul c t0 t1; pure ((I256.eq_prim c t2 (BitVec.ofInt 128 (120)))) : Res Bool) = .ok true := by decide +kernel

/- src/int/api.rs:925 -/
example : ∀ c ∈ cfgs, (do let t0 := I256.MAX c; let t1 := I256.new c (BitVec.ofInt 128 (10)); let t2 ← I256.saturating_mul c t0 t1; let t3 := I256.MAX c; pure ((I256.eq c t2 t3)) : Res Bool) = .ok true := by decide +kernel

/- src/int/api.rs:926 -/
example : ∀ c ∈ cfgs, (do let t0 := I256.MIN c; let t1 := I256.new c (BitVec.ofInt 128 (10)); let t2 ← I256.saturating_mul c t0 t1; let t3 := I256.MIN c; pure ((I256.eq c t2 t3)) : Res Bool) = .ok true := by decide +kernel

/- src/int/api.rs:953 -/
example : ∀ c ∈ cfgs, (do let t0 := I256.new c (BitVec.ofInt 128 (5)); let t1 := I256.new c (BitVec.ofInt 128 (2)); let t2 ← I256.saturating_div c t0 t1; pure ((I256.eq_prim c t2 (BitVec.ofInt 128 (2)))) : Res Bool) = .ok true := by decide +kernel

/- src/int/api.rs:954 -/
example : ∀ c ∈ cfgs, (do let t0 := I256.MAX c; let t1 := I256.new c (BitVec.ofInt 128 (-1)); let t2 ← I256.saturating_div c t0 t1; let t3 := I256.MIN c; let t4 := I256.new c (BitVec.ofInt 128 (1)); let t5 ← I256.add c t3 t4; pure ((I256.eq c t2 t5)) : Res Bool) = .ok true := by decide +kernel

/- src/int/api.rs:955 -/
example : ∀ c ∈ cfgs, (do let t0 := I256.MIN c; let t1 := I256.new c (BitVec.ofInt 128 (-1)); let t2 ← I256.saturating_div c t0 t1; let t3 := I256.MAX c; pure ((I256.eq c t2 t3)) : Res Bool) = .ok true := by decide +kernel

/- src/int/api.rs:981 -/
example : ∀ c ∈ cfgs, (do let t0 := I256.new c (BitVec.ofInt 128 (-4)); let t1 ← I256.saturating_pow c t0 (BitVec.ofInt 32 (3)); pure ((I256.eq_prim c t1 (BitVec.ofInt 128 (-64)))) : Res Bool) = .ok true := by decide +kernel

/- src/int/api.rs:982 -/
example : ∀ c ∈ cfgs, (do let t0 := I256.MIN c; let t1 ← I256.saturating_pow c t0 (BitVec.ofInt 32 (2)); let t2 := I256.MAX c; pure ((I256.eq c t1 t2)) : Res Bool) = .ok true := by decide +kernel

/- src/int/api.rs:983 -/
example : ∀ c ∈ cfgs, (do let t0 := I256.MIN c; let t1 ← I256.saturating_pow c t0 (BitVec.ofInt 32 (3)); let t2 := I256.MIN c; pure ((I256.eq c t1 t2)) : Res Bool) = .ok true := by decide +kernel

/- src/int/api.rs:1005 -/
example : ∀ c ∈ cfgs, (do let t0 := I256.new c (BitVec.ofInt 128 (100)); let t1 := I256.new c (BitVec.ofInt 128 (27)); let t2 := I256.wrapping_add c t0 t1; pure ((I256.eq_prim c t2 (BitVec.ofInt 128 (127)))) : Res Bool) = .ok true := by decide +kernel

/- src/int/api.rs:1006 -/
example : ∀ c ∈ cfgs, (do let t0 := I256.MAX c; let t1 := I256.new c (BitVec.ofInt 128 (2)); let t2 := I256.wrapping_add c t0 t1; let t3 := I256.MIN c; let t4 := I256.new c (BitVec.ofInt 128 (1)); let t5 ← I256.add c t3 t4; pure ((I256.eq c t2 t5)) : Res Bool) = .ok true := by decide +kernel

/- src/int/api.rs:1026 -/
example : ∀ c ∈ cfgs, (do let t0 := I256.new c (BitVec.ofInt 128 (100)); let t1 := U256.new c (BitVec.ofInt 128 (27)); let t2 := I256.wrapping_add_unsigned c t0 t1; pure ((I256.eq_prim c t2 (BitVec.ofInt 128 (127)))) : Res Bool) = .ok true := by decide +kernel

/- src/int/api.rs:1027 -/
example : ∀ c ∈ cfgs, (do let t0 := I256.MAX c; let t1 := U256.new c (BitVec.ofInt 128 (2)); let t2 := I256.wrapping_add_unsigned c t0 t1; let t3 := I256.MIN c; let t4 := I256.new c (BitVec.ofInt 128 (1)); let t5 ← I256.add c t3 t4; pure ((I256.eq c t2 t5)) : Res Bool) = .ok true := by decide +kernel

/- src/int/api.rs:1045 -/
example : ∀ c ∈ cfgs, (do let t0 := I256.new c (BitVec.ofInt 128 (0)); let t1 := I256.new c (BitVec.ofInt 128 (127)); let t2 := I256.wrapping_sub c t0 t1; pure ((I256.eq_prim c t2 (BitVec.ofInt 128 (-127)))) : Res Bool) = .ok true := by decide +kernel

/- src/int/api.rs:1046 -/
example : ∀ c ∈ cfgs, (do let t0 := I256.new c (BitVec.ofInt 128 (-2)); let t1 := I256.MAX c; let t2 := I256.wrapping_sub c t0 t1; let t3 := I256.MAX c; pure ((I256.eq c t2 t3)) : Res Bool) = .ok true := by decide +kernel

/- src/int/api.rs:1066 -/
example : ∀ c ∈ cfgs, (do let t0 := I256.new c (BitVec.ofInt 128 (0)); let t1 := U256.new c (BitVec.ofInt 128 (127)); let t2 := I256.wrapping_sub_unsigned c t0 t1; pure ((I256.eq_prim c t2 (BitVec.ofInt 128 (-127)))) : Res Bool) = .ok true := by decide +kernel

/- src/int/api.rs:1067 -/
example : ∀ c ∈ cfgs, (do let t0 := I256.new c (BitVec.ofInt 128 (-2)); let t1 := I256.wrapping_sub_unsigned c t0 U256.MAX; pure ((I256.eq_prim c t1 (BitVec.ofInt 128 (-1)))) : Res Bool) = .ok true := by decide +kernel

/- src/int/api.rs:1085 -/
example : ∀ c ∈ cfgs, (do let t0 := I256.new c (BitVec.ofInt 128 (10)); let t1 := I256.new c (BitVec.ofInt 128 (12)); let t2 ← I256.wrapping_mul c t0 t1; pure ((I256.eq_prim c t2 (BitVec.ofInt 128 (120)))) : Res Bool) = .ok true := by decide +kernel

/- src/int/api.rs:1086 -/
example : ∀ c ∈ cfgs, (do let t0 := I256.MAX c; let t1 := I256.new c (BitVec.ofInt 128 (2)); let t2 ← I256.wrapping_mul c t0 t1; pure ((I256.eq_prim c t2 (BitVec.ofInt 128 (-2)))) : Res Bool) = .ok true := by decide +kernel

/- src/int/api.rs:1116 -/
example : ∀ c ∈ cfgs, (do let t0 := I256.new c (BitVec.ofInt 128 (100)); let t1 := I256.new c (BitVec.ofInt 128 (10)); let t2 ← I256.wrapping_div c t0 t1; pure ((I256.eq_prim c t2 (BitVec.ofInt 128 (10)))) : Res Bool) = .ok true := by decide +kernel

/- src/int/api.rs:1117 -/
example : ∀ c ∈ cfgs, (do let t0 := I256.MIN c; let t1 := I256.new c (BitVec.ofInt 128 (-1)); let t2 ← I256.wrapping_div c t0 t1; let t3 := I256.MIN c; pure ((I256.eq c t2 t3)) : Res Bool) = .ok true := by decide +kernel

/- src/int/api.rs:1144 -/
example : ∀ c ∈ cfgs, (do let t0 := I256.new c (BitVec.ofInt 128 (100)); let t1 := I256.new c (BitVec.ofInt 128 (10)); let t2 ← I256.wrapping_div_euclid c t0 t1; pure ((I256.eq_prim c t2 (BitVec.ofInt 128 (10)))) : Res Bool) = .ok true := by decide +kernel

/- src/int/api.rs:1145 -/
example : ∀ c ∈ cfgs, (do let t0 := I256.MIN c; let t1 := I256.new c (BitVec.ofInt 128 (-1)); let t2 ← I256.wrapping_div_euclid c t0 t1; let t3 := I256.MIN c; pure ((I256.eq c t2 t3)) : Res Bool) = .ok true := by decide +kernel

/- src/int/api.rs:1172 -/
example : ∀ c ∈ cfgs, (do let t0 := I256.new c (BitVec.ofInt 128 (100)); let t1 := I256.new c (BitVec.ofInt 128 (10)); let t2 ← I256.wrapping_rem c t0 t1; pure ((I256.eq_prim c t2 (BitVec.ofInt 128 (0)))) : Res Bool) = .ok true := by decide +kernel

/- src/int/api.rs:1173 -/
example : ∀ c ∈ cfgs, (do let t0 := I256.MIN c; let t1 := I256.new c (BitVec.ofInt 128 (-1)); let t2 ← I256.wrapping_rem c t0 t1; pure ((I256.eq_prim c t2 (BitVec.ofInt 128 (0)))) : Res Bool) = .ok true := by decide +kernel

/- src/int/api.rs:1199 -/
example : ∀ c ∈ cfgs, (do let t0 := I256.new c (BitVec.ofInt 128 (100)); let t1 := I256.new c (BitVec.ofInt 128 (10)); let t2 ← I256.wrapping_rem_euclid c t0 t1; pure ((I256.eq_prim c t2 (BitVec.ofInt 128 (0)))) : Res Bool) = .ok true := by decide +kernel

/- src/int/api.rs:1200 -/
example : ∀ c ∈ cfgs, (do let t0 := I256.MIN c; let t1 := I256.new c (BitVec.ofInt 128 (-1)); let t2 ← I256.wrapping_rem_euclid c t0 t1; pure ((I256.eq_prim c t2 (BitVec.ofInt 128 (0)))) : Res Bool) = .ok true := by decide +kernel

/- src/int/api.rs:1223 -/
example : ∀ c ∈ cfgs, (do let t0 := I256.new c (BitVec.ofInt 128 (100)); let t1 := I256.wrapping_neg c t0; pure ((I256.eq_prim c t1 (BitVec.ofInt 128 (-100)))) : Res Bool) = .ok true := by decide +kernel

/- src/int/api.rs:1224 -/
example : ∀ c ∈ cfgs, (do let t0 := I256.MIN c; let t1 := I256.wrapping_neg c t0; let t2 := I256.MIN c; pure ((I256.eq c t1 t2)) : Res Bool) = .ok true := by decide +kernel

/- src/int/api.rs:1247 -/
example : ∀ c ∈ cfgs, (do let t0 := I256.new c (BitVec.ofInt 128 (-1)); let t1 ← I256.wrapping_shl c t0 (BitVec.ofInt 32 (7)); pure ((I256.eq_prim c t1 (BitVec.ofInt 128 (-128)))) : Res Bool) = .ok true := by decide +kernel

/- src/int/api.rs:1248 -/
example : ∀ c ∈ cfgs, (do let t0 := I256.new c (BitVec.ofInt 128 (-1)); let t1 ← I256.wrapping_shl c t0 (BitVec.ofInt 32 (128)); let t2 := I256.from_words c (BitVec.ofInt 128 (-1)) (BitVec.ofInt 128 (0)); pure ((I256.eq c t1 t2)) : Res Bool) = .ok true := by decide +kernel

/- src/int/api.rs:1249 -/
example : ∀ c ∈ cfgs, (do let t0 := I256.new c (BitVec.ofInt 128 (-1)); let t1 ← I256.wrapping_shl c t0 (BitVec.ofInt 32 (256)); pure ((I256.eq_prim c t1 (BitVec.ofInt 128 (-1)))) : Res Bool) = .ok true := by decide +kernel

/- src/int/api.rs:1277 -/
example : ∀ c ∈ cfgs, (do let t0 := I256.new c (BitVec.ofInt 128 (-128)); let t1 ← I256.wrapping_shr c t0 (BitVec.ofInt 32 (7)); pure ((I256.eq_prim c t1 (BitVec.ofInt 128 (-1)))) : Res Bool) = .ok true := by decide +kernel

/- src/int/api.rs:1303 -/
example : ∀ c ∈ cfgs, (do let t0 := I256.new c (BitVec.ofInt 128 (100)); let t1 := I256.wrapping_abs c t0; pure ((I256.eq_prim c t1 (BitVec.ofInt 128 (100)))) : Res Bool) = .ok true := by decide +kernel

/- src/int/api.rs:1304 -/
example : ∀ c ∈ cfgs, (do let t0 := I256.new c (BitVec.ofInt 128 (-100)); let t1 := I256.wrapping_abs c t0; pure ((I256.eq_prim c t1 (BitVec.ofInt 128 (100)))) : Res Bool) = .ok true := by decide +kernel

/- src/int/api.rs:1305 -/
example : ∀ c ∈ cfgs, (do let t0 := I256.MIN c; let t1 := I256.wrapping_abs c t0; let t2 := I256.MIN c; pure ((I256.eq c t1 t2)) : Res Bool) = .ok true := by decide +kernel

/- src/int/api.rs:1306 -/
example : ∀ c ∈ cfgs, (do let t0 := I256.MIN c; let t1 := I256.wrapping_abs c t0; let t2 := I256.as_u256 t1; let t3 := U256.from_words c (BitVec.ofInt 128 (170141183460469231731687303715884105728)) (BitVec.ofInt 128 (0)); pure ((U256.eq c t2 t3)) : Res Bool) = .ok true := by decide +kernel

/- src/int/api.rs:1334 -/
example : ∀ c ∈ cfgs, (do let t0 := I256.new c (BitVec.ofInt 128 (100)); let t1 := I256.unsigned_abs c t0; pure ((U256.eq_prim c t1 (BitVec.ofInt 128 (100)))) : Res Bool) = .ok true := by decide +kernel

/- src/int/api.rs:1335 -/
example : ∀ c ∈ cfgs, (do let t0 := I256.new c (BitVec.ofInt 128 (-100)); let t1 := I256.unsigned_abs c t0; pure ((U256.eq_prim c t1 (BitVec.ofInt 128 (100)))) : Res Bool) = .ok true := by decide +kernel

/- src/int/api.rs:1336 -/
example : ∀ c ∈ cfgs, (do let t0 := I256.MIN c; let t1 := I256.unsigned_abs c t0; let t2 := U256.from_words c (BitVec.ofInt 128 (170141183460469231731687303715884105728)) (BitVec.ofInt 128 (0)); pure ((U256.eq c t1 t2)) : Res Bool) = .ok true := by decide +kernel

/- src/int/api.rs:1358 -/
example : ∀ c ∈ cfgs, (do let t0 := I256.new c (BitVec.ofInt 128 (3)); let t1 ← I256.wrapping_pow c t0 (BitVec.ofInt 32 (4)); pure ((I256.eq_prim c t1 (BitVec.ofInt 128 (81)))) : Res Bool) = .ok true := by decide +kernel

/- src/int/api.rs:1399 -/
example : ∀ c ∈ cfgs, (do let t0 := I256.new c (BitVec.ofInt 128 (5)); let t1 := I256.new c (BitVec.ofInt 128 (2)); let t2 := I256.overflowing_add c t0 t1; let t3 := I256.new c (BitVec.ofInt 128 (7)); pure (((I256.eq c (t2).1 t3) && decide ((t2).2 = false))) : Res Bool) = .ok true := by decide +kernel

/- src/int/api.rs:1400 -/
example : ∀ c ∈ cfgs, (do let t0 := I256.MAX c; let t1 := I256.new c (BitVec.ofInt 128 (1)); let t2 := I256.overflowing_add c t0 t1; let t3 := I256.MIN c; pure (((I256.eq c (t2).1 t3) && decide ((t2).2 = true))) : Res Bool) = .ok true := by decide +kernel

/- src/int/api.rs:1423 -/
example : ∀ c ∈ cfgs, (do let t0 := I256.new c (BitVec.ofInt 128 (1)); let t1 := U256.new c (BitVec.ofInt 128 (2)); let t2 := I256.overflowing_add_unsigned c t0 t1; let t3 := I256.new c (BitVec.ofInt 128 (3)); pure (((I256.eq c (t2).1 t3) && decide ((t2).2 = false))) : Res Bool) = .ok true := by decide +kernel

/- src/int/api.rs:1424 -/
example : ∀ c ∈ cfgs, (do let t0 := I256.MIN c; let t1 := I256.overflowing_add_unsigned c t0 U256.MAX; let t2 := I256.MAX c; pure (((I256.eq c (t1).1 t2) && decide ((t1).2 = false))) : Res Bool) = .ok true := by decide +kernel

/- src/int/api.rs:1425 -/
example : ∀ c ∈ cfgs, (do let t0 := I256.MAX c; let t1 := I256.new c (BitVec.ofInt 128 (2)); let t2 ← I256.sub c t0 t1; let t3 := U256.new c (BitVec.ofInt 128 (3)); let t4 := I256.overflowing_add_unsigned c t2 t3; let t5 := I256.MIN c; pure (((I256.eq c (t4).1 t5) && decide ((t4).2 = true))) : Res Bool) = .ok true := by decide +kernel

/- src/int/api.rs:1448 -/
example : ∀ c ∈ cfgs, (do let t0 := I256.new c (BitVec.ofInt 128 (5)); let t1 := I256.new c (BitVec.ofInt 128 (2)); let t2 := I256.overflowing_sub c t0 t1; let t3 := I256.new c (BitVec.ofInt 128 (3)); pure (((I256.eq c (t2).1 t3) && decide ((t2).2 = false))) : Res Bool) = .ok true := by decide +kernel

/- src/int/api.rs:1449 -/
example : ∀ c ∈ cfgs, (do let t0 := I256.MIN c; let t1 := I256.new c (BitVec.ofInt 128 (1)); let t2 := I256.overflowing_sub c t0 t1; let t3 := I256.MAX c; pure (((I256.eq c (t2).1 t3) && decide ((t2).2 = true))) : Res Bool) = .ok true := by decide +kernel

/- src/int/api.rs:1472 -/
example : ∀ c ∈ cfgs, (do let t0 := I256.new c (BitVec.ofInt 128 (1)); let t1 := U256.new c (BitVec.ofInt 128 (2)); let t2 := I256.overflowing_sub_unsigned c t0 t1; let t3 := I256.new c (BitVec.ofInt 128 (-1)); pure (((I256.eq c (t2).1 t3) && decide ((t2).2 = false))) : Res Bool) = .ok true := by decide +kernel

/- src/int/api.rs:1473 -/
example : ∀ c ∈ cfgs, (do let t0 := I256.MAX c; let t1 := I256.overflowing_sub_unsigned c t0 U256.MAX; let t2 := I256.MIN c; pure (((I256.eq c (t1).1 t2) && decide ((t1).2 = false))) : Res Bool) = .ok true := by decide +kernel

/- src/int/api.rs:1474 -/
example : ∀ c ∈ cfgs, (do let t0 := I256.MIN c; let t1 := I256.new c (BitVec.ofInt 128 (2)); let t2 ← I256.add c t0 t1; let t3 := U256.new c (BitVec.ofInt 128 (3)); let t4 := I256.overflowing_sub_unsigned c t2 t3; let t5 := I256.MAX c; pure (((I256.eq c (t4).1 t5) && decide ((t4).2 = true))) : Res Bool) = .ok true := by decide +kernel

/- src/int/api.rs:1496 -/
example : ∀ c ∈ cfgs, (do let t0 := I256.new c (BitVec.ofInt 128 (100)); let t1 := I256.new c (BitVec.ofInt 128 (80)); let t2 := I256.abs_diff c t0 t1; pure ((U256.eq_prim c t2 (BitVec.ofInt 128 (20)))) : Res Bool) = .ok true := by decide +kernel

/- src/int/api.rs:1497 -/
example : ∀ c ∈ cfgs, (do let t0 := I256.new c (BitVec.ofInt 128 (100)); let t1 := I256.new c (BitVec.ofInt 128 (110)); let t2 := I256.abs_diff c t0 t1; pure ((U256.eq_prim c t2 (BitVec.ofInt 128 (10)))) : Res Bool) = .ok true := by decide +kernel

/- src/int/api.rs:1498 -/
example : ∀ c ∈ cfgs, (do let t0 := I256.new c (BitVec.ofInt 128 (-100)); let t1 := I256.new c (BitVec.ofInt 128 (80)); let t2 := I256.abs_diff c t0 t1; pure ((U256.eq_prim c t2 (BitVec.ofInt 128 (180)))) : Res Bool) = .ok true := by decide +kernel

/- src/int/api.rs:1499 -/
example : ∀ c ∈ cfgs, (do let t0 := I256.new c (BitVec.ofInt 128 (-100)); let t1 := I256.new c (BitVec.ofInt 128 (-120)); let t2 := I256.abs_diff c t0 t1; pure ((U256.eq_prim c t2 (BitVec.ofInt 128 (20)))) : Res Bool) = .ok true := by decide +kernel

/- src/int/api.rs:1500 -/
example : ∀ c ∈ cfgs, (do let t0 := I256.MIN c; let t1 := I256.MAX c; let t2 := I256.abs_diff c t0 t1; pure ((U256.eq c t2 U256.MAX)) : Res Bool) = .ok true := by decide +kernel

/- src/int/api.rs:1501 -/
example : ∀ c ∈ cfgs, (do let t0 := I256.MAX c; let t1 := I256.MIN c; let t2 := I256.abs_diff c t0 t1; pure ((U256.eq c t2 U256.MAX)) : Res Bool) = .ok true := by decide +kernel

/- src/int/api.rs:1539 -/
example : ∀ c ∈ cfgs, (do let t0 := I256.new c (BitVec.ofInt 128 (5)); let t1 := I256.new c (BitVec.ofInt 128 (2)); let t2 ← I256.overflowing_mul c t0 t1; let t3 := I256.new c (BitVec.ofInt 128 (10)); pure (((I256.eq c (t2).1 t3) && decide ((t2).2 = false))) : Res Bool) = .ok true := by decide +kernel

/- src/int/api.rs:1540 -/
example : ∀ c ∈ cfgs, (do let t0 := I256.MAX c; let t1 := I256.new c (BitVec.ofInt 128 (2)); let t2 ← I256.overflowing_mul c t0 t1; let t3 := I256.new c (BitVec.ofInt 128 (-2)); pure (((I256.eq c (t2).1 t3) && decide ((t2).2 = true))) : Res Bool) = .ok true := by decide +kernel

/- src/int/api.rs:1567 -/
example : ∀ c ∈ cfgs, (do let t0 := I256.new c (BitVec.ofInt 128 (5)); let t1 := I256.new c (BitVec.ofInt 128 (2)); let t2 ← I256.overflowing_div c t0 t1; let t3 := I256.new c (BitVec.ofInt 128 (2)); pure (((I256.eq c (t2).1 t3) && decide ((t2).2 = false))) : Res Bool) = .ok true := by decide +kernel

/- src/int/api.rs:1568 -/
example : ∀ c ∈ cfgs, (do let t0 := I256.MIN c; let t1 := I256.new c (BitVec.ofInt 128 (-1)); let t2 ← I256.overflowing_div c t0 t1; let t3 := I256.MIN c; pure (((I256.eq c (t2).1 t3) && decide ((t2).2 = true))) : Res Bool) = .ok true := by decide +kernel

/- src/int/api.rs:1597 -/
example : ∀ c ∈ cfgs, (do let t0 := I256.new c (BitVec.ofInt 128 (5)); let t1 := I256.new c (BitVec.ofInt 128 (2)); let t2 ← I256.overflowing_div_euclid c t0 t1; let t3 := I256.new c (BitVec.ofInt 128 (2)); pure (((I256.eq c (t2).1 t3) && decide ((t2).2 = false))) : Res Bool) = .ok true := by decide +kernel

/- src/int/api.rs:1598 -/
example : ∀ c ∈ cfgs, (do let t0 := I256.MIN c; let t1 := I256.new c (BitVec.ofInt 128 (-1)); let t2 ← I256.overflowing_div_euclid c t0 t1; let t3 := I256.MIN c; pure (((I256.eq c (t2).1 t3) && decide ((t2).2 = true))) : Res Bool) = .ok true := by decide +kernel

/- src/int/api.rs:1627 -/
example : ∀ c ∈ cfgs, (do let t0 := I256.new c (BitVec.ofInt 128 (5)); let t1 := I256.new c (BitVec.ofInt 128 (2)); let t2 ← I256.overflowing_rem c t0 t1; let t3 := I256.new c (BitVec.ofInt 128 (1)); pure (((I256.eq c (t2).1 t3) && decide ((t2).2 = false))) : Res Bool) = .ok true := by decide +kernel

/- src/int/api.rs:1628 -/
example : ∀ c ∈ cfgs, (do let t0 := I256.MIN c; let t1 := I256.new c (BitVec.ofInt 128 (-1)); let t2 ← I256.overflowing_rem c t0 t1; let t3 := I256.new c (BitVec.ofInt 128 (0)); pure (((I256.eq c (t2).1 t3) && decide ((t2).2 = true))) : Res Bool) = .ok true := by decide +kernel

/- src/int/api.rs:1657 -/
example : ∀ c ∈ cfgs, (do let t0 := I256.new c (BitVec.ofInt 128 (5)); let t1 := I256.new c (BitVec.ofInt 128 (2)); let t2 ← I256.overflowing_rem_euclid c t0 t1; let t3 := I256.new c (BitVec.ofInt 128 (1)); pure (((I256.eq c (t2).1 t3) && decide ((t2).2 = false))) : Res Bool) = .ok true := by decide +kernel

/- src/int/api.rs:1658 -/
example : ∀ c ∈ cfgs, (do let t0 := I256.MIN c; let t1 := I256.new c (BitVec.ofInt 128 (-1)); let t2 ← I256.overflowing_rem_euclid c t0 t1; let t3 := I256.new c (BitVec.ofInt 128 (0)); pure (((I256.eq c (t2).1 t3) && decide ((t2).2 = true))) : Res Bool) = .ok true := by decide +kernel

/- src/int/api.rs:1684 -/
example : ∀ c ∈ cfgs, (do let t0 := I256.new c (BitVec.ofInt 128 (2)); let t1 ← I256.overflowing_neg c t0; let t2 := I256.new c (BitVec.ofInt 128 (-2)); pure (((I256.eq c (t1).1 t2) && decide ((t1).2 = false))) : Res Bool) = .ok true := by decide +kernel

/- src/int/api.rs:1685 -/
example : ∀ c ∈ cfgs, (do let t0 := I256.MIN c; let t1 ← I256.overflowing_neg c t0; let t2 := I256.MIN c; pure (((I256.eq c (t1).1 t2) && decide ((t1).2 = true))) : Res Bool) = .ok true := by decide +kernel

/- src/int/api.rs:1710 -/
example : ∀ c ∈ cfgs, (do let t0 := I256.new c (BitVec.ofInt 128 (1)); let t1 ← I256.overflowing_shl c t0 (BitVec.ofInt 32 (4)); let t2 := I256.new c (BitVec.ofInt 128 (16)); pure (((I256.eq c (t1).1 t2) && decide ((t1).2 = false))) : Res Bool) = .ok true := by decide +kernel

/- src/int/api.rs:1711 -/
example : ∀ c ∈ cfgs, (do let t0 := I256.new c (BitVec.ofInt 128 (1)); let t1 ← I256.overflowing_shl c t0 (BitVec.ofInt 32 (260)); let t2 := I256.new c (BitVec.ofInt 128 (16)); pure (((I256.eq c (t1).1 t2) && decide ((t1).2 = true))) : Res Bool) = .ok true := by decide +kernel

/- src/int/api.rs:1734 -/
example : ∀ c ∈ cfgs, (do let t0 := I256.new c (BitVec.ofInt 128 (16)); let t1 ← I256.overflowing_shr c t0 (BitVec.ofInt 32 (4)); let t2 := I256.new c (BitVec.ofInt 128 (1)); pure (((I256.eq c (t1).1 t2) && decide ((t1).2 = false))) : Res Bool) = .ok true := by decide +kernel

/- src/int/api.rs:1735 -/
example : ∀ c ∈ cfgs, (do let t0 := I256.new c (BitVec.ofInt 128 (16)); let t1 ← I256.overflowing_shr c t0 (BitVec.ofInt 32 (260)); let t2 := I256.new c (BitVec.ofInt 128 (1)); pure (((I256.eq c (t1).1 t2) && decide ((t1).2 = true))) : Res Bool) = .ok true := by decide +kernel

/- src/int/api.rs:1757 -/
example : ∀ c ∈ cfgs, (do let t0 := I256.new c (BitVec.ofInt 128 (10)); let t1 := I256.overflowing_abs c t0; let t2 := I256.new c (BitVec.ofInt 128 (10)); pure (((I256.eq c (t1).1 t2) && decide ((t1).2 = false))) : Res Bool) = .ok true := by decide +kernel

/- src/int/api.rs:1758 -/
example : ∀ c ∈ cfgs, (do let t0 := I256.new c (BitVec.ofInt 128 (-10)); let t1 := I256.overflowing_abs c t0; let t2 := I256.new c (BitVec.ofInt 128 (10)); pure (((I256.eq c (t1).1 t2) && decide ((t1).2 = false))) : Res Bool) = .ok true := by decide +kernel

/- src/int/api.rs:1759 -/
example : ∀ c ∈ cfgs, (do let t0 := I256.MIN c; let t1 := I256.overflowing_abs c t0; let t2 := I256.MIN c; pure (((I256.eq c (t1).1 t2) && decide ((t1).2 = true))) : Res Bool) = .ok true := by decide +kernel

/- src/int/api.rs:1777 -/
example : ∀ c ∈ cfgs, (do let t0 := I256.new c (BitVec.ofInt 128 (3)); let t1 ← I256.overflowing_pow c t0 (BitVec.ofInt 32 (4)); let t2 := I256.new c (BitVec.ofInt 128 (81)); pure (((I256.eq c (t1).1 t2) && decide ((t1).2 = false))) : Res Bool) = .ok true := by decide +kernel

/- src/int/api.rs:1778 -/
example : ∀ c ∈ cfgs, (do let t0 := I256.new c (BitVec.ofInt 128 (10)); let t1 ← I256.overflowing_pow c t0 (BitVec.ofInt 32 (77)); let t2 := I256.from_words c (BitVec.ofInt 128 (-46408779215366586471190473126206792002)) (BitVec.ofInt 128 (-113521875028918879454725857041952276480)); pure (((I256.eq c (t1).1 t2) && decide ((t1).2 = true))) : Res Bool) = .ok true := by decide +kernel

/- src/int/api.rs:1832 -/
example : ∀ c ∈ cfgs, (do let t0 := I256.new c (BitVec.ofInt 128 (2)); let t1 ← I256.pow c t0 (BitVec.ofInt 32 (5)); pure ((I256.eq_prim c t1 (BitVec.ofInt 128 (32)))) : Res Bool) = .ok true := by decide +kernel

/- src/int/api.rs:1883 -/
example : ∀ c ∈ cfgs, (do let t0 := I256.new c (BitVec.ofInt 128 (7)); let t1 := I256.new c (BitVec.ofInt 128 (4)); let t2 ← I256.div_euclid c t0 t1; pure ((I256.eq_prim c t2 (BitVec.ofInt 128 (1)))) : Res Bool) = .ok true := by decide +kernel

/- src/int/api.rs:1884 -/
example : ∀ c ∈ cfgs, (do let t0 := I256.new c (BitVec.ofInt 128 (7)); let t1 := I256.new c (BitVec.ofInt 128 (4)); let t2 ← I256.neg c t1; let t3 ← I256.div_euclid c t0 t2; pure ((I256.eq_prim c t3 (BitVec.ofInt 128 (-1)))) : Res Bool) = .ok true := by decide +kernel

/- src/int/api.rs:1885 -/
example : ∀ c ∈ cfgs, (do let t0 := I256.new c (BitVec.ofInt 128 (7)); let t1 := I256.new c (BitVec.ofInt 128 (4)); let t2 ← I256.neg c t0; let t3 ← I256.div_euclid c t2 t1; pure ((I256.eq_prim c t3 (BitVec.ofInt 128 (-2)))) : Res Bool) = .ok true := by decide +kernel

/- src/int/api.rs:1886 -/
example : ∀ c ∈ cfgs, (do let t0 := I256.new c (BitVec.ofInt 128 (7)); let t1 := I256.new c (BitVec.ofInt 128 (4)); let t2 ← I256.neg c t0; let t3 ← I256.neg c t1; let t4 ← I256.div_euclid c t2 t3; pure ((I256.eq_prim c t4 (BitVec.ofInt 128 (2)))) : Res Bool) = .ok true := by decide +kernel

/- src/int/api.rs:1919 -/
example : ∀ c ∈ cfgs, (do let t0 := I256.new c (BitVec.ofInt 128 (7)); let t1 := I256.new c (BitVec.ofInt 128 (4)); let t2 ← I256.rem_euclid c t0 t1; pure ((I256.eq_prim c t2 (BitVec.ofInt 128 (3)))) : Res Bool) = .ok true := by decide +kernel

/- src/int/api.rs:1920 -/
example : ∀ c ∈ cfgs, (do let t0 := I256.new c (BitVec.ofInt 128 (7)); let t1 := I256.new c (BitVec.ofInt 128 (4)); let t2 ← I256.neg c t0; let t3 ← I256.rem_euclid c t2 t1; pure ((I256.eq_prim c t3 (BitVec.ofInt 128 (1)))) : Res Bool) = .ok true := by decide +kernel

/- src/int/api.rs:1921 -/
example : ∀ c ∈ cfgs, (do let t0 := I256.new c (BitVec.ofInt 128 (7)); let t1 := I256.new c (BitVec.ofInt 128 (4)); let t2 ← I256.neg c t1; let t3 ← I256.rem_euclid c t0 t2; pure ((I256.eq_prim c t3 (BitVec.ofInt 128 (3)))) : Res Bool) = .ok true := by decide +kernel

/- src/int/api.rs:1922 -/
example : ∀ c ∈ cfgs, (do let t0 := I256.new c (BitVec.ofInt 128 (7)); let t1 := I256.new c (BitVec.ofInt 128 (4)); let t2 ← I256.neg c t0; let t3 ← I256.neg c t1; let t4 ← I256.rem_euclid c t2 t3; pure ((I256.eq_prim c t4 (BitVec.ofInt 128 (1)))) : Res Bool) = .ok true := by decide +kernel

/- src/int/api.rs:1960 -/
example : ∀ c ∈ cfgs, (do let t0 := I256.new c (BitVec.ofInt 128 (10)); let t1 ← I256.abs c t0; pure ((I256.eq_prim c t1 (BitVec.ofInt 128 (10)))) : Res Bool) = .ok true := by decide +kernel

/- src/int/api.rs:1961 -/
example : ∀ c ∈ cfgs, (do let t0 := I256.new c (BitVec.ofInt 128 (-10)); let t1 ← I256.abs c t0; pure ((I256.eq_prim c t1 (BitVec.ofInt 128 (10)))) : Res Bool) = .ok true := by decide +kernel

/- src/int/api.rs:1985 -/
example : ∀ c ∈ cfgs, (do let t0 := I256.new c (BitVec.ofInt 128 (10)); let t1 := I256.signum c t0; pure ((I256.eq_prim c t1 (BitVec.ofInt 128 (1)))) : Res Bool) = .ok true := by decide +kernel

/- src/int/api.rs:1986 -/
example : ∀ c ∈ cfgs, (do let t0 := I256.new c (BitVec.ofInt 128 (0)); let t1 := I256.signum c t0; pure ((I256.eq_prim c t1 (BitVec.ofInt 128 (0)))) : Res Bool) = .ok true := by decide +kernel

/- src/int/api.rs:1987 -/
example : ∀ c ∈ cfgs, (do let t0 := I256.new c (BitVec.ofInt 128 (-10)); let t1 := I256.signum c t0; pure ((I256.eq_prim c t1 (BitVec.ofInt 128 (-1)))) : Res Bool) = .ok true := by decide +kernel

/- src/int/api.rs:2006 -/
example : ∀ c ∈ cfgs, (do let t0 := I256.new c (BitVec.ofInt 128 (10)); let t1 := I256.signum128 c t0; pure (decide (t1 = (BitVec.ofInt 128 (1)))) : Res Bool) = .ok true := by decide +kernel

/- src/int/api.rs:2007 -/
example : ∀ c ∈ cfgs, (do let t0 := I256.new c (BitVec.ofInt 128 (0)); let t1 := I256.signum128 c t0; pure (decide (t1 = (BitVec.ofInt 128 (0)))) : Res Bool) = .ok true := by decide +kernel

/- src/int/api.rs:2008 -/
example : ∀ c ∈ cfgs, (do let t0 := I256.new c (BitVec.ofInt 128 (-10)); let t1 := I256.signum128 c t0; pure (decide (t1 = (BitVec.ofInt 128 (-1)))) : Res Bool) = .ok true := by decide +kernel

/- src/int/api.rs:2025 -/
example : ∀ c ∈ cfgs, (do let t0 := I256.new c (BitVec.ofInt 128 (10)); let t1 := I256.is_positive c t0; pure (t1) : Res Bool) = .ok true := by decide +kernel

/- src/int/api.rs:2026 -/
example : ∀ c ∈ cfgs, (do let t0 := I256.new c (BitVec.ofInt 128 (-10)); let t1 := I256.is_positive c t0; pure ((!t1)) : Res Bool) = .ok true := by decide +kernel

/- src/int/api.rs:2042 -/
example : ∀ c ∈ cfgs, (do let t0 := I256.new c (BitVec.ofInt 128 (-10)); let t1 := I256.is_negative c t0; pure (t1) : Res Bool) = .ok true := by decide +kernel

/- src/int/api.rs:2043 -/
example : ∀ c ∈ cfgs, (do let t0 := I256.new c (BitVec.ofInt 128 (10)); let t1 := I256.is_negative c t0; pure ((!t1)) : Res Bool) = .ok true := by decide +kernel

/- src/int/api.rs:2062 -/
example : ∀ c ∈ cfgs, (do let t0 := I256.from_words c (BitVec.ofInt 128 (5233100606242806050955395731361295)) (BitVec.ofInt 128 (21356283574076891493948969979685445151)); let t1 := I256.to_be_bytes c t0; pure (decide (t1 = [0, 1, 2, 3, 4, 5, 6, 7, 8, 9, 10, 11, 12, 13, 14, 15, 16, 17, 18, 19, 20, 21, 22, 23, 24, 25, 26, 27, 28, 29, 30, 31])) : Res Bool) = .ok true := by decide +kernel

/- src/int/api.rs:2086 -/
example : ∀ c ∈ cfgs, (do let t0 := I256.from_words c (BitVec.ofInt 128 (5233100606242806050955395731361295)) (BitVec.ofInt 128 (21356283574076891493948969979685445151)); let t1 := I256.to_le_bytes c t0; pure (decide (t1 = [31, 30, 29, 28, 27, 26, 25, 24, 23, 22, 21, 20, 19, 18, 17, 16, 15, 14, 13, 12, 11, 10, 9, 8, 7, 6, 5, 4, 3, 2, 1, 0])) : Res Bool) = .ok true := by decide +kernel

/- src/int/api.rs:2150 -/
example : ∀ c ∈ cfgs, (do let t0 := I256.from_be_bytes c [0, 1, 2, 3, 4, 5, 6, 7, 8, 9, 10, 11, 12, 13, 14, 15, 16, 17, 18, 19, 20, 21, 22, 23, 24, 25, 26, 27, 28, 29, 30, 31]; let t1 := I256.from_words c (BitVec.ofInt 128 (5233100606242806050955395731361295)) (BitVec.ofInt 128 (21356283574076891493948969979685445151)); pure ((I256.eq c t0 t1)) : Res Bool) = .ok true := by decide +kernel

/- src/int/api.rs:2186 -/
example : ∀ c ∈ cfgs, (do let t0 := I256.from_le_bytes c [31, 30, 29, 28, 27, 26, 25, 24, 23, 22, 21, 20, 19, 18, 17, 16, 15, 14, 13, 12, 11, 10, 9, 8, 7, 6, 5, 4, 3, 2, 1, 0]; let t1 := I256.from_words c (BitVec.ofInt 128 (5233100606242806050955395731361295)) (BitVec.ofInt 128 (21356283574076891493948969979685445151)); pure ((I256.eq c t0 t1)) : Res Bool) = .ok true := by decide +kernel

/- src/int/cmp.rs:8 -/
example : ∀ c ∈ cfgs, (do let t0 := I256.new c (BitVec.ofInt 128 (42)); pure ((I256.eq_prim c t0 (BitVec.ofInt 128 (42)))) : Res Bool) = .ok true := by decide +kernel

/- src/int/cmp.rs:9 -/
example : ∀ c ∈ cfgs, (do let t0 := I256.new c (BitVec.ofInt 128 (42)); pure ((I256.eq_prim c t0 (BitVec.ofInt 128 (42)))) : Res Bool) = .ok true := by decide +kernel

/- src/int/convert.rs:47 -/
example : ∀ c ∈ cfgs, (do let t0 := I256.of_prim_as c .i32 (BitVec.ofInt 32 (-1)); let t1 := I256.ONE c; let t2 ← I256.neg c t1; pure ((I256.eq c t0 t2)) : Res Bool) = .ok true := by decide +kernel

/- src/int/convert.rs:48 -/
example : ∀ c ∈ cfgs, (do let t0 := I256.of_prim_as c .u32 (BitVec.ofInt 32 (4294967295)); pure ((I256.eq_prim c t0 (BitVec.ofInt 128 (4294967295)))) : Res Bool) = .ok true := by decide +kernel

/- src/int/fmt.rs:16 -/
example : ∀ c ∈ cfgs, (do let t0 ← I256.from_str c (str "42"); let t1 ← unwrap t0; pure ((I256.eq_prim c t1 (BitVec.ofInt 128 (42)))) : Res Bool) = .ok true := by decide +kernel

/- src/int/fmt.rs:21 -/
example : ∀ c ∈ cfgs, (do let t0 := I256.MAX c; let t1 ← I256.debug c t0 ⟨0, none, ' ', none⟩; pure (decide (t1 = "57896044618658097711785492504343953926634992332820282019728792003956564819967".toList)) : Res Bool) = .ok true := by decide +kernel

/- src/int/fmt.rs:25 -/
example : ∀ c ∈ cfgs, (do let t0 := I256.MIN c; let t1 ← I256.debug c t0 ⟨16, none, ' ', none⟩; pure (decide (t1 = "8000000000000000000000000000000000000000000000000000000000000000".toList)) : Res Bool) = .ok true := by decide +kernel

/- src/int/fmt.rs:29 -/
example : ∀ c ∈ cfgs, (do let t0 := I256.MAX c; let t1 ← I256.debug c t0 ⟨36, none, ' ', none⟩; pure (decide (t1 = "0x7FFFFFFFFFFFFFFFFFFFFFFFFFFFFFFFFFFFFFFFFFFFFFFFFFFFFFFFFFFFFFFF".toList)) : Res Bool) = .ok true := by decide +kernel

/- src/int/fmt.rs:37 -/
example : ∀ c ∈ cfgs, (do let t0 := I256.MIN c; let t1 ← I256.display c t0 ⟨0, none, ' ', none⟩; pure (decide (t1 = "-57896044618658097711785492504343953926634992332820282019728792003956564819968".toList)) : Res Bool) = .ok true := by decide +kernel

/- src/int/fmt.rs:41 -/
example : ∀ c ∈ cfgs, (do let t0 := I256.from_words c (BitVec.ofInt 128 (0)) (BitVec.ofInt 128 (-1329227995784915854529085396220968961)); let t1 ← I256.display c t0 ⟨0, none, ' ', none⟩; pure (decide (t1 = "338953138925153547608845522035547242495".toList)) : Res Bool) = .ok true := by decide +kernel

/- src/int/fmt.rs:52 -/
example : ∀ c ∈ cfgs, (do let t0 := I256.new c (BitVec.ofInt 128 (42)); let t1 ← I256.fmtRadix c .binary t0 ⟨0, none, ' ', none⟩; pure (decide (t1 = "101010".toList)) : Res Bool) = .ok true := by decide +kernel

/- src/int/fmt.rs:53 -/
example : ∀ c ∈ cfgs, (do let t0 := I256.new c (BitVec.ofInt 128 (42)); let t1 ← I256.fmtRadix c .octal t0 ⟨0, none, ' ', none⟩; pure (decide (t1 = "52".toList)) : Res Bool) = .ok true := by decide +kernel

/- src/int/fmt.rs:54 -/
example : ∀ c ∈ cfgs, (do let t0 := I256.new c (BitVec.ofInt 128 (42)); let t1 ← I256.fmtRadix c .lowerHex t0 ⟨0, none, ' ', none⟩; pure (decide (t1 = "2a".toList)) : Res Bool) = .ok true := by decide +kernel

/- src/int/fmt.rs:58 -/
example : ∀ c ∈ cfgs, (do let t0 := I256.MINUS_ONE c; let t1 ← I256.fmtRadix c .binary t0 ⟨0, none, ' ', none⟩; pure (decide (t1 = (List.replicate 256 "1".toList).flatten)) : Res Bool) = .ok true := by decide +kernel

/- src/int/fmt.rs:60 -/
example : ∀ c ∈ cfgs, (do let t0 := I256.MINUS_ONE c; let t1 ← I256.fmtRadix c .lowerHex t0 ⟨0, none, ' ', none⟩; pure (decide (t1 = (List.replicate 64 "f".toList).flatten)) : Res Bool) = .ok true := by decide +kernel

/- src/int/parse.rs:47 -/
example : ∀ c ∈ cfgs, (do let t0 ← I256.from_str c (str "42"); let t1 ← unwrap t0; pure ((I256.eq_prim c t1 (BitVec.ofInt 128 (42)))) : Res Bool) = .ok true := by decide +kernel

/- src/lib.rs:44 -/
example : ∀ c ∈ cfgs, (do let t0 ← I256.const_from_str_prefixed c (str "-57896044618658097711785492504343953926634992332820282019728792003956564819968"); let t1 := I256.MIN c; pure ((I256.eq c t0 t1)) : Res Bool) = .ok true := by decide +kernel

/- src/lib.rs:57 -/
example : ∀ c ∈ cfgs, (do let t0 ← I256.const_from_str_prefixed c (str "0x7fff_ffff_ffff_ffff_ffff_ffff_ffff_ffff\n           ffff_ffff_ffff_ffff_ffff_ffff_ffff_ffff"); let t1 := I256.MAX c; pure ((I256.eq c t0 t1)) : Res Bool) = .ok true := by decide +kernel

/- src/lib.rs:64 -/
example : ∀ c ∈ cfgs, (do let t0 ← I256.const_from_str_prefixed c (str "0b101010"); pure ((I256.eq_prim c t0 (BitVec.ofInt 128 (42)))) : Res Bool) = .ok true := by decide +kernel

/- src/lib.rs:65 -/
example : ∀ c ∈ cfgs, (do let t0 ← I256.const_from_str_prefixed c (str "-0o52"); pure ((I256.eq_prim c t0 (BitVec.ofInt 128 (-42)))) : Res Bool) = .ok true := by decide +kernel

/- src/lib.rs:83 -/
example : ∀ c ∈ cfgs, (do let t0 ← U256.const_from_str_prefixed c (str "115792089237316195423570985008687907852837564279074904382605163141518161494337"); let t1 := U256.from_words c (BitVec.ofInt 128 (340282366920938463463374607431768211454)) (BitVec.ofInt 128 (248144347276217270074328348468568277313)); pure ((U256.eq c t0 t1)) : Res Bool) = .ok true := by decide +kernel

/- src/lib.rs:99 -/
example : ∀ c ∈ cfgs, (do let t0 ← U256.const_from_str_prefixed c (str "0xffff_ffff_ffff_ffff_ffff_ffff_ffff_ffff\n           ffff_ffff_ffff_ffff_ffff_ffff_ffff_ffff"); pure ((U256.eq c t0 U256.MAX)) : Res Bool) = .ok true := by decide +kernel

/- src/lib.rs:106 -/
example : ∀ c ∈ cfgs, (do let t0 ← U256.const_from_str_prefixed c (str "0b101010"); pure ((U256.eq_prim c t0 (BitVec.ofInt 128 (42)))) : Res Bool) = .ok true := by decide +kernel

/- src/lib.rs:107 -/
example : ∀ c ∈ cfgs, (do let t0 ← U256.const_from_str_prefixed c (str "0o52"); pure ((U256.eq_prim c t0 (BitVec.ofInt 128 (42)))) : Res Bool) = .ok true := by decide +kernel

/- src/uint.rs:127 -/
example : ∀ c ∈ cfgs, (do let t0 ← U256.from_str_hex c (str "0x2A"); let t1 := U256.new c (BitVec.ofInt 128 (42)); pure ((match t0 with | .ok v => (U256.eq c v t1) | .error _ => false)) : Res Bool) = .ok true := by decide +kernel

/- src/uint.rs:152 -/
example : ∀ c ∈ cfgs, (do let t0 ← U256.from_str_prefixed c (str "0b101"); let t1 := U256.new c (BitVec.ofInt 128 (5)); pure ((match t0 with | .ok v => (U256.eq c v t1) | .error _ => false)) : Res Bool) = .ok true := by decide +kernel

/- src/uint.rs:153 -/
example : ∀ c ∈ cfgs, (do let t0 ← U256.from_str_prefixed c (str "0o17"); let t1 := U256.new c (BitVec.ofInt 128 (15)); pure ((match t0 with | .ok v => (U256.eq c v t1) | .error _ => false)) : Res Bool) = .ok true := by decide +kernel

/- src/uint.rs:154 -/
example : ∀ c ∈ cfgs, (do let t0 ← U256.from_str_prefixed c (str "0xa"); let t1 := U256.new c (BitVec.ofInt 128 (10)); pure ((match t0 with | .ok v => (U256.eq c v t1) | .error _ => false)) : Res Bool) = .ok true := by decide +kernel

/- src/uint.rs:155 -/
example : ∀ c ∈ cfgs, (do let t0 ← U256.from_str_prefixed c (str "42"); let t1 := U256.new c (BitVec.ofInt 128 (42)); pure ((match t0 with | .ok v => (U256.eq c v t1) | .error _ => false)) : Res Bool) = .ok true := by decide +kernel

/- src/uint.rs:291 -/
example : ∀ c ∈ cfgs, (do let t0 := U256.new c (BitVec.ofInt 128 (7)); let t1 := U256.new c (BitVec.ofInt 128 (4)); let t2 ← U256.div_rem c t0 t1; let t3 := U256.new c (BitVec.ofInt 128 (1)); let t4 := U256.new c (BitVec.ofInt 128 (3)); pure (((U256.eq c (t2).1 t3) && (U256.eq c (t2).2 t4))) : Res Bool) = .ok true := by decide +kernel

/- src/uint.rs:346 -/
example : ∀ c ∈ cfgs, (do let t0 := U256.new c (BitVec.ofInt 128 (7)); let t1 := U256.new c (BitVec.ofInt 128 (4)); let t2 ← U256.div_rem_euclid c t0 t1; let t3 := U256.new c (BitVec.ofInt 128 (1)); let t4 := U256.new c (BitVec.ofInt 128 (3)); pure (((U256.eq c (t2).1 t3) && (U256.eq c (t2).2 t4))) : Res Bool) = .ok true := by decide +kernel

/- src/uint.rs:365 -/
example : ∀ c ∈ cfgs, (do let t0 := U256.new c (BitVec.ofInt 128 (128)); let t1 := U256.new c (BitVec.ofInt 128 (2)); let t2 ← U256.checked_div_rem c t0 t1; let t3 := U256.new c (BitVec.ofInt 128 (64)); let t4 := U256.new c (BitVec.ofInt 128 (0)); pure ((match t2 with | some v => ((U256.eq c (v).1 t3) && (U256.eq c (v).2 t4)) | none => false)) : Res Bool) = .ok true := by decide +kernel

/- src/uint.rs:366 -/
example : ∀ c ∈ cfgs, (do let t0 := U256.new c (BitVec.ofInt 128 (1)); let t1 := U256.new c (BitVec.ofInt 128 (0)); let t2 ← U256.checked_div_rem c t0 t1; pure ((t2).isNone) : Res Bool) = .ok true := by decide +kernel

/- src/uint.rs:398 -/
example : ∀ c ∈ cfgs, (do let t0 := U256.new c (BitVec.ofInt 128 (128)); let t1 := U256.new c (BitVec.ofInt 128 (2)); let t2 ← U256.checked_div_rem_euclid c t0 t1; let t3 := U256.new c (BitVec.ofInt 128 (64)); let t4 := U256.new c (BitVec.ofInt 128 (0)); pure ((match t2 with | some v => ((U256.eq c (v).1 t3) && (U256.eq c (v).2 t4)) | none => false)) : Res Bool) = .ok true := by decide +kernel

/- src/uint.rs:399 -/
example : ∀ c ∈ cfgs, (do let t0 := U256.new c (BitVec.ofInt 128 (1)); let t1 := U256.new c (BitVec.ofInt 128 (0)); let t2 ← U256.checked_div_rem_euclid c t0 t1; pure ((t2).isNone) : Res Bool) = .ok true := by decide +kernel

/- src/uint.rs:417 -/
example : ∀ c ∈ cfgs, (do let t0 := U256.new c (BitVec.ofInt 128 (5)); let t1 := U256.new c (BitVec.ofInt 128 (2)); let t2 ← U256.saturating_div_rem c t0 t1; let t3 := U256.new c (BitVec.ofInt 128 (2)); let t4 := U256.new c (BitVec.ofInt 128 (1)); pure (((U256.eq c (t2).1 t3) && (U256.eq c (t2).2 t4))) : Res Bool) = .ok true := by decide +kernel

/- src/uint.rs:441 -/
example : ∀ c ∈ cfgs, (do let t0 := U256.new c (BitVec.ofInt 128 (5)); let t1 := U256.new c (BitVec.ofInt 128 (2)); let t2 ← U256.saturating_div_rem_euclid c t0 t1; let t3 := U256.new c (BitVec.ofInt 128 (2)); let t4 := U256.new c (BitVec.ofInt 128 (1)); pure (((U256.eq c (t2).1 t3) && (U256.eq c (t2).2 t4))) : Res Bool) = .ok true := by decide +kernel

/- src/uint.rs:471 -/
example : ∀ c ∈ cfgs, (do let t0 := U256.new c (BitVec.ofInt 128 (100)); let t1 := U256.new c (BitVec.ofInt 128 (10)); let t2 ← U256.wrapping_div_rem c t0 t1; let t3 := U256.new c (BitVec.ofInt 128 (10)); let t4 := U256.new c (BitVec.ofInt 128 (0)); pure (((U256.eq c (t2).1 t3) && (U256.eq c (t2).2 t4))) : Res Bool) = .ok true := by decide +kernel

/- src/uint.rs:497 -/
example : ∀ c ∈ cfgs, (do let t0 := U256.new c (BitVec.ofInt 128 (100)); let t1 := U256.new c (BitVec.ofInt 128 (10)); let t2 ← U256.wrapping_div_rem_euclid c t0 t1; let t3 := U256.new c (BitVec.ofInt 128 (10)); let t4 := U256.new c (BitVec.ofInt 128 (0)); pure (((U256.eq c (t2).1 t3) && (U256.eq c (t2).2 t4))) : Res Bool) = .ok true := by decide +kernel

/- src/uint.rs:523 -/
example : ∀ c ∈ cfgs, (do let t0 := U256.new c (BitVec.ofInt 128 (5)); let t1 := U256.new c (BitVec.ofInt 128 (2)); let t2 ← U256.overflowing_div_rem c t0 t1; let t3 := U256.new c (BitVec.ofInt 128 (2)); let t4 := U256.new c (BitVec.ofInt 128 (1)); pure (((U256.eq c (t2).1 t3) && (U256.eq c (t2).2.1 t4) && decide ((t2).2.2 = false))) : Res Bool) = .ok true := by decide +kernel

/- src/uint.rs:552 -/
example : ∀ c ∈ cfgs, (do let t0 := U256.new c (BitVec.ofInt 128 (5)); let t1 := U256.new c (BitVec.ofInt 128 (2)); let t2 ← U256.overflowing_div_rem_euclid c t0 t1; let t3 := U256.new c (BitVec.ofInt 128 (2)); let t4 := U256.new c (BitVec.ofInt 128 (1)); pure (((U256.eq c (t2).1 t3) && (U256.eq c (t2).2.1 t4) && decide ((t2).2.2 = false))) : Res Bool) = .ok true := by decide +kernel

/- src/uint/api.rs:20 -/
example : ∀ c ∈ cfgs, (do let t0 := U256.new c (BitVec.ofInt 128 (0)); pure ((U256.eq c U256.MIN t0)) : Res Bool) = .ok true := by decide +kernel

/- src/uint/api.rs:32 -/
example : ∀ c ∈ cfgs, (do let t0 ← U256.display c U256.MAX .default; pure (decide (t0 = "115792089237316195423570985008687907853269984665640564039457584007913129639935".toList)) : Res Bool) = .ok true := by decide +kernel

/- src/uint/api.rs:45 -/
example : ∀ c ∈ cfgs, (do pure (true) : Res Bool) = .ok true := by decide +kernel

/- src/uint/api.rs:69 -/
example : ∀ c ∈ cfgs, (do let t0 ← U256.from_str_radix c (str "A") (BitVec.ofInt 32 (16)); let t1 := U256.new c (BitVec.ofInt 128 (10)); pure ((match t0 with | .ok v => (U256.eq c v t1) | .error _ => false)) : Res Bool) = .ok true := by decide +kernel

/- src/uint/api.rs:85 -/
example : ∀ c ∈ cfgs, (do let t0 := U256.new c (BitVec.ofInt 128 (76)); let t1 ← U256.count_ones c t0; pure (decide (t1 = (BitVec.ofInt 32 (3)))) : Res Bool) = .ok true := by decide +kernel

/- src/uint/api.rs:101 -/
example : ∀ c ∈ cfgs, (do let t0 ← U256.count_zeros c U256.MIN; pure (decide (t0 = (BitVec.ofInt 32 (256)))) : Res Bool) = .ok true := by decide +kernel

/- src/uint/api.rs:102 -/
example : ∀ c ∈ cfgs, (do let t0 ← U256.count_zeros c U256.MAX; pure (decide (t0 = (BitVec.ofInt 32 (0)))) : Res Bool) = .ok true := by decide +kernel

/- src/uint/api.rs:120 -/
example : ∀ c ∈ cfgs, (do let t0 ← U256.shrBy c U256.MAX (.prim .u32 (BitVec.ofInt 32 (2))); let t1 ← U256.leading_zeros c t0; pure (decide (t1 = (BitVec.ofInt 32 (2)))) : Res Bool) = .ok true := by decide +kernel

/- src/uint/api.rs:137 -/
example : ∀ c ∈ cfgs, (do let t0 := U256.new c (BitVec.ofInt 128 (40)); let t1 ← U256.trailing_zeros c t0; pure (decide (t1 = (BitVec.ofInt 32 (3)))) : Res Bool) = .ok true := by decide +kernel

/- src/uint/api.rs:154 -/
example : ∀ c ∈ cfgs, (do let t0 ← U256.shrBy c U256.MAX (.prim .u32 (BitVec.ofInt 32 (2))); let t1 := U256.not t0; let t2 ← U256.leading_ones c t1; pure (decide (t2 = (BitVec.ofInt 32 (2)))) : Res Bool) = .ok true := by decide +kernel

/- src/uint/api.rs:171 -/
example : ∀ c ∈ cfgs, (do let t0 := U256.new c (BitVec.ofInt 128 (87)); let t1 ← U256.trailing_ones c t0; pure (decide (t1 = (BitVec.ofInt 32 (3)))) : Res Bool) = .ok true := by decide +kernel

/- src/uint/api.rs:195 -/
example : ∀ c ∈ cfgs, (do let t0 := U256.from_words c (BitVec.ofInt 128 (26522252353395899526533775249656250368)) (BitVec.ofInt 128 (20342)); let t1 := U256.new c (BitVec.ofInt 128 (1333138420)); let t2 ← U256.rotate_left c t0 (BitVec.ofInt 32 (16)); pure ((U256.eq c t2 t1)) : Res Bool) = .ok true := by decide +kernel

/- src/uint/api.rs:223 -/
example : ∀ c ∈ cfgs, (do let t0 := U256.new c (BitVec.ofInt 128 (1333138420)); let t1 := U256.from_words c (BitVec.ofInt 128 (26522252353395899526533775249656250368)) (BitVec.ofInt 128 (20342)); let t2 ← U256.rotate_right c t0 (BitVec.ofInt 32 (16)); pure ((U256.eq c t2 t1)) : Res Bool) = .ok true := by decide +kernel

/- src/uint/api.rs:246 -/
example : ∀ c ∈ cfgs, (do let t0 := U256.from_words c (BitVec.ofInt 128 (5233100606242806050955395731361295)) (BitVec.ofInt 128 (21356283574076891493948969979685445151)); let t1 := U256.swap_bytes t0; let t2 := U256.from_words c (BitVec.ofInt 128 (41362427191743139026751447860679676176)) (BitVec.ofInt 128 (20011376718272490338853433276725592320)); pure ((U256.eq c t1 t2)) : Res Bool) = .ok true := by decide +kernel

/- src/uint/api.rs:272 -/
example : ∀ c ∈ cfgs, (do let t0 := U256.from_words c (BitVec.ofInt 128 (5233100606242806050955395731361295)) (BitVec.ofInt 128 (21356283574076891493948969979685445151)); let t1 := U256.reverse_bits t0; let t2 := U256.from_words c (BitVec.ofInt 128 (330275355044783354354439418316247828488)) (BitVec.ofInt 128 (319599829808048030010490411024270786560)); pure ((U256.eq c t1 t2)) : Res Bool) = .ok true := by decide +kernel

/- src/uint/api.rs:413 -/
example : ∀ c ∈ cfgs, (do let t0 := U256.new c (BitVec.ofInt 128 (2)); let t1 ← U256.sub c U256.MAX t0; let t2 := U256.new c (BitVec.ofInt 128 (1)); let t3 := U256.checked_add c t1 t2; let t4 := U256.new c (BitVec.ofInt 128 (1)); let t5 ← U256.sub c U256.MAX t4; pure ((match t3 with | some v => (U256.eq c v t5) | none => false)) : Res Bool) = .ok true := by decide +kernel

/- src/uint/api.rs:414 -/
example : ∀ c ∈ cfgs, (do let t0 := U256.new c (BitVec.ofInt 128 (2)); let t1 ← U256.sub c U256.MAX t0; let t2 := U256.new c (BitVec.ofInt 128 (3)); let t3 := U256.checked_add c t1 t2; pure ((t3).isNone) : Res Bool) = .ok true := by decide +kernel

/- src/uint/api.rs:437 -/
example : ∀ c ∈ cfgs, (do let t0 := U256.new c (BitVec.ofInt 128 (1)); let t1 := I256.new c (BitVec.ofInt 128 (2)); let t2 := U256.checked_add_signed c t0 t1; let t3 := U256.new c (BitVec.ofInt 128 (3)); pure ((match t2 with | some v => (U256.eq c v t3) | none => false)) : Res Bool) = .ok true := by decide +kernel

/- src/uint/api.rs:438 -/
example : ∀ c ∈ cfgs, (do let t0 := U256.new c (BitVec.ofInt 128 (1)); let t1 := I256.new c (BitVec.ofInt 128 (-2)); let t2 := U256.checked_add_signed c t0 t1; pure ((t2).isNone) : Res Bool) = .ok true := by decide +kernel

/- src/uint/api.rs:439 -/
example : ∀ c ∈ cfgs, (do let t0 := U256.new c (BitVec.ofInt 128 (2)); let t1 ← U256.sub c U256.MAX t0; let t2 := I256.new c (BitVec.ofInt 128 (3)); let t3 := U256.checked_add_signed c t1 t2; pure ((t3).isNone) : Res Bool) = .ok true := by decide +kernel

/- src/uint/api.rs:462 -/
example : ∀ c ∈ cfgs, (do let t0 := U256.new c (BitVec.ofInt 128 (1)); let t1 := U256.new c (BitVec.ofInt 128 (1)); let t2 := U256.checked_sub c t0 t1; pure ((match t2 with | some v => (U256.eq c v U256.ZERO) | none => false)) : Res Bool) = .ok true := by decide +kernel

/- src/uint/api.rs:463 -/
example : ∀ c ∈ cfgs, (do let t0 := U256.new c (BitVec.ofInt 128 (0)); let t1 := U256.new c (BitVec.ofInt 128 (1)); let t2 := U256.checked_sub c t0 t1; pure ((t2).isNone) : Res Bool) = .ok true := by decide +kernel

/- src/uint/api.rs:486 -/
example : ∀ c ∈ cfgs, (do let t0 := U256.new c (BitVec.ofInt 128 (5)); let t1 := U256.new c (BitVec.ofInt 128 (1)); let t2 ← U256.checked_mul c t0 t1; let t3 := U256.new c (BitVec.ofInt 128 (5)); pure ((match t2 with | some v => (U256.eq c v t3) | none => false)) : Res Bool) = .ok true := by decide +kernel

/- src/uint/api.rs:487 -/
example : ∀ c ∈ cfgs, (do let t0 := U256.new c (BitVec.ofInt 128 (2)); let t1 ← U256.checked_mul c U256.MAX t0; pure ((t1).isNone) : Res Bool) = .ok true := by decide +kernel

/- src/uint/api.rs:510 -/
example : ∀ c ∈ cfgs, (do let t0 := U256.new c (BitVec.ofInt 128 (128)); let t1 := U256.new c (BitVec.ofInt 128 (2)); let t2 ← U256.checked_div c t0 t1; let t3 := U256.new c (BitVec.ofInt 128 (64)); pure ((match t2 with | some v => (U256.eq c v t3) | none => false)) : Res Bool) = .ok true := by decide +kernel

/- src/uint/api.rs:511 -/
example : ∀ c ∈ cfgs, (do let t0 := U256.new c (BitVec.ofInt 128 (1)); let t1 := U256.new c (BitVec.ofInt 128 (0)); let t2 ← U256.checked_div c t0 t1; pure ((t2).isNone) : Res Bool) = .ok true := by decide +kernel

/- src/uint/api.rs:533 -/
example : ∀ c ∈ cfgs, (do let t0 := U256.new c (BitVec.ofInt 128 (128)); let t1 := U256.new c (BitVec.ofInt 128 (2)); let t2 ← U256.checked_div_euclid c t0 t1; let t3 := U256.new c (BitVec.ofInt 128 (64)); pure ((match t2 with | some v => (U256.eq c v t3) | none => false)) : Res Bool) = .ok true := by decide +kernel

/- src/uint/api.rs:534 -/
example : ∀ c ∈ cfgs, (do let t0 := U256.new c (BitVec.ofInt 128 (1)); let t1 := U256.new c (BitVec.ofInt 128 (0)); let t2 ← U256.checked_div_euclid c t0 t1; pure ((t2).isNone) : Res Bool) = .ok true := by decide +kernel

/- src/uint/api.rs:556 -/
example : ∀ c ∈ cfgs, (do let t0 := U256.new c (BitVec.ofInt 128 (5)); let t1 := U256.new c (BitVec.ofInt 128 (2)); let t2 ← U256.checked_rem c t0 t1; let t3 := U256.new c (BitVec.ofInt 128 (1)); pure ((match t2 with | some v => (U256.eq c v t3) | none => false)) : Res Bool) = .ok true := by decide +kernel

/- src/uint/api.rs:557 -/
example : ∀ c ∈ cfgs, (do let t0 := U256.new c (BitVec.ofInt 128 (5)); let t1 := U256.new c (BitVec.ofInt 128 (0)); let t2 ← U256.checked_rem c t0 t1; pure ((t2).isNone) : Res Bool) = .ok true := by decide +kernel

/- src/uint/api.rs:579 -/
example : ∀ c ∈ cfgs, (do let t0 := U256.new c (BitVec.ofInt 128 (5)); let t1 := U256.new c (BitVec.ofInt 128 (2)); let t2 ← U256.checked_rem_euclid c t0 t1; let t3 := U256.new c (BitVec.ofInt 128 (1)); pure ((match t2 with | some v => (U256.eq c v t3) | none => false)) : Res Bool) = .ok true := by decide +kernel

/- src/uint/api.rs:580 -/
example : ∀ c ∈ cfgs, (do let t0 := U256.new c (BitVec.ofInt 128 (5)); let t1 := U256.new c (BitVec.ofInt 128 (0)); let t2 ← U256.checked_rem_euclid c t0 t1; pure ((t2).isNone) : Res Bool) = .ok true := by decide +kernel

/- src/uint/api.rs:603 -/
example : ∀ c ∈ cfgs, (do let t0 := U256.checked_neg c U256.ZERO; pure ((match t0 with | some v => (U256.eq c v U256.ZERO) | none => false)) : Res Bool) = .ok true := by decide +kernel

/- src/uint/api.rs:604 -/
example : ∀ c ∈ cfgs, (do let t0 := U256.new c (BitVec.ofInt 128 (1)); let t1 := U256.checked_neg c t0; pure ((t1).isNone) : Res Bool) = .ok true := by decide +kernel

/- src/uint/api.rs:625 -/
example : ∀ c ∈ cfgs, (do let t0 := U256.new c (BitVec.ofInt 128 (1)); let t1 ← U256.checked_shl c t0 (BitVec.ofInt 32 (4)); let t2 := U256.new c (BitVec.ofInt 128 (16)); pure ((match t1 with | some v => (U256.eq c v t2) | none => false)) : Res Bool) = .ok true := by decide +kernel

/- src/uint/api.rs:626 -/
example : ∀ c ∈ cfgs, (do let t0 := U256.new c (BitVec.ofInt 128 (16)); let t1 ← U256.checked_shl c t0 (BitVec.ofInt 32 (257)); pure ((t1).isNone) : Res Bool) = .ok true := by decide +kernel

/- src/uint/api.rs:649 -/
example : ∀ c ∈ cfgs, (do let t0 := U256.new c (BitVec.ofInt 128 (16)); let t1 ← U256.checked_shr c t0 (BitVec.ofInt 32 (4)); let t2 := U256.new c (BitVec.ofInt 128 (1)); pure ((match t1 with | some v => (U256.eq c v t2) | none => false)) : Res Bool) = .ok true := by decide +kernel

/- src/uint/api.rs:650 -/
example : ∀ c ∈ cfgs, (do let t0 := U256.new c (BitVec.ofInt 128 (16)); let t1 ← U256.checked_shr c t0 (BitVec.ofInt 32 (257)); pure ((t1).isNone) : Res Bool) = .ok true := by decide +kernel

/- src/uint/api.rs:673 -/
example : ∀ c ∈ cfgs, (do let t0 := U256.new c (BitVec.ofInt 128 (2)); let t1 ← U256.checked_pow c t0 (BitVec.ofInt 32 (5)); let t2 := U256.new c (BitVec.ofInt 128 (32)); pure ((match t1 with | some v => (U256.eq c v t2) | none => false)) : Res Bool) = .ok true := by decide +kernel

/- src/uint/api.rs:674 -/
example : ∀ c ∈ cfgs, (do let t0 ← U256.checked_pow c U256.MAX (BitVec.ofInt 32 (2)); pure ((t0).isNone) : Res Bool) = .ok true := by decide +kernel

/- src/uint/api.rs:710 -/
example : ∀ c ∈ cfgs, (do let t0 := U256.new c (BitVec.ofInt 128 (100)); let t1 := U256.new c (BitVec.ofInt 128 (1)); let t2 := U256.saturating_add c t0 t1; let t3 := U256.new c (BitVec.ofInt 128 (101)); pure ((U256.eq c t2 t3)) : Res Bool) = .ok true := by decide +kernel

/- src/uint/api.rs:711 -/
example : ∀ c ∈ cfgs, (do let t0 := U256.new c (BitVec.ofInt 128 (127)); let t1 := U256.saturating_add c U256.MAX t0; pure ((U256.eq c t1 U256.MAX)) : Res Bool) = .ok true := by decide +kernel

/- src/uint/api.rs:729 -/
example : ∀ c ∈ cfgs, (do let t0 := U256.new c (BitVec.ofInt 128 (1)); let t1 := I256.new c (BitVec.ofInt 128 (2)); let t2 := U256.saturating_add_signed c t0 t1; let t3 := U256.new c (BitVec.ofInt 128 (3)); pure ((U256.eq c t2 t3)) : Res Bool) = .ok true := by decide +kernel

/- src/uint/api.rs:730 -/
example : ∀ c ∈ cfgs, (do let t0 := U256.new c (BitVec.ofInt 128 (1)); let t1 := I256.new c (BitVec.ofInt 128 (-2)); let t2 := U256.saturating_add_signed c t0 t1; let t3 := U256.new c (BitVec.ofInt 128 (0)); pure ((U256.eq c t2 t3)) : Res Bool) = .ok true := by decide +kernel

/- src/uint/api.rs:731 -/
example : ∀ c ∈ cfgs, (do let t0 := U256.new c (BitVec.ofInt 128 (2)); let t1 ← U256.sub c U256.MAX t0; let t2 := I256.new c (BitVec.ofInt 128 (4)); let t3 := U256.saturating_add_signed c t1 t2; pure ((U256.eq c t3 U256.MAX)) : Res Bool) = .ok true := by decide +kernel

/- src/uint/api.rs:756 -/
example : ∀ c ∈ cfgs, (do let t0 := U256.new c (BitVec.ofInt 128 (100)); let t1 := U256.new c (BitVec.ofInt 128 (27)); let t2 := U256.saturating_sub c t0 t1; let t3 := U256.new c (BitVec.ofInt 128 (73)); pure ((U256.eq c t2 t3)) : Res Bool) = .ok true := by decide +kernel

/- src/uint/api.rs:757 -/
example : ∀ c ∈ cfgs, (do let t0 := U256.new c (BitVec.ofInt 128 (13)); let t1 := U256.new c (BitVec.ofInt 128 (127)); let t2 := U256.saturating_sub c t0 t1; let t3 := U256.new c (BitVec.ofInt 128 (0)); pure ((U256.eq c t2 t3)) : Res Bool) = .ok true := by decide +kernel

/- src/uint/api.rs:775 -/
example : ∀ c ∈ cfgs, (do let t0 := U256.new c (BitVec.ofInt 128 (2)); let t1 := U256.new c (BitVec.ofInt 128 (10)); let t2 ← U256.saturating_mul c t0 t1; let t3 := U256.new c (BitVec.ofInt 128 (20)); pure ((U256.eq c t2 t3)) : Res Bool) = .ok true := by decide +kernel

/- src/uint/api.rs:776 -/
example : ∀ c ∈ cfgs, (do let t0 := U256.new c (BitVec.ofInt 128 (10)); let t1 ← U256.saturating_mul c U256.MAX t0; pure ((U256.eq c t1 U256.MAX)) : Res Bool) = .ok true := by decide +kernel

/- src/uint/api.rs:797 -/
example : ∀ c ∈ cfgs, (do let t0 := U256.new c (BitVec.ofInt 128 (5)); let t1 := U256.new c (BitVec.ofInt 128 (2)); let t2 ← U256.saturating_div c t0 t1; let t3 := U256.new c (BitVec.ofInt 128 (2)); pure ((U256.eq c t2 t3)) : Res Bool) = .ok true := by decide +kernel

/- src/uint/api.rs:821 -/
example : ∀ c ∈ cfgs, (do let t0 := U256.new c (BitVec.ofInt 128 (4)); let t1 ← U256.saturating_pow c t0 (BitVec.ofInt 32 (3)); let t2 := U256.new c (BitVec.ofInt 128 (64)); pure ((U256.eq c t1 t2)) : Res Bool) = .ok true := by decide +kernel

/- src/uint/api.rs:822 -/
example : ∀ c ∈ cfgs, (do let t0 ← U256.saturating_pow c U256.MAX (BitVec.ofInt 32 (2)); pure ((U256.eq c t0 U256.MAX)) : Res Bool) = .ok true := by decide +kernel

/- src/uint/api.rs:843 -/
example : ∀ c ∈ cfgs, (do let t0 := U256.new c (BitVec.ofInt 128 (200)); let t1 := U256.new c (BitVec.ofInt 128 (55)); let t2 := U256.wrapping_add c t0 t1; let t3 := U256.new c (BitVec.ofInt 128 (255)); pure ((U256.eq c t2 t3)) : Res Bool) = .ok true := by decide +kernel

/- src/uint/api.rs:844 -/
example : ∀ c ∈ cfgs, (do let t0 := U256.new c (BitVec.ofInt 128 (200)); let t1 := U256.wrapping_add c t0 U256.MAX; let t2 := U256.new c (BitVec.ofInt 128 (199)); pure ((U256.eq c t1 t2)) : Res Bool) = .ok true := by decide +kernel

/- src/uint/api.rs:864 -/
example : ∀ c ∈ cfgs, (do let t0 := U256.new c (BitVec.ofInt 128 (1)); let t1 := I256.new c (BitVec.ofInt 128 (2)); let t2 := U256.wrapping_add_signed c t0 t1; let t3 := U256.new c (BitVec.ofInt 128 (3)); pure ((U256.eq c t2 t3)) : Res Bool) = .ok true := by decide +kernel

/- src/uint/api.rs:865 -/
example : ∀ c ∈ cfgs, (do let t0 := U256.new c (BitVec.ofInt 128 (1)); let t1 := I256.new c (BitVec.ofInt 128 (-2)); let t2 := U256.wrapping_add_signed c t0 t1; pure ((U256.eq c t2 U256.MAX)) : Res Bool) = .ok true := by decide +kernel

/- src/uint/api.rs:866 -/
example : ∀ c ∈ cfgs, (do let t0 := U256.new c (BitVec.ofInt 128 (2)); let t1 ← U256.sub c U256.MAX t0; let t2 := I256.new c (BitVec.ofInt 128 (4)); let t3 := U256.wrapping_add_signed c t1 t2; let t4 := U256.new c (BitVec.ofInt 128 (1)); pure ((U256.eq c t3 t4)) : Res Bool) = .ok true := by decide +kernel

/- src/uint/api.rs:884 -/
example : ∀ c ∈ cfgs, (do let t0 := U256.new c (BitVec.ofInt 128 (100)); let t1 := U256.new c (BitVec.ofInt 128 (100)); let t2 := U256.wrapping_sub c t0 t1; let t3 := U256.new c (BitVec.ofInt 128 (0)); pure ((U256.eq c t2 t3)) : Res Bool) = .ok true := by decide +kernel

/- src/uint/api.rs:885 -/
example : ∀ c ∈ cfgs, (do let t0 := U256.new c (BitVec.ofInt 128 (100)); let t1 := U256.wrapping_sub c t0 U256.MAX; let t2 := U256.new c (BitVec.ofInt 128 (101)); pure ((U256.eq c t1 t2)) : Res Bool) = .ok true := by decide +kernel

/- src/uint/api.rs:908 -/
example : ∀ c ∈ cfgs, (do let t0 := U256.new c (BitVec.ofInt 128 (10)); let t1 := U256.new c (BitVec.ofInt 128 (12)); let t2 ← U256.wrapping_mul c t0 t1; let t3 := U256.new c (BitVec.ofInt 128 (120)); pure ((U256.eq c t2 t3)) : Res Bool) = .ok true := by decide +kernel

/- src/uint/api.rs:909 -/
example : ∀ c ∈ cfgs, (do let t0 := U256.new c (BitVec.ofInt 128 (2)); let t1 ← U256.wrapping_mul c U256.MAX t0; let t2 := U256.new c (BitVec.ofInt 128 (1)); let t3 ← U256.sub c U256.MAX t2; pure ((U256.eq c t1 t3)) : Res Bool) = .ok true := by decide +kernel

/- src/uint/api.rs:931 -/
example : ∀ c ∈ cfgs, (do let t0 := U256.new c (BitVec.ofInt 128 (100)); let t1 := U256.new c (BitVec.ofInt 128 (10)); let t2 ← U256.wrapping_div c t0 t1; let t3 := U256.new c (BitVec.ofInt 128 (10)); pure ((U256.eq c t2 t3)) : Res Bool) = .ok true := by decide +kernel

/- src/uint/api.rs:953 -/
example : ∀ c ∈ cfgs, (do let t0 := U256.new c (BitVec.ofInt 128 (100)); let t1 := U256.new c (BitVec.ofInt 128 (10)); let t2 ← U256.wrapping_div_euclid c t0 t1; let t3 := U256.new c (BitVec.ofInt 128 (10)); pure ((U256.eq c t2 t3)) : Res Bool) = .ok true := by decide +kernel

/- src/uint/api.rs:973 -/
example : ∀ c ∈ cfgs, (do let t0 := U256.new c (BitVec.ofInt 128 (100)); let t1 := U256.new c (BitVec.ofInt 128 (10)); let t2 ← U256.wrapping_rem c t0 t1; let t3 := U256.new c (BitVec.ofInt 128 (0)); pure ((U256.eq c t2 t3)) : Res Bool) = .ok true := by decide +kernel

/- src/uint/api.rs:995 -/
example : ∀ c ∈ cfgs, (do let t0 := U256.new c (BitVec.ofInt 128 (100)); let t1 := U256.new c (BitVec.ofInt 128 (10)); let t2 ← U256.wrapping_rem_euclid c t0 t1; let t3 := U256.new c (BitVec.ofInt 128 (0)); pure ((U256.eq c t2 t3)) : Res Bool) = .ok true := by decide +kernel

/- src/uint/api.rs:1023 -/
example : ∀ c ∈ cfgs, (do let t0 := U256.new c (BitVec.ofInt 128 (100)); let t1 := U256.wrapping_neg c t0; let t2 := U256.of_prim_as c .i128 (BitVec.ofInt 128 (-100)); pure ((U256.eq c t1 t2)) : Res Bool) = .ok true := by decide +kernel

/- src/uint/api.rs:1052 -/
example : ∀ c ∈ cfgs, (do let t0 := U256.new c (BitVec.ofInt 128 (1)); let t1 ← U256.wrapping_shl c t0 (BitVec.ofInt 32 (7)); let t2 := U256.new c (BitVec.ofInt 128 (128)); pure ((U256.eq c t1 t2)) : Res Bool) = .ok true := by decide +kernel

/- src/uint/api.rs:1053 -/
example : ∀ c ∈ cfgs, (do let t0 := U256.new c (BitVec.ofInt 128 (1)); let t1 ← U256.wrapping_shl c t0 (BitVec.ofInt 32 (128)); let t2 := U256.from_words c (BitVec.ofInt 128 (1)) (BitVec.ofInt 128 (0)); pure ((U256.eq c t1 t2)) : Res Bool) = .ok true := by decide +kernel

/- src/uint/api.rs:1054 -/
example : ∀ c ∈ cfgs, (do let t0 := U256.new c (BitVec.ofInt 128 (1)); let t1 ← U256.wrapping_shl c t0 (BitVec.ofInt 32 (256)); let t2 := U256.new c (BitVec.ofInt 128 (1)); pure ((U256.eq c t1 t2)) : Res Bool) = .ok true := by decide +kernel

/- src/uint/api.rs:1081 -/
example : ∀ c ∈ cfgs, (do let t0 := U256.new c (BitVec.ofInt 128 (128)); let t1 ← U256.wrapping_shr c t0 (BitVec.ofInt 32 (7)); let t2 := U256.new c (BitVec.ofInt 128 (1)); pure ((U256.eq c t1 t2)) : Res Bool) = .ok true := by decide +kernel

/- src/uint/api.rs:1082 -/
example : ∀ c ∈ cfgs, (do let t0 := U256.from_words c (BitVec.ofInt 128 (128)) (BitVec.ofInt 128 (0)); let t1 ← U256.wrapping_shr c t0 (BitVec.ofInt 32 (128)); let t2 := U256.new c (BitVec.ofInt 128 (128)); pure ((U256.eq c t1 t2)) : Res Bool) = .ok true := by decide +kernel

/- src/uint/api.rs:1083 -/
example : ∀ c ∈ cfgs, (do let t0 := U256.new c (BitVec.ofInt 128 (128)); let t1 ← U256.wrapping_shr c t0 (BitVec.ofInt 32 (256)); let t2 := U256.new c (BitVec.ofInt 128 (128)); pure ((U256.eq c t1 t2)) : Res Bool) = .ok true := by decide +kernel

/- src/uint/api.rs:1103 -/
example : ∀ c ∈ cfgs, (do let t0 := U256.new c (BitVec.ofInt 128 (3)); let t1 ← U256.wrapping_pow c t0 (BitVec.ofInt 32 (5)); let t2 := U256.new c (BitVec.ofInt 128 (243)); pure ((U256.eq c t1 t2)) : Res Bool) = .ok true := by decide +kernel

/- src/uint/api.rs:1104 -/
example : ∀ c ∈ cfgs, (do let t0 := U256.new c (BitVec.ofInt 128 (1337)); let t1 ← U256.wrapping_pow c t0 (BitVec.ofInt 32 (42)); let t2 := U256.from_words c (BitVec.ofInt 128 (45367329835866155830012179193722278514)) (BitVec.ofInt 128 (159264946433345088039815329994094210673)); pure ((U256.eq c t1 t2)) : Res Bool) = .ok true := by decide +kernel

/- src/uint/api.rs:1149 -/
example : ∀ c ∈ cfgs, (do let t0 := U256.new c (BitVec.ofInt 128 (5)); let t1 := U256.new c (BitVec.ofInt 128 (2)); let t2 := U256.overflowing_add c t0 t1; let t3 := U256.new c (BitVec.ofInt 128 (7)); pure (((U256.eq c (t2).1 t3) && decide ((t2).2 = false))) : Res Bool) = .ok true := by decide +kernel

/- src/uint/api.rs:1150 -/
example : ∀ c ∈ cfgs, (do let t0 := U256.new c (BitVec.ofInt 128 (1)); let t1 := U256.overflowing_add c U256.MAX t0; let t2 := U256.new c (BitVec.ofInt 128 (0)); pure (((U256.eq c (t1).1 t2) && decide ((t1).2 = true))) : Res Bool) = .ok true := by decide +kernel

/- src/uint/api.rs:1173 -/
example : ∀ c ∈ cfgs, (do let t0 := U256.new c (BitVec.ofInt 128 (1)); let t1 := I256.new c (BitVec.ofInt 128 (2)); let t2 := U256.overflowing_add_signed c t0 t1; let t3 := U256.new c (BitVec.ofInt 128 (3)); pure (((U256.eq c (t2).1 t3) && decide ((t2).2 = false))) : Res Bool) = .ok true := by decide +kernel

/- src/uint/api.rs:1174 -/
example : ∀ c ∈ cfgs, (do let t0 := U256.new c (BitVec.ofInt 128 (1)); let t1 := I256.new c (BitVec.ofInt 128 (-2)); let t2 := U256.overflowing_add_signed c t0 t1; pure (((U256.eq c (t2).1 U256.MAX) && decide ((t2).2 = true))) : Res Bool) = .ok true := by decide +kernel

/- src/uint/api.rs:1175 -/
example : ∀ c ∈ cfgs, (do let t0 := U256.new c (BitVec.ofInt 128 (2)); let t1 ← U256.sub c U256.MAX t0; let t2 := I256.new c (BitVec.ofInt 128 (4)); let t3 := U256.overflowing_add_signed c t1 t2; let t4 := U256.new c (BitVec.ofInt 128 (1)); pure (((U256.eq c (t3).1 t4) && decide ((t3).2 = true))) : Res Bool) = .ok true := by decide +kernel

/- src/uint/api.rs:1197 -/
example : ∀ c ∈ cfgs, (do let t0 := U256.new c (BitVec.ofInt 128 (5)); let t1 := U256.new c (BitVec.ofInt 128 (2)); let t2 := U256.overflowing_sub c t0 t1; let t3 := U256.new c (BitVec.ofInt 128 (3)); pure (((U256.eq c (t2).1 t3) && decide ((t2).2 = false))) : Res Bool) = .ok true := by decide +kernel

/- src/uint/api.rs:1198 -/
example : ∀ c ∈ cfgs, (do let t0 := U256.new c (BitVec.ofInt 128 (0)); let t1 := U256.new c (BitVec.ofInt 128 (1)); let t2 := U256.overflowing_sub c t0 t1; pure (((U256.eq c (t2).1 U256.MAX) && decide ((t2).2 = true))) : Res Bool) = .ok true := by decide +kernel

/- src/uint/api.rs:1217 -/
example : ∀ c ∈ cfgs, (do let t0 := U256.new c (BitVec.ofInt 128 (100)); let t1 := U256.new c (BitVec.ofInt 128 (80)); let t2 ← U256.abs_diff c t0 t1; pure ((U256.eq_prim c t2 (BitVec.ofInt 128 (20)))) : Res Bool) = .ok true := by decide +kernel

/- src/uint/api.rs:1218 -/
example : ∀ c ∈ cfgs, (do let t0 := U256.new c (BitVec.ofInt 128 (100)); let t1 := U256.new c (BitVec.ofInt 128 (110)); let t2 ← U256.abs_diff c t0 t1; pure ((U256.eq_prim c t2 (BitVec.ofInt 128 (10)))) : Res Bool) = .ok true := by decide +kernel

/- src/uint/api.rs:1246 -/
example : ∀ c ∈ cfgs, (do let t0 := U256.new c (BitVec.ofInt 128 (5)); let t1 := U256.new c (BitVec.ofInt 128 (2)); let t2 ← U256.overflowing_mul c t0 t1; let t3 := U256.new c (BitVec.ofInt 128 (10)); pure (((U256.eq c (t2).1 t3) && decide ((t2).2 = false))) : Res Bool) = .ok true := by decide +kernel

/- src/uint/api.rs:1247 -/
example : ∀ c ∈ cfgs, (do let t0 := U256.new c (BitVec.ofInt 128 (2)); let t1 ← U256.overflowing_mul c U256.MAX t0; let t2 := U256.new c (BitVec.ofInt 128 (1)); let t3 ← U256.sub c U256.MAX t2; pure (((U256.eq c (t1).1 t3) && decide ((t1).2 = true))) : Res Bool) = .ok true := by decide +kernel

/- src/uint/api.rs:1277 -/
example : ∀ c ∈ cfgs, (do let t0 := U256.new c (BitVec.ofInt 128 (5)); let t1 := U256.new c (BitVec.ofInt 128 (2)); let t2 ← U256.overflowing_div c t0 t1; let t3 := U256.new c (BitVec.ofInt 128 (2)); pure (((U256.eq c (t2).1 t3) && decide ((t2).2 = false))) : Res Bool) = .ok true := by decide +kernel

/- src/uint/api.rs:1304 -/
example : ∀ c ∈ cfgs, (do let t0 := U256.new c (BitVec.ofInt 128 (5)); let t1 := U256.new c (BitVec.ofInt 128 (2)); let t2 ← U256.overflowing_div_euclid c t0 t1; let t3 := U256.new c (BitVec.ofInt 128 (2)); pure (((U256.eq c (t2).1 t3) && decide ((t2).2 = false))) : Res Bool) = .ok true := by decide +kernel

/- src/uint/api.rs:1330 -/
example : ∀ c ∈ cfgs, (do let t0 := U256.new c (BitVec.ofInt 128 (5)); let t1 := U256.new c (BitVec.ofInt 128 (2)); let t2 ← U256.overflowing_rem c t0 t1; let t3 := U256.new c (BitVec.ofInt 128 (1)); pure (((U256.eq c (t2).1 t3) && decide ((t2).2 = false))) : Res Bool) = .ok true := by decide +kernel

/- src/uint/api.rs:1359 -/
example : ∀ c ∈ cfgs, (do let t0 := U256.new c (BitVec.ofInt 128 (5)); let t1 := U256.new c (BitVec.ofInt 128 (2)); let t2 ← U256.overflowing_rem_euclid c t0 t1; let t3 := U256.new c (BitVec.ofInt 128 (1)); pure (((U256.eq c (t2).1 t3) && decide ((t2).2 = false))) : Res Bool) = .ok true := by decide +kernel

/- src/uint/api.rs:1381 -/
example : ∀ c ∈ cfgs, (do let t0 := U256.new c (BitVec.ofInt 128 (0)); let t1 := U256.overflowing_neg c t0; let t2 := U256.new c (BitVec.ofInt 128 (0)); pure (((U256.eq c (t1).1 t2) && decide ((t1).2 = false))) : Res Bool) = .ok true := by decide +kernel

/- src/uint/api.rs:1382 -/
example : ∀ c ∈ cfgs, (do let t0 := U256.new c (BitVec.ofInt 128 (2)); let t1 := U256.overflowing_neg c t0; let t2 := U256.of_prim_as c .i32 (BitVec.ofInt 32 (-2)); pure (((U256.eq c (t1).1 t2) && decide ((t1).2 = true))) : Res Bool) = .ok true := by decide +kernel

/- src/uint/api.rs:1403 -/
example : ∀ c ∈ cfgs, (do let t0 := U256.new c (BitVec.ofInt 128 (1)); let t1 ← U256.overflowing_shl c t0 (BitVec.ofInt 32 (4)); let t2 := U256.new c (BitVec.ofInt 128 (16)); pure (((U256.eq c (t1).1 t2) && decide ((t1).2 = false))) : Res Bool) = .ok true := by decide +kernel

/- src/uint/api.rs:1404 -/
example : ∀ c ∈ cfgs, (do let t0 := U256.new c (BitVec.ofInt 128 (1)); let t1 ← U256.overflowing_shl c t0 (BitVec.ofInt 32 (260)); let t2 := U256.new c (BitVec.ofInt 128 (16)); pure (((U256.eq c (t1).1 t2) && decide ((t1).2 = true))) : Res Bool) = .ok true := by decide +kernel

/- src/uint/api.rs:1427 -/
example : ∀ c ∈ cfgs, (do let t0 := U256.new c (BitVec.ofInt 128 (16)); let t1 ← U256.overflowing_shr c t0 (BitVec.ofInt 32 (4)); let t2 := U256.new c (BitVec.ofInt 128 (1)); pure (((U256.eq c (t1).1 t2) && decide ((t1).2 = false))) : Res Bool) = .ok true := by decide +kernel

/- src/uint/api.rs:1428 -/
example : ∀ c ∈ cfgs, (do let t0 := U256.new c (BitVec.ofInt 128 (16)); let t1 ← U256.overflowing_shr c t0 (BitVec.ofInt 32 (260)); let t2 := U256.new c (BitVec.ofInt 128 (1)); pure (((U256.eq c (t1).1 t2) && decide ((t1).2 = true))) : Res Bool) = .ok true := by decide +kernel

/- src/uint/api.rs:1448 -/
example : ∀ c ∈ cfgs, (do let t0 := U256.new c (BitVec.ofInt 128 (3)); let t1 ← U256.overflowing_pow c t0 (BitVec.ofInt 32 (5)); let t2 := U256.new c (BitVec.ofInt 128 (243)); pure (((U256.eq c (t1).1 t2) && decide ((t1).2 = false))) : Res Bool) = .ok true := by decide +kernel

/- src/uint/api.rs:1449 -/
example : ∀ c ∈ cfgs, (do let t0 := U256.new c (BitVec.ofInt 128 (1337)); let t1 ← U256.overflowing_pow c t0 (BitVec.ofInt 32 (42)); let t2 := U256.from_words c (BitVec.ofInt 128 (45367329835866155830012179193722278514)) (BitVec.ofInt 128 (159264946433345088039815329994094210673)); pure (((U256.eq c (t1).1 t2) && decide ((t1).2 = true))) : Res Bool) = .ok true := by decide +kernel

/- src/uint/api.rs:1502 -/
example : ∀ c ∈ cfgs, (do let t0 := U256.new c (BitVec.ofInt 128 (2)); let t1 ← U256.pow c t0 (BitVec.ofInt 32 (5)); let t2 := U256.new c (BitVec.ofInt 128 (32)); pure ((U256.eq c t1 t2)) : Res Bool) = .ok true := by decide +kernel

/- src/uint/api.rs:1544 -/
example : ∀ c ∈ cfgs, (do let t0 := U256.new c (BitVec.ofInt 128 (7)); let t1 := U256.new c (BitVec.ofInt 128 (4)); let t2 ← U256.div_euclid c t0 t1; let t3 := U256.new c (BitVec.ofInt 128 (1)); pure ((U256.eq c t2 t3)) : Res Bool) = .ok true := by decide +kernel

/- src/uint/api.rs:1568 -/
example : ∀ c ∈ cfgs, (do let t0 := U256.new c (BitVec.ofInt 128 (7)); let t1 := U256.new c (BitVec.ofInt 128 (4)); let t2 ← U256.rem_euclid c t0 t1; let t3 := U256.new c (BitVec.ofInt 128 (3)); pure ((U256.eq c t2 t3)) : Res Bool) = .ok true := by decide +kernel

/- src/uint/api.rs:1585 -/
example : ∀ c ∈ cfgs, (do let t0 := U256.new c (BitVec.ofInt 128 (16)); let t1 ← U256.is_power_of_two c t0; pure (t1) : Res Bool) = .ok true := by decide +kernel

/- src/uint/api.rs:1586 -/
example : ∀ c ∈ cfgs, (do let t0 := U256.new c (BitVec.ofInt 128 (10)); let t1 ← U256.is_power_of_two c t0; pure ((!t1)) : Res Bool) = .ok true := by decide +kernel

/- src/uint/api.rs:1625 -/
example : ∀ c ∈ cfgs, (do let t0 := U256.new c (BitVec.ofInt 128 (2)); let t1 ← U256.next_power_of_two c t0; let t2 := U256.new c (BitVec.ofInt 128 (2)); pure ((U256.eq c t1 t2)) : Res Bool) = .ok true := by decide +kernel

/- src/uint/api.rs:1626 -/
example : ∀ c ∈ cfgs, (do let t0 := U256.new c (BitVec.ofInt 128 (3)); let t1 ← U256.next_power_of_two c t0; let t2 := U256.new c (BitVec.ofInt 128 (4)); pure ((U256.eq c t1 t2)) : Res Bool) = .ok true := by decide +kernel

/- src/uint/api.rs:1643 -/
example : ∀ c ∈ cfgs, (do let t0 := U256.new c (BitVec.ofInt 128 (2)); let t1 ← U256.checked_next_power_of_two c t0; let t2 := U256.new c (BitVec.ofInt 128 (2)); pure ((match t1 with | some v => (U256.eq c v t2) | none => false)) : Res Bool) = .ok true := by decide +kernel

/- src/uint/api.rs:1644 -/
example : ∀ c ∈ cfgs, (do let t0 := U256.new c (BitVec.ofInt 128 (3)); let t1 ← U256.checked_next_power_of_two c t0; let t2 := U256.new c (BitVec.ofInt 128 (4)); pure ((match t1 with | some v => (U256.eq c v t2) | none => false)) : Res Bool) = .ok true := by decide +kernel

/- src/uint/api.rs:1645 -/
example : ∀ c ∈ cfgs, (do let t0 ← U256.checked_next_power_of_two c U256.MAX; pure ((t0).isNone) : Res Bool) = .ok true := by decide +kernel

/- src/uint/api.rs:1664 -/
example : ∀ c ∈ cfgs, (do let t0 := U256.from_words c (BitVec.ofInt 128 (5233100606242806050955395731361295)) (BitVec.ofInt 128 (21356283574076891493948969979685445151)); let t1 := U256.to_be_bytes c t0; pure (decide (t1 = [0, 1, 2, 3, 4, 5, 6, 7, 8, 9, 10, 11, 12, 13, 14, 15, 16, 17, 18, 19, 20, 21, 22, 23, 24, 25, 26, 27, 28, 29, 30, 31])) : Res Bool) = .ok true := by decide +kernel

/- src/uint/api.rs:1688 -/
example : ∀ c ∈ cfgs, (do let t0 := U256.from_words c (BitVec.ofInt 128 (5233100606242806050955395731361295)) (BitVec.ofInt 128 (21356283574076891493948969979685445151)); let t1 := U256.to_le_bytes c t0; pure (decide (t1 = [31, 30, 29, 28, 27, 26, 25, 24, 23, 22, 21, 20, 19, 18, 17, 16, 15, 14, 13, 12, 11, 10, 9, 8, 7, 6, 5, 4, 3, 2, 1, 0])) : Res Bool) = .ok true := by decide +kernel

/- src/uint/api.rs:1749 -/
example : ∀ c ∈ cfgs, (do let t0 := U256.from_be_bytes c [0, 1, 2, 3, 4, 5, 6, 7, 8, 9, 10, 11, 12, 13, 14, 15, 16, 17, 18, 19, 20, 21, 22, 23, 24, 25, 26, 27, 28, 29, 30, 31]; let t1 := U256.from_words c (BitVec.ofInt 128 (5233100606242806050955395731361295)) (BitVec.ofInt 128 (21356283574076891493948969979685445151)); pure ((U256.eq c t0 t1)) : Res Bool) = .ok true := by decide +kernel

/- src/uint/api.rs:1787 -/
example : ∀ c ∈ cfgs, (do let t0 := U256.from_le_bytes c [31, 30, 29, 28, 27, 26, 25, 24, 23, 22, 21, 20, 19, 18, 17, 16, 15, 14, 13, 12, 11, 10, 9, 8, 7, 6, 5, 4, 3, 2, 1, 0]; let t1 := U256.from_words c (BitVec.ofInt 128 (5233100606242806050955395731361295)) (BitVec.ofInt 128 (21356283574076891493948969979685445151)); pure ((U256.eq c t0 t1)) : Res Bool) = .ok true := by decide +kernel

/- src/uint/cmp.rs:9 -/
example : ∀ c ∈ cfgs, (do let t0 := U256.new c (BitVec.ofInt 128 (42)); pure ((U256.eq_prim c t0 (BitVec.ofInt 128 (42)))) : Res Bool) = .ok true := by decide +kernel

/- src/uint/convert.rs:64 -/
example : ∀ c ∈ cfgs, (do let t0 := U256.of_prim_as c .i32 (BitVec.ofInt 32 (-1)); pure ((U256.eq c t0 U256.MAX)) : Res Bool) = .ok true := by decide +kernel

/- src/uint/convert.rs:65 -/
example : ∀ c ∈ cfgs, (do let t0 := U256.of_prim_as c .u32 (BitVec.ofInt 32 (4294967295)); pure ((U256.eq_prim c t0 (BitVec.ofInt 128 (4294967295)))) : Res Bool) = .ok true := by decide +kernel

/- src/uint/fmt.rs:16 -/
example : ∀ c ∈ cfgs, (do let t0 ← U256.debug c U256.MAX ⟨0, none, ' ', none⟩; pure (decide (t0 = "115792089237316195423570985008687907853269984665640564039457584007913129639935".toList)) : Res Bool) = .ok true := by decide +kernel

/- src/uint/fmt.rs:20 -/
example : ∀ c ∈ cfgs, (do let t0 ← U256.debug c U256.MAX ⟨16, none, ' ', none⟩; pure (decide (t0 = "ffffffffffffffffffffffffffffffffffffffffffffffffffffffffffffffff".toList)) : Res Bool) = .ok true := by decide +kernel

/- src/uint/fmt.rs:24 -/
example : ∀ c ∈ cfgs, (do let t0 ← U256.debug c U256.MAX ⟨36, none, ' ', none⟩; pure (decide (t0 = "0xFFFFFFFFFFFFFFFFFFFFFFFFFFFFFFFFFFFFFFFFFFFFFFFFFFFFFFFFFFFFFFFF".toList)) : Res Bool) = .ok true := by decide +kernel

/- src/uint/fmt.rs:32 -/
example : ∀ c ∈ cfgs, (do let t0 ← U256.display c U256.MAX ⟨0, none, ' ', none⟩; pure (decide (t0 = "115792089237316195423570985008687907853269984665640564039457584007913129639935".toList)) : Res Bool) = .ok true := by decide +kernel

/- src/uint/fmt.rs:40 -/
example : ∀ c ∈ cfgs, (do let t0 := U256.new c (BitVec.ofInt 128 (42)); let t1 ← U256.fmtRadix c .binary t0 ⟨0, none, ' ', none⟩; pure (decide (t1 = "101010".toList)) : Res Bool) = .ok true := by decide +kernel

/- src/uint/fmt.rs:41 -/
example : ∀ c ∈ cfgs, (do let t0 := U256.new c (BitVec.ofInt 128 (42)); let t1 ← U256.fmtRadix c .octal t0 ⟨0, none, ' ', none⟩; pure (decide (t1 = "52".toList)) : Res Bool) = .ok true := by decide +kernel

/- src/uint/fmt.rs:42 -/
example : ∀ c ∈ cfgs, (do let t0 := U256.new c (BitVec.ofInt 128 (42)); let t1 ← U256.fmtRadix c .lowerHex t0 ⟨0, none, ' ', none⟩; pure (decide (t1 = "2a".toList)) : Res Bool) = .ok true := by decide +kernel

/- src/uint/parse.rs:25 -/
example : ∀ c ∈ cfgs, (do let t0 ← U256.from_str c (str "42"); let t1 ← unwrap t0; pure ((U256.eq_prim c t1 (BitVec.ofInt 128 (42)))) : Res Bool) = .ok true := by decide +kernel

end Ethnum.DocTests
