import Verif.Model.Words

/-
What `core` builds from the ordering of the types, and the derived `Default`: src/uint.rs 16, src/int.rs 16,
src/uint/cmp.rs 16-20, src/int/cmp.rs 17-21, src/macros/cmp.rs 42-47. The crate overrides none of `Ord::max`,
`Ord::min` and `Ord::clamp`.
-/

namespace Ethnum

/-- `Ord::max` of `core`: the second argument when they are equal. -/
def ordMax {T : Type} (lt : T → T → Bool) (a b : T) : T := if lt b a then a else b
/-- `Ord::min` of `core`: the first argument when they are equal. -/
def ordMin {T : Type} (lt : T → T → Bool) (a b : T) : T := if lt b a then b else a
/-- `Ord::clamp` of `core`: `assert!(min <= max)` first. -/
def ordClamp {T : Type} (lt le gt : T → T → Bool) (x lo hi : T) : Res T :=
  if !le lo hi then throwPanic .explicit
  else if lt x lo then .ok lo
  else if gt x hi then .ok hi
  else .ok x

namespace U256

/-- `Ord::max` for `U256` (src/uint/cmp.rs 16-20) -/
def max (c : Cfg) (a b : U256) : U256 := ordMax (lt c) a b
/-- `Ord::min` for `U256` (src/uint/cmp.rs 16-20) -/
def min (c : Cfg) (a b : U256) : U256 := ordMin (lt c) a b
/-- `Ord::clamp` for `U256` (src/uint/cmp.rs 16-20) -/
def clamp (c : Cfg) (x lo hi : U256) : Res U256 := ordClamp (lt c) (le c) (gt c) x lo hi
/-- The derived `Default` (src/uint.rs 16): that of `[u128; 2]`. -/
def default : U256 := ⟨0, 0⟩

end U256
namespace I256

/-- `Ord::max` for `I256` (src/int/cmp.rs 17-21) -/
def max (c : Cfg) (a b : I256) : I256 := ordMax (lt c) a b
/-- `Ord::min` for `I256` (src/int/cmp.rs 17-21) -/
def min (c : Cfg) (a b : I256) : I256 := ordMin (lt c) a b
/-- `Ord::clamp` for `I256` (src/int/cmp.rs 17-21) -/
def clamp (c : Cfg) (x lo hi : I256) : Res I256 := ordClamp (lt c) (le c) (gt c) x lo hi
/-- The derived `Default` (src/int.rs 16): that of `[i128; 2]`. -/
def default : I256 := ⟨0, 0⟩

end I256
end Ethnum
