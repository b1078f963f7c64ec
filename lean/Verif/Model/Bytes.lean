import Verif.Model.UintApi
import Verif.Model.IntApi

/-
Conversion to and from arrays of 32 bytes: src/uint/api.rs 1670-1864, src/int/api.rs 2068-2260.

`mem::transmute` between `[u128; 2]` and `[u8; 32]` is modelled on the memory layout: first the bytes of word 0,
then those of word 1, each in the byte order of the target. Byte arrays are lists; the type `[u8; 32]` appears as a
length hypothesis in the theorems.
-/

namespace Ethnum
namespace U256

/-- src/uint/api.rs 1734-1736 -/
def to_ne_bytes (c : Cfg) (x : U256) : List U8 := neBytes128 c x.w0 ++ neBytes128 c x.w1
/-- src/uint/api.rs 1673-1675 -/
def to_be_bytes (c : Cfg) (x : U256) : List U8 := (x.to_be c).to_ne_bytes c
/-- src/uint/api.rs 1697-1699 -/
def to_le_bytes (c : Cfg) (x : U256) : List U8 := (x.to_le c).to_ne_bytes c
/-- src/uint/api.rs 1862-1864 -/
def from_ne_bytes (c : Cfg) (l : List U8) : U256 := ⟨ofNeBytes128 c (l.take 16), ofNeBytes128 c (l.drop 16)⟩
/-- src/uint/api.rs 1772-1774 -/
def from_be_bytes (c : Cfg) (l : List U8) : U256 := (from_ne_bytes c l).from_be c
/-- src/uint/api.rs 1810-1812 -/
def from_le_bytes (c : Cfg) (l : List U8) : U256 := (from_ne_bytes c l).from_le c

end U256
namespace I256

/-- src/int/api.rs 2133-2137 -/
def to_ne_bytes (c : Cfg) (x : I256) : List U8 := neBytes128 c x.w0 ++ neBytes128 c x.w1
/-- src/int/api.rs 2071-2073 -/
def to_be_bytes (c : Cfg) (x : I256) : List U8 := (x.to_be c).to_ne_bytes c
/-- src/int/api.rs 2095-2097 -/
def to_le_bytes (c : Cfg) (x : I256) : List U8 := (x.to_le c).to_ne_bytes c
/-- src/int/api.rs 2257-2260 -/
def from_ne_bytes (c : Cfg) (l : List U8) : I256 := ⟨ofNeBytes128 c (l.take 16), ofNeBytes128 c (l.drop 16)⟩
/-- src/int/api.rs 2171-2173 -/
def from_be_bytes (c : Cfg) (l : List U8) : I256 := (from_ne_bytes c l).from_be c
/-- src/int/api.rs 2207-2209 -/
def from_le_bytes (c : Cfg) (l : List U8) : I256 := (from_ne_bytes c l).from_le c

end I256
end Ethnum
