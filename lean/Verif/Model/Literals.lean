import Verif.Model.Parse

/-
The literal macros: src/lib.rs. A macro call declares a constant, so the parser runs in the compiler: a panic there is a
compile error, which is `none` here.
-/

namespace Ethnum

/-- The value of a constant, if the program compiles. -/
def constant {α : Type} : Res α → Option α
  | .ok x => some x
  | .error _ => none

/-- `uint!` (src/lib.rs 109-115) -/
def uintLiteral (c : Cfg) (s : List U8) : Option U256 := constant (U256.const_from_str_prefixed c s)

/-- `int!` (src/lib.rs 67-73) -/
def intLiteral (c : Cfg) (s : List U8) : Option I256 := constant (I256.const_from_str_prefixed c s)

end Ethnum
