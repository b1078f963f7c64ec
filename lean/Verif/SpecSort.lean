/-
Specification: dictionary order, the order in which databases, sorted files and the standard library's slices and
strings compare byte strings and text. It uses nothing of the model.
-/

namespace Ethnum

/-- Dictionary order: the first place where two lists differ decides, and a list comes before its continuations. -/
def lex : List Nat → List Nat → Ordering
  | [], [] => .eq
  | [], _ :: _ => .lt
  | _ :: _, [] => .gt
  | a :: l, b :: m => if a < b then .lt else if b < a then .gt else lex l m

/-- The shorter list first, and dictionary order among lists of one length. -/
def shortlex (l m : List Nat) : Ordering :=
  if l.length < m.length then .lt else if m.length < l.length then .gt else lex l m

/-- The numbers that bytes are compared by. -/
def byteCodes (l : List (BitVec 8)) : List Nat := l.map (·.toNat)

/-- The numbers that characters are compared by. -/
def charCodes (l : List Char) : List Nat := l.map (·.toNat)

/-- The byte string with the top bit of its first byte inverted. -/
def flipTop : List (BitVec 8) → List (BitVec 8)
  | [] => []
  | b :: l => (b ^^^ 0x80) :: l

end Ethnum
