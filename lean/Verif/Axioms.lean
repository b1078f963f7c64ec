import Lean.Util.CollectAxioms
import Verif.Props.Repr
import Verif.Props.UArith
import Verif.Props.IArith
import Verif.Props.Convert
import Verif.Props.Operators
import Verif.Props.Pow
import Verif.Props.Bits
import Verif.Props.Bytes
import Verif.Props.Fmt
import Verif.Props.Parse
import Verif.Props.ConstParse
import Verif.Props.RoundTrip
import Verif.Props.Float
import Verif.Props.FloatFrom
import Verif.Props.Serde
import Verif.Props.SerdeBytes
import Verif.Props.SerdeCompressed
import Verif.Props.SerdePermissive
import Verif.Props.Llvm
import Verif.Props.Backend
import Verif.Props.Endian
import Verif.Props.Safety
import Verif.Props.FloatFmt
import Verif.Props.Panics
import Verif.Props.Error
import Verif.Props.Forms
import Verif.Props.Programs
import Verif.Props.Laws
import Verif.Props.FloatNearest
import Verif.Props.Mem
import Verif.Props.Fuzz
import Verif.Props.SerdeDoc
import Verif.Props.Order
import Verif.Props.Lang
import Verif.Props.Ir
import Verif.Props.Iter
import Verif.Props.Limbs
import Verif.Props.BitVector
import Verif.Props.Evm
import Verif.Props.MulDiv
import Verif.Props.Literals
import Verif.Props.Maps
import Verif.Props.Borrows
import Verif.Props.Alias
import Verif.Props.Sort
import Verif.Props.Writer
import Verif.Props.Threads
import Verif.Props.Exp
import Verif.Props.FloatBack
import Verif.Props.FloatClear
import Verif.Props.Ledger
import Verif.Props.Number
import Verif.Props.BitSet
import Verif.Props.Units
import Verif.Props.Tricks
import Verif.Props.Abi
import Verif.Props.Script
import Verif.Props.Bins
import Verif.Props.FuzzInput
import Verif.Props.Work

/-
An audit that runs when this file is built: it fails unless every claim theorem `Ethnum.Cnn_...` depends only on the
axioms `propext`, `Classical.choice` and `Quot.sound`. It is a check, not part of any proof.
-/

open Lean in
run_cmd do
  let env ← getEnv
  let allowed : List Name := [``propext, ``Classical.choice, ``Quot.sound]
  let mut count : Nat := 0
  for (n, ci) in env.constants.map₁.toList do
    let s := n.toString
    if s.startsWith "Ethnum.C" && (s.toList.getD 8 'x').isDigit then
      if let .thmInfo _ := ci then
        count := count + 1
        for a in ← collectAxioms n do
          unless allowed.contains a do throwError "{n} depends on the axiom {a}"
  unless 200 ≤ count do throwError "only {count} claim theorems found"
