import Verif.Model.IntApi
import Verif.Proofs.Ops
import Verif.Props.Repr
import Verif.Props.UArith
import Verif.Props.IArith
import Verif.Props.Convert
import Verif.Props.Operators
import Verif.Props.Pow
import Verif.Props.Bits
import Verif.Props.Bytes
import Verif.Props.Fmt
import Verif.Proofs.Parse
import Verif.Props.Parse
import Verif.Props.ConstParse
import Verif.Props.RoundTrip
import Verif.Props.Float
import Verif.Props.FloatFrom
import Verif.Props.Serde
import Verif.Props.SerdeBytes
import Verif.Props.SerdeCompressed
import Verif.Props.SerdePermissive
import Verif.Props.Llvm
import Verif.Props.Backend
import Verif.Props.Endian
import Verif.Props.Safety
import Verif.Props.FloatFmt
import Verif.Props.Panics
import Verif.Props.Error
import Verif.Props.Forms
import Verif.Props.Programs
import Verif.Props.Laws
import Verif.Props.FloatNearest
import Verif.Props.Mem
import Verif.Props.Fuzz
import Verif.Props.SerdeDoc
import Verif.Props.Order
import Verif.Props.Lang
import Verif.Props.Ir
import Verif.Props.Iter
import Verif.Props.Limbs
import Verif.Props.BitVector
import Verif.Props.Evm
import Verif.Props.MulDiv
import Verif.Props.Literals
import Verif.Props.Maps
import Verif.Props.Borrows
import Verif.Props.Alias
import Verif.Props.Sort
import Verif.Props.Writer
import Verif.Props.Threads
import Verif.Props.Exp
import Verif.Props.FloatBack
import Verif.Props.FloatClear
import Verif.Props.Ledger
import Verif.Props.Number
import Verif.Props.BitSet
import Verif.Props.Units
import Verif.Props.Tricks
import Verif.Props.Abi
import Verif.Props.Script
import Verif.Props.Bins
import Verif.Props.FuzzInput
import Verif.Props.Work
import Verif.Tests.DocTests
import Verif.Tests.UnitTests
import Verif.Axioms
