import Verif.Model.FuzzInput
import Verif.Model.Script

/-
The programs beside the fuzzer: fuzz/src/bin/dump.rs and fuzz/src/bin/init.rs. The third, fuzz/src/bin/fuzz.rs, calls
`fuzz_bytes` (`Model/FuzzInput`) on the bytes it is given. Simplifications: arguments and paths are valid Unicode, and paths are
Unix paths; the message of a panic is not modelled.
-/

namespace Ethnum
namespace Fuzz

/-! ### `{:#?}` of the derived types (std, trusted base) -/

/-- `core::fmt`'s `PadAdapter` on a text: four spaces at the beginning of each line. -/
def indent (s : List Char) : List Char :=
  "    ".toList ++ s.flatMap (fun ch => if ch = '\n' then "\n    ".toList else [ch])

/-- `{:#?}` that `#[derive(Debug)]` makes for a name with unnamed fields: one indented line or more for each field. -/
def debugTuple (name : String) (fields : List (List Char)) : List Char :=
  name.toList ++ "(\n".toList ++ fields.flatMap (fun f => indent f ++ ",\n".toList) ++ ")".toList

/-- `{:#?}` of `Num` (fuzz/src/lib.rs 49-50); that of a `u128` is its decimal numeral. -/
def Num.debug (n : Num) : List Char := debugTuple "Num" [Nat.toDigits 10 n.hi.toNat, Nat.toDigits 10 n.lo.toNat]

/-- The name of a variant of `Op` (fuzz/src/lib.rs 41-47). -/
def OpKind.name : OpKind → String
  | .add => "Add"
  | .sub => "Sub"
  | .mul => "Mul"
  | .div => "Div"
  | .rem => "Rem"

/-- `{:#?}` of `Op` (fuzz/src/lib.rs 40-47) -/
def Op.debug (op : Op) : List Char := debugTuple op.kind.name [op.a.debug, op.b.debug]

/-- `{:#?}` of `Target` (fuzz/src/lib.rs 8-12) -/
def Target.debug : Target → List Char
  | .signed op => debugTuple "Signed" [op.debug]
  | .unsigned op => debugTuple "Unsigned" [op.debug]

/-! ### fuzz/src/bin/dump.rs -/

/-- What a program has printed, and its exit code or the fault that ends it. -/
structure Outcome where
  stdout : List Char
  stderr : List Char
  exit : Res Int
  deriving DecidableEq

/-- `main` of fuzz/src/bin/dump.rs 6-18. `read` is `fs::read`. -/
def dump (c : Cfg) (args : List (List Char)) (read : List Char → Option (List U8)) : Outcome :=
  match args with
  | [_, path] =>
    match read path with
    | none => ⟨[], [], throwPanic .explicit⟩
    | some bytes =>
      match Target.load bytes with
      | .error e => ⟨[], [], .error e⟩
      | .ok target => ⟨target.debug ++ "\n".toList, [], do fuzz_bytes c bytes; return 0⟩
  | _ => ⟨[], "USAGE: dump PATH\n".toList, .ok (-1)⟩

/-! ### fuzz/src/bin/init.rs -/

/-- The calls of the file system, each of which can fail: making a directory with all its parents, creating a file (which makes
it empty), and writing all bytes; a write that fails leaves what it leaves. -/
structure Disk where
  makesDirs : List Char → Bool
  creates : List Char → Bool
  writeFails : List Char → Option (List U8)

/-- The directories made and the files there are. -/
structure Tree where
  dirs : List (List Char)
  files : List Char → Option (List U8)

/-- A file changes. -/
def Tree.put (t : Tree) (p : List Char) (b : List U8) : Tree := { t with files := fun q => if q = p then some b else t.files q }

/-- `main` of fuzz/src/bin/init.rs 13-30; `size` is `mem::size_of::<Target>()`. -/
def init (d : Disk) (size : Nat) (args : List (List Char)) (t : Tree) : Outcome × Tree :=
  match args with
  | [_, dir] =>
    let out := "initializing directory ".toList ++ dir ++ "/{in,out}\n".toList
    let inDir := Script.join dir "in"
    let outDir := Script.join dir "out"
    if !d.makesDirs inDir then (⟨out, [], throwPanic .explicit⟩, t)
    else
      let t := { t with dirs := t.dirs ++ [inDir] }
      if !d.makesDirs outDir then (⟨out, [], throwPanic .explicit⟩, t)
      else
        let t := { t with dirs := t.dirs ++ [outDir] }
        let path := Script.join dir "in/seed"
        let out := out ++ "writing seed ".toList ++ path ++ "\n".toList
        if !d.creates path then (⟨out, [], throwPanic .explicit⟩, t)
        else
          let t := t.put path []
          match d.writeFails path with
          | some b => (⟨out, [], throwPanic .explicit⟩, t.put path b)
          | none => (⟨out, [], .ok 0⟩, t.put path (seed size))
  | _ => (⟨[], "USAGE: init DIRECTORY\n".toList, .ok (-1)⟩, t)

end Fuzz
end Ethnum
