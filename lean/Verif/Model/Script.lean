import Verif.Model.Ir

/-
The build script of the crate ethnum-intrinsics, intrinsics/build/main.rs 17-60, as a program that acts on files and calls
other programs. What those do (rustc, the file system, clang as called by the crate `cc`) is an argument, `Tools`.
Simplifications: paths are Unix paths; a file is text (valid UTF-8) or is not; of an error only its source is kept.
-/

namespace Ethnum
namespace Script

/-- A path, and the text of a variable of the environment. -/
abbrev Path := List Char

/-- The contents of a file: valid UTF-8 or not (`fs::read_to_string`, intrinsics/build/main.rs 36, rejects the latter). -/
inductive Data where
  | text (s : List Char)
  | binary
  deriving DecidableEq, Repr

/-- The files there are. -/
abbrev Files := Path → Option Data

/-- What `cc::Build` is told (intrinsics/build/main.rs 50-58): `compiler`, `file`, `opt_level`, `flag`s, and the name given to
`try_compile`. -/
structure CcCall where
  compiler : Path
  file : Path
  optLevel : Nat
  flags : List (List Char)
  output : List Char
  deriving DecidableEq, Repr

/-- What the script does that can be seen, in order: lines for cargo, programs it tries to start (the program and its
arguments), files it tries to read and to write, and calls of the compiler with the contents that the input file has then. -/
inductive Event where
  | print (line : List Char)
  | spawn (argv : List (List Char))
  | read (p : Path)
  | write (p : Path) (s : List Char)
  | compile (call : CcCall) (input : Option Data)
  deriving DecidableEq, Repr

/-- Why the script fails (every `?` of intrinsics/build/main.rs 17-60). -/
inductive Failure where
  | var (name : List Char)
  | spawn | read | write | compile
  deriving DecidableEq, Repr

/-- Everything the script depends on. `env` gives the variables that are set to valid Unicode. `run` starts a program: `none` if
that is impossible, otherwise whether it reports success, and the files afterwards. `readFails` and `writeFails` are faults of the
file system; a write that fails leaves what it leaves. `cc` is `try_compile`: whether it succeeds, and the files afterwards. -/
structure Tools where
  env : List Char → Option (List Char)
  run : List (List Char) → Files → Option (Bool × Files)
  readFails : Path → Bool
  writeFails : Path → Option (Option Data)
  cc : CcCall → Files → Bool × Files

/-- The files and what has happened. -/
structure State where
  files : Files
  events : List Event

/-- A step of the script: it ends with a value or a failure, and has effects in both cases. -/
abbrev Act (α : Type) := State → Except Failure α × State

/-- `?` between two statements: the rest runs if the first part did not fail. -/
def Act.andThen {α β : Type} (a : Act α) (f : α → Act β) : Act β := fun s =>
  match a s with
  | (.ok x, s) => f x s
  | (.error e, s) => (.error e, s)

instance : Monad Act where
  pure x := fun s => (.ok x, s)
  bind := Act.andThen

/-- `println!` (intrinsics/build/main.rs 18). -/
def println (line : List Char) : Act Unit := fun s => (.ok (), { s with events := s.events ++ [.print line] })

/-- `env::var(name)?` (intrinsics/build/main.rs 23, 27, 32). -/
def var (t : Tools) (name : String) : Act (List Char) := fun s =>
  match t.env name.toList with
  | some v => (.ok v, s)
  | none => (.error (.var name.toList), s)

/-- `PathBuf::join` with a relative path (intrinsics/build/main.rs 26, 45). -/
def join (dir : Path) (name : String) : Path :=
  if dir = [] ∨ dir.getLast? = some '/' then dir ++ name.toList else dir ++ '/' :: name.toList

/-- `Command::status()?` (intrinsics/build/main.rs 27-35): fails only if the program cannot be started. The exit status is
the value. -/
def status (t : Tools) (argv : List (List Char)) : Act Bool := fun s =>
  let s := { s with events := s.events ++ [.spawn argv] }
  match t.run argv s.files with
  | some (ok, files) => (.ok ok, { s with files })
  | none => (.error .spawn, s)

/-- `fs::read_to_string(path)?` (intrinsics/build/main.rs 36). -/
def readToString (t : Tools) (p : Path) : Act (List Char) := fun s =>
  let s := { s with events := s.events ++ [.read p] }
  if t.readFails p then (.error .read, s)
  else match s.files p with
    | some (.text x) => (.ok x, s)
    | _ => (.error .read, s)

/-- A file system after one file has changed. -/
def put (f : Files) (p : Path) (d : Option Data) : Files := fun q => if q = p then d else f q

/-- `fs::write(&path, source)?` (intrinsics/build/main.rs 46). -/
def writeFile (t : Tools) (p : Path) (x : List Char) : Act Unit := fun s =>
  let s := { s with events := s.events ++ [Event.write p x] }
  match t.writeFails p with
  | some d => (.error .write, { s with files := put s.files p d })
  | none => (.ok (), { s with files := put s.files p (some (.text x)) })

/-- `build.try_compile("ethnum")?` (intrinsics/build/main.rs 58). -/
def tryCompile (t : Tools) (call : CcCall) : Act Unit := fun s =>
  let s := { s with events := s.events ++ [Event.compile call (s.files call.file)] }
  match t.cc call s.files with
  | (true, files) => (.ok (), { s with files })
  | (false, files) => (.error .compile, { s with files })

/-- `flags.contains(pat)` (intrinsics/build/main.rs 53). -/
def contains (pat : List Char) : List Char → Bool
  | [] => pat.isPrefixOf []
  | c :: s => pat.isPrefixOf (c :: s) || contains pat s

/-- intrinsics/build/main.rs 53: `matches!(env::var("CARGO_ENCODED_RUSTFLAGS"), Ok(flags) if flags.contains("-Clinker-plugin-lto"))`. -/
def linkerPluginLto (t : Tools) : Bool :=
  match t.env "CARGO_ENCODED_RUSTFLAGS".toList with
  | some flags => contains "-Clinker-plugin-lto".toList flags
  | none => false

/-- `main`, intrinsics/build/main.rs 17-60. -/
def main (t : Tools) : Act Unit := do
  println "cargo:rerun-if-env-changed=CLANG".toList
  let clang := (t.env "CLANG".toList).getD "clang".toList
  let out_dir ← var t "OUT_DIR"
  let path := join out_dir "template.ll"
  let rustc ← var t "RUSTC"
  let target ← var t "TARGET"
  let _ ← status t [rustc, "build/intrinsics.rs".toList, "-O".toList, "--crate-type".toList, "lib".toList, "--emit".toList,
    "llvm-ir".toList, "--target".toList, target, "-o".toList, path]
  let template ← readToString t path
  let source := Build.rewrite template
  let path := join out_dir "intrinsics.ll"
  writeFile t path source
  let flags := if linkerPluginLto t then ["-flto=thin".toList] else []
  tryCompile t ⟨clang, path, 3, flags, "ethnum".toList⟩

end Script
end Ethnum
