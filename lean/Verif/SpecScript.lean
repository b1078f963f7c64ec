import Verif.Model.Script
import Verif.SpecIr

/-
C81: what the build script of the LLVM back-end is to do.
-/

namespace Ethnum
namespace Script

/-- The command line on which rustc prints the LLVM IR of the template into `OUT_DIR/template.ll`. -/
def rustcLine (out rustc target : List Char) : List (List Char) :=
  [rustc, "build/intrinsics.rs".toList, "-O".toList, "--crate-type".toList, "lib".toList, "--emit".toList, "llvm-ir".toList,
    "--target".toList, target, "-o".toList, join out "template.ll"]

/-- Whether the crate is being built for link-time optimisation across languages. -/
def WantsLto (t : Tools) : Prop :=
  ∃ before after, t.env "CARGO_ENCODED_RUSTFLAGS".toList = some (before ++ "-Clinker-plugin-lto".toList ++ after)

/-- The call of clang that makes the library `ethnum` from `OUT_DIR/intrinsics.ll`: `$CLANG`, or `clang`, at level 3, with
`-flto=thin` if `lto`. -/
def clangCall (t : Tools) (out : List Char) (lto : Bool) : CcCall where
  compiler := match t.env "CLANG".toList with
    | some p => p
    | none => "clang".toList
  file := join out "intrinsics.ll"
  optLevel := 3
  flags := if lto then ["-flto=thin".toList] else []
  output := "ethnum".toList

/-- All that a build does, in order, when rustc leaves `ir` in `OUT_DIR/template.ll`. -/
def plan (t : Tools) (out rustc target ir : List Char) (lto : Bool) : List Event :=
  [.print "cargo:rerun-if-env-changed=CLANG".toList,
   .spawn (rustcLine out rustc target),
   .read (join out "template.ll"),
   .write (join out "intrinsics.ll") (Build.rewrite ir),
   .compile (clangCall t out lto) (some (.text (Build.rewrite ir)))]

/-- What the script did in a run from `s`. -/
def Does (t : Tools) (s : State) (result : Except Failure Unit) (new : List Event) : Prop :=
  (main t s).1 = result ∧ (main t s).2.events = s.events ++ new

/-- A rustc whose exit status can be trusted: when it reports success it has written text to the place after `-o`. -/
def TrustyRustc (t : Tools) (out rustc target : List Char) (ir : List Char) : Prop :=
  ∀ files, ∃ ok files', t.run (rustcLine out rustc target) files = some (ok, files')
    ∧ (ok = true → files' (join out "template.ll") = some (.text ir))

end Script
end Ethnum
