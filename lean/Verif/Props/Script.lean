import Verif.SpecScript
import Verif.Props.Ir

/-
C81: the build script of the LLVM back-end.
-/

namespace Ethnum
namespace Script

private theorem contains_iff (pat s : List Char) : contains pat s = true ↔ ∃ a b, s = a ++ pat ++ b := by
  induction s with
  | nil =>
    simp only [contains, List.isPrefixOf_iff_prefix]
    constructor
    · rintro ⟨b, hb⟩; exact ⟨[], b, by simpa using hb.symm⟩
    · rintro ⟨a, b, h⟩
      have : pat = [] := by
        rcases pat with _ | ⟨c, p⟩
        · rfl
        · simp at h
      exact ⟨[], by simp [this]⟩
  | cons c s ih =>
    simp only [contains, Bool.or_eq_true, List.isPrefixOf_iff_prefix, ih]
    constructor
    · rintro (⟨b, hb⟩ | ⟨a, b, h⟩)
      · exact ⟨[], b, by simpa using hb.symm⟩
      · exact ⟨c :: a, b, by simp [h]⟩
    · rintro ⟨a, b, h⟩
      rcases a with _ | ⟨d, a⟩
      · exact .inl ⟨b, by simpa using h.symm⟩
      · simp only [List.cons_append, List.cons.injEq] at h
        exact .inr ⟨a, b, h.2⟩

private theorem lto_iff (t : Tools) : linkerPluginLto t = true ↔ WantsLto t := by
  unfold linkerPluginLto WantsLto
  cases h : t.env "CARGO_ENCODED_RUSTFLAGS".toList with
  | none => simp
  | some f => simp [contains_iff]

private theorem clang_eq (t : Tools) (out : List Char) :
    (⟨(t.env "CLANG".toList).getD "clang".toList, join out "intrinsics.ll", 3,
      if linkerPluginLto t then ["-flto=thin".toList] else [], "ethnum".toList⟩ : CcCall)
      = clangCall t out (linkerPluginLto t) := by
  unfold clangCall
  cases t.env "CLANG".toList <;> rfl

/-- `main` with all its exits. -/
private theorem main_eq (t : Tools) (s : State) : main t s =
    (let e1 := s.events ++ [.print "cargo:rerun-if-env-changed=CLANG".toList]
     match t.env "OUT_DIR".toList with
     | none => (.error (.var "OUT_DIR".toList), ⟨s.files, e1⟩)
     | some out =>
     match t.env "RUSTC".toList with
     | none => (.error (.var "RUSTC".toList), ⟨s.files, e1⟩)
     | some rustc =>
     match t.env "TARGET".toList with
     | none => (.error (.var "TARGET".toList), ⟨s.files, e1⟩)
     | some target =>
     let e2 := e1 ++ [.spawn (rustcLine out rustc target)]
     match t.run (rustcLine out rustc target) s.files with
     | none => (.error .spawn, ⟨s.files, e2⟩)
     | some (_, files) =>
     let e3 := e2 ++ [.read (join out "template.ll")]
     if t.readFails (join out "template.ll") then (.error .read, ⟨files, e3⟩)
     else match files (join out "template.ll") with
     | none => (.error .read, ⟨files, e3⟩)
     | some .binary => (.error .read, ⟨files, e3⟩)
     | some (.text ir) =>
     let e4 := e3 ++ [.write (join out "intrinsics.ll") (Build.rewrite ir)]
     match t.writeFails (join out "intrinsics.ll") with
     | some d => (.error .write, ⟨put files (join out "intrinsics.ll") d, e4⟩)
     | none =>
     let files := put files (join out "intrinsics.ll") (some (.text (Build.rewrite ir)))
     let call := clangCall t out (linkerPluginLto t)
     let e5 := e4 ++ [.compile call (some (.text (Build.rewrite ir)))]
     match t.cc call files with
     | (true, files) => (.ok (), ⟨files, e5⟩)
     | (false, files) => (.error .compile, ⟨files, e5⟩)) := by
  unfold main
  simp only [bind, Act.andThen, println, var]
  rcases t.env "OUT_DIR".toList with _ | out
  · rfl
  rcases t.env "RUSTC".toList with _ | rustc
  · rfl
  rcases t.env "TARGET".toList with _ | target
  · rfl
  dsimp only [status, rustcLine]
  rcases t.run [rustc, "build/intrinsics.rs".toList, "-O".toList, "--crate-type".toList, "lib".toList, "--emit".toList,
    "llvm-ir".toList, "--target".toList, target, "-o".toList, join out "template.ll"] s.files with _ | ⟨ok, files⟩
  · rfl
  dsimp only [readToString]
  by_cases hr : t.readFails (join out "template.ll") = true
  · simp only [hr, if_true]
  simp only [hr, if_false, Bool.false_eq_true]
  rcases files (join out "template.ll") with _ | _ | _
  · rfl
  · dsimp only [writeFile]
    rcases t.writeFails (join out "intrinsics.ll") with _ | d
    · dsimp only [tryCompile]
      rw [clang_eq]
      have hp : ∀ (f : Files) (p : Path) (d : Option Data), put f p d p = d := fun f p d => if_pos rfl
      simp only [hp]
      rcases t.cc (clangCall t out (linkerPluginLto t)) _ with ⟨_ | _, _⟩ <;> rfl
    · rfl
  · rfl

/-- A machine for the examples: rustc prints the template function `add2` and reports success, or prints nothing and reports
failure; nothing else fails. -/
def exTools (rustcWorks lto : Bool) : Tools where
  env v :=
    if v = "OUT_DIR".toList then some "/out".toList
    else if v = "RUSTC".toList then some "rustc".toList
    else if v = "TARGET".toList then some "x86_64".toList
    else if v = "CARGO_ENCODED_RUSTFLAGS".toList then some (if lto then "-g -Clinker-plugin-lto -v".toList else "-g".toList)
    else none
  run _ files := some (rustcWorks,
    if rustcWorks then put files "/out/template.ll".toList (some (.text (Ir.text 128 [.fn Template.irAdd2]))) else files)
  readFails _ := false
  writeFails _ := none
  cc _ files := (true, files)

/-- No file, and a file left by an earlier build. -/
def exEmpty : State := ⟨fun _ => none, []⟩
def exOld : State := ⟨put (fun _ => none) "/out/template.ll".toList (some (.text "; old i128".toList)), []⟩

end Script
open Script

/-- C81: whatever fails, what the script has done is a beginning of the plan, made with the variables of the environment and with
what rustc left; it is the whole plan if the script succeeds, and if the script fails for another reason than clang then clang
has not been called. -/
theorem C81_order (t : Tools) (s : State) :
    ∃ out rustc target ir lto new, new <+: plan t out rustc target ir lto ∧ (lto = true ↔ WantsLto t)
      ∧ Does t s (main t s).1 new ∧ ((main t s).1 = .ok () → new = plan t out rustc target ir lto)
      ∧ (1 < new.length → t.env "OUT_DIR".toList = some out ∧ t.env "RUSTC".toList = some rustc
        ∧ t.env "TARGET".toList = some target)
      ∧ (3 < new.length → ∃ status files, t.run (rustcLine out rustc target) s.files = some (status, files)
        ∧ files (join out "template.ll") = some (.text ir))
      ∧ ((main t s).1 ≠ .ok () → (main t s).1 ≠ .error .compile → ∀ c d, Event.compile c d ∉ new) := by
  unfold Does
  generalize hm : main t s = m
  rw [main_eq] at hm
  dsimp only at hm
  split at hm
  · subst hm
    exact ⟨[], [], [], [], linkerPluginLto t, _, ⟨_, rfl⟩, lto_iff t, ⟨rfl, rfl⟩, by simp, by simp, by simp, by simp⟩
  rename_i out ho
  split at hm
  · subst hm
    exact ⟨[], [], [], [], linkerPluginLto t, _, ⟨_, rfl⟩, lto_iff t, ⟨rfl, rfl⟩, by simp, by simp, by simp, by simp⟩
  rename_i rustc hr
  split at hm
  · subst hm
    exact ⟨[], [], [], [], linkerPluginLto t, _, ⟨_, rfl⟩, lto_iff t, ⟨rfl, rfl⟩, by simp, by simp, by simp, by simp⟩
  rename_i target ht
  split at hm
  · subst hm
    exact ⟨out, rustc, target, [], linkerPluginLto t, (plan t out rustc target [] (linkerPluginLto t)).take 2,
      List.take_prefix _ _, lto_iff t, ⟨rfl, by simp [plan]⟩, by simp, fun _ => ⟨ho, hr, ht⟩, by simp [plan], by simp [plan]⟩
  rename_i st files hst
  split at hm
  · subst hm
    exact ⟨out, rustc, target, [], linkerPluginLto t, (plan t out rustc target [] (linkerPluginLto t)).take 3,
      List.take_prefix _ _, lto_iff t, ⟨rfl, by simp [plan]⟩, by simp, fun _ => ⟨ho, hr, ht⟩, by simp [plan], by simp [plan]⟩
  split at hm
  · subst hm
    exact ⟨out, rustc, target, [], linkerPluginLto t, (plan t out rustc target [] (linkerPluginLto t)).take 3,
      List.take_prefix _ _, lto_iff t, ⟨rfl, by simp [plan]⟩, by simp, fun _ => ⟨ho, hr, ht⟩, by simp [plan], by simp [plan]⟩
  · subst hm
    exact ⟨out, rustc, target, [], linkerPluginLto t, (plan t out rustc target [] (linkerPluginLto t)).take 3,
      List.take_prefix _ _, lto_iff t, ⟨rfl, by simp [plan]⟩, by simp, fun _ => ⟨ho, hr, ht⟩, by simp [plan], by simp [plan]⟩
  rename_i ir hir
  split at hm
  · subst hm
    exact ⟨out, rustc, target, ir, linkerPluginLto t, (plan t out rustc target ir (linkerPluginLto t)).take 4,
      List.take_prefix _ _, lto_iff t, ⟨rfl, by simp [plan]⟩, by simp, fun _ => ⟨ho, hr, ht⟩, fun _ => ⟨st, files, hst, hir⟩, by simp [plan]⟩
  split at hm
  · subst hm
    exact ⟨out, rustc, target, ir, linkerPluginLto t, plan t out rustc target ir (linkerPluginLto t),
      List.prefix_rfl, lto_iff t, ⟨rfl, by simp [plan]⟩, by simp, fun _ => ⟨ho, hr, ht⟩, fun _ => ⟨st, files, hst, hir⟩, by simp⟩
  · subst hm
    exact ⟨out, rustc, target, ir, linkerPluginLto t, plan t out rustc target ir (linkerPluginLto t),
      List.prefix_rfl, lto_iff t, ⟨rfl, by simp [plan]⟩, by simp, fun _ => ⟨ho, hr, ht⟩, fun _ => ⟨st, files, hst, hir⟩, by simp⟩

example : (main (exTools true true) exEmpty).1 = .ok ()
    ∧ ((main (exTools true true) exEmpty).2.events.map fun
        | .compile c _ => c.flags
        | _ => []) = [[], [], [], [], ["-flto=thin".toList]]
    ∧ (main (exTools false false) exEmpty).1 = .error .read ∧ (main (exTools false false) exEmpty).2.events.length = 3 := by
  decide +kernel

/-- C81: the script succeeds exactly if the three variables are set, rustc can be started, there is text in the template's file
after rustc has ended, that text's replacement can be written, and clang accepts it. Then it has done exactly the plan. -/
theorem C81_success (t : Tools) (s : State) :
    ((main t s).1 = .ok () ↔ ∃ out rustc target status files ir lto, t.env "OUT_DIR".toList = some out
      ∧ t.env "RUSTC".toList = some rustc ∧ t.env "TARGET".toList = some target
      ∧ t.run (rustcLine out rustc target) s.files = some (status, files)
      ∧ t.readFails (join out "template.ll") = false ∧ files (join out "template.ll") = some (.text ir)
      ∧ t.writeFails (join out "intrinsics.ll") = none ∧ (lto = true ↔ WantsLto t)
      ∧ (t.cc (clangCall t out lto) (put files (join out "intrinsics.ll") (some (.text (Build.rewrite ir))))).1 = true)
    ∧ ∀ out rustc target status files ir lto, (lto = true ↔ WantsLto t) → t.env "OUT_DIR".toList = some out →
      t.env "RUSTC".toList = some rustc → t.env "TARGET".toList = some target →
      t.run (rustcLine out rustc target) s.files = some (status, files) → files (join out "template.ll") = some (.text ir) →
      (main t s).1 = .ok () → Does t s (.ok ()) (plan t out rustc target ir lto) := by
  have hl : ∀ lto : Bool, (lto = true ↔ WantsLto t) → lto = linkerPluginLto t := by
    intro lto h
    rw [← lto_iff] at h
    exact Bool.eq_iff_iff.mpr h
  refine ⟨⟨fun h => ?_, ?_⟩, ?_⟩
  · rw [main_eq] at h
    dsimp only at h
    split at h
    · simp at h
    rename_i out ho
    split at h
    · simp at h
    rename_i rustc hr
    split at h
    · simp at h
    rename_i target ht
    split at h
    · simp at h
    rename_i st files hst
    split at h
    · simp at h
    rename_i hrf
    split at h
    · simp at h
    · simp at h
    rename_i ir hir
    split at h
    · simp at h
    rename_i hw
    split at h
    · rename_i hc
      exact ⟨out, rustc, target, st, files, ir, linkerPluginLto t, ho, hr, ht, hst, by simpa using hrf, hir, hw, lto_iff t,
        by rw [hc]⟩
    · simp at h
  · rintro ⟨out, rustc, target, st, files, ir, lto, ho, hr, ht, hst, hrf, hir, hw, hlto, hc⟩
    obtain rfl := hl lto hlto
    rw [main_eq]
    simp only [ho, hr, ht, hst, hrf, hir, hw, Bool.false_eq_true, if_false]
    split
    · rfl
    · rename_i h
      rw [h] at hc
      simp at hc
  · intro out rustc target st files ir lto hlto ho hr ht hst hir h
    obtain rfl := hl lto hlto
    refine ⟨h, ?_⟩
    rw [main_eq] at h ⊢
    simp only [ho, hr, ht, hst, hir] at h ⊢
    split at h
    · simp at h
    rename_i hrf
    rw [if_neg hrf]
    split at h
    · simp at h
    rename_i hw
    split at h
    · simp [plan]
    · simp at h

example : WantsLto (exTools true true) := ⟨"-g ".toList, " -v".toList, by decide +kernel⟩

example : (main (exTools true false) exOld).1 = .ok () ∧ (exTools true false).env "OUT_DIR".toList = some "/out".toList
    ∧ (exTools true false).env "RUSTC".toList = some "rustc".toList
    ∧ (exTools true false).env "TARGET".toList = some "x86_64".toList
    ∧ (main (exTools true false) exOld).2.files "/out/intrinsics.ll".toList
      = some (.text (Ir.text 256 [.fn Template.irAdd2])) := by
  decide +kernel

/-- C81: when rustc reports success, and its exit status can be trusted, a build that succeeds has compiled the 256-bit module
of the 128-bit module that rustc printed in this build. Missing, because it is false (`C81_stale`): the same when rustc reports
failure. -/
theorem C81_fresh_partial (t : Tools) (s : State) (out rustc target : List Char) (m : List Ir.Item) (lto : Bool)
    (hl : lto = true ↔ WantsLto t) (ho : t.env "OUT_DIR".toList = some out) (hr : t.env "RUSTC".toList = some rustc)
    (ht : t.env "TARGET".toList = some target) (hm : Ir.OkModule m) (h : TrustyRustc t out rustc target (Ir.text 128 m))
    (hs : ∃ files, t.run (rustcLine out rustc target) s.files = some (true, files)) (hok : (main t s).1 = .ok ()) :
    ∃ before, Does t s (.ok ()) (before ++ [.compile (clangCall t out lto) (some (.text (Ir.text 256 m)))])
      ∧ ∀ c d, Event.compile c d ∉ before := by
  obtain ⟨files, hs⟩ := hs
  obtain ⟨ok, files', h1, h2⟩ := h s.files
  rw [hs] at h1
  simp only [Option.some.injEq, Prod.mk.injEq] at h1
  obtain ⟨rfl, rfl⟩ := h1
  have := (C81_success t s).2 out rustc target true files _ lto hl ho hr ht hs (h2 rfl) hok
  rw [plan, C60_rewrite m hm] at this
  exact ⟨[.print "cargo:rerun-if-env-changed=CLANG".toList, .spawn (rustcLine out rustc target), .read (join out "template.ll"),
    .write (join out "intrinsics.ll") (Ir.text 256 m)], this, by simp⟩

example : Ir.OkModule [.fn Template.irAdd2] ∧ (main (exTools true false) exOld).1 = .ok () := by decide +kernel
example (works : Bool) : TrustyRustc (exTools works false) "/out".toList "rustc".toList "x86_64".toList
    (Ir.text 128 [.fn Template.irAdd2]) := by
  intro files
  refine ⟨_, _, rfl, ?_⟩
  rintro rfl
  rfl

/-- C81, refuted: the exit status of rustc is not looked at. If rustc reports failure and prints nothing, and a template of an
earlier build is there, the build succeeds with the earlier template: in every environment in which nothing else fails. -/
theorem C81_stale (t : Tools) (s : State) (out rustc target old : List Char) (lto : Bool)
    (hl : lto = true ↔ WantsLto t) (ho : t.env "OUT_DIR".toList = some out) (hr : t.env "RUSTC".toList = some rustc)
    (ht : t.env "TARGET".toList = some target) (hs : t.run (rustcLine out rustc target) s.files = some (false, s.files))
    (hf : t.readFails (join out "template.ll") = false) (hold : s.files (join out "template.ll") = some (.text old))
    (hw : t.writeFails (join out "intrinsics.ll") = none)
    (hc : ∀ files, (t.cc (clangCall t out lto) files).1 = true) :
    Does t s (.ok ()) (plan t out rustc target old lto) :=
  (C81_success t s).2 out rustc target false s.files old lto hl ho hr ht hs hold
    ((C81_success t s).1.2 ⟨out, rustc, target, false, s.files, old, lto, ho, hr, ht, hs, hf, hold, hw, hl, hc _⟩)

example : (main (exTools false false) exOld).1 = .ok ()
    ∧ (main (exTools false false) exOld).2.files "/out/intrinsics.ll".toList = some (.text "; old i256".toList) := by
  decide +kernel

/-- C81, refuted: so the claim of `C81_fresh_partial` is false without its hypothesis on the exit status, for a rustc whose exit
status can be trusted. -/
theorem C81_stale_witness : ¬ ∀ (t : Tools) (s : State) (out rustc target : List Char) (m : List Ir.Item),
    t.env "OUT_DIR".toList = some out → t.env "RUSTC".toList = some rustc → t.env "TARGET".toList = some target →
    Ir.OkModule m → TrustyRustc t out rustc target (Ir.text 128 m) → (main t s).1 = .ok () →
    ∃ before c, Does t s (.ok ()) (before ++ [.compile c (some (.text (Ir.text 256 m)))]) := by
  intro h
  obtain ⟨before, c, -, hd⟩ := h (exTools false false) exOld "/out".toList "rustc".toList "x86_64".toList
    [.fn Template.irAdd2] (by decide +kernel) (by decide +kernel) (by decide +kernel) (by decide +kernel)
    (fun files => ⟨false, files, rfl, by simp⟩) (by decide +kernel)
  have h2 : ∃ c d, (main (exTools false false) exOld).2.events.getLast? = some (.compile c d)
      ∧ d ≠ some (.text (Ir.text 256 [.fn Template.irAdd2])) :=
    ⟨clangCall (exTools false false) "/out".toList false, some (.text "; old i256".toList), by decide +kernel, by decide +kernel⟩
  obtain ⟨c', d, h3, h4⟩ := h2
  rw [hd] at h3
  simp at h3
  exact h4 h3.2.symm

/-- C81: what earlier builds have left, finished or broken off at any point, makes no difference: if what rustc leaves in the
template's file does not depend on the files there were, two builds do the same, from any two states of the files. -/
theorem C81_history (t : Tools) (s s' : State) (ir : Option (Option Data))
    (h : ∀ out rustc target, t.env "OUT_DIR".toList = some out → t.env "RUSTC".toList = some rustc →
      t.env "TARGET".toList = some target →
      ∀ files, (t.run (rustcLine out rustc target) files).map (fun r => r.2 (join out "template.ll")) = ir) :
    ∃ new, (main t s).2.events = s.events ++ new ∧ (main t s').2.events = s'.events ++ new := by
  rw [main_eq, main_eq]
  dsimp only
  cases ho : t.env "OUT_DIR".toList with
  | none => exact ⟨_, rfl, rfl⟩
  | some out =>
  cases hr : t.env "RUSTC".toList with
  | none => exact ⟨_, rfl, rfl⟩
  | some rustc =>
  cases ht : t.env "TARGET".toList with
  | none => exact ⟨_, rfl, rfl⟩
  | some target =>
  have h := h out rustc target ho hr ht
  have h1 := h s.files
  have h2 := h s'.files
  dsimp only
  generalize t.run (rustcLine out rustc target) s.files = r at h1 ⊢
  generalize t.run (rustcLine out rustc target) s'.files = r' at h2 ⊢
  rcases r with _ | ⟨ok, f⟩ <;> rcases r' with _ | ⟨ok', f'⟩
  · exact ⟨(plan t out rustc target [] (linkerPluginLto t)).take 2, by simp [plan], by simp [plan]⟩
  · rw [← h2] at h1; simp at h1
  · rw [← h2] at h1; simp at h1
  rw [← h2] at h1
  simp only [Option.map_some, Option.some.injEq] at h1
  dsimp only
  rw [h1]
  by_cases hrf : t.readFails (join out "template.ll") = true
  · simp only [hrf, if_true]
    exact ⟨(plan t out rustc target [] (linkerPluginLto t)).take 3, by simp [plan], by simp [plan]⟩
  simp only [hrf, if_false, Bool.false_eq_true]
  rcases f' (join out "template.ll") with _ | x | _
  · exact ⟨(plan t out rustc target [] (linkerPluginLto t)).take 3, by simp [plan], by simp [plan]⟩
  · dsimp only
    rcases t.writeFails (join out "intrinsics.ll") with _ | d
    · dsimp only
      refine ⟨plan t out rustc target x (linkerPluginLto t), ?_, ?_⟩ <;> split <;> simp [plan]
    · exact ⟨(plan t out rustc target x (linkerPluginLto t)).take 4, by simp [plan], by simp [plan]⟩
  · exact ⟨(plan t out rustc target [] (linkerPluginLto t)).take 3, by simp [plan], by simp [plan]⟩

example : (main (exTools true false) exEmpty).2.events = (main (exTools true false) exOld).2.events
    ∧ (main (exTools true false) exEmpty).2.events.length = 5 := by decide +kernel

end Ethnum
