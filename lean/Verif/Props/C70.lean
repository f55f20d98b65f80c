/-
C70: what a run of the program reports, including files that cannot be parsed.
-/
import Verif.Model.Main
import Verif.Props.C47
import Verif.Proofs.Decls

namespace Dredd

/-- The inputs that are parsed, in order. -/
def Input.parsed (is : List Input) : List SourceFile :=
  is.filterMap fun i => match i with
    | .file f => some f
    | _ => none

theorem Input.files_eq (is : List Input) : Input.files is = Input.parsed is := by
  induction is with
  | nil => rfl
  | cons i is ih => cases i <;> simp [Input.files, ih, parsed]

/-- Some input had errors: a compile command that failed early or a parsed file with errors. -/
def Input.SomeError (is : List Input) : Prop :=
  (∃ n, .broken n ∈ is) ∨ ∃ f ∈ firstOcc [] (Input.parsed is), f.hasErrors = true

theorem Input.anyBroken_iff (is : List Input) : anyBroken is = true ↔ ∃ n, .broken n ∈ is := by
  induction is with
  | nil => simp [anyBroken]
  | cons i is ih => cases i <;> simp [anyBroken, ih]

theorem Input.anySkipped_iff (is : List Input) : anySkipped is = true ↔ ∃ n, .skipped n ∈ is := by
  induction is with
  | nil => simp [anySkipped]
  | cons i is ih => cases i <;> simp [anySkipped, ih]

theorem anyError_iff (o : Options) (req : Bool) (fs : List SourceFile) :
    (runTool o req fs).anyError = true ↔ ∃ f ∈ firstOcc [] fs, f.hasErrors = true := by
  have h := (C47_exit_status o req fs).1
  have h2 : exitCode (runTool o req fs) = 0 ↔ (runTool o req fs).anyError = false := by
    unfold exitCode; cases (runTool o req fs).anyError <;> simp
  rw [h2] at h
  constructor
  · intro he
    apply Classical.byContradiction
    intro hn
    rw [h.2 fun f hf => by
      cases hh : f.hasErrors
      · rfl
      · exact absurd ⟨f, hf, hh⟩ hn] at he
    cases he
  · rintro ⟨f, hf, hh⟩
    cases he : (runTool o req fs).anyError
    · rw [h.1 he f hf] at hh; cases hh
    · rfl

theorem errors_iff (o : Options) (req : Bool) (is : List Input) :
    ((runTool o req (Input.parsed is)).anyError || Input.anyBroken is) = true ↔
      Input.SomeError is := by
  rw [Bool.or_eq_true, anyError_iff, Input.anyBroken_iff, Or.comm]
  exact Iff.rfl

theorem failed_nil_of_no_error (o : Options) (req : Bool) (fs : List SourceFile)
    (h : (runTool o req fs).anyError = false) : (runTool o req fs).failed = [] := by
  rw [C47_reported, List.map_eq_nil_iff, List.filter_eq_nil_iff]
  intro f hf he
  rw [(anyError_iff o req fs).2 ⟨f, hf, he⟩] at h
  cases h

/-- When the program reaches its end. -/
theorem mainRun_ends (asserts : Bool) (o : Options) (req canWrite : Bool) (is : List Input)
    (h : asserts = false ∨ Input.SomeError is ∨ ∀ n, .skipped n ∉ is) :
    let st := runTool o req (Input.parsed is)
    mainRun asserts o req canWrite is = ⟨some (toolCode st is), st.written,
      if toolCode st is == 0 then [] else sortedDecls st.failed,
      if req && canWrite then some (infoFile st.info) else none⟩ := by
  intro st
  unfold mainRun
  rw [Input.files_eq]
  dsimp only
  rw [if_neg]
  intro hc
  rw [Bool.and_eq_true] at hc
  obtain ⟨ha, hc⟩ := hc
  rcases h with h | h | h
  · rw [h] at ha; cases ha
  · have he := (errors_iff o req is).2 h
    simp [toolCode, he] at hc
  · have hs : Input.anySkipped is = false := by
      cases hh : Input.anySkipped is
      · rfl
      · obtain ⟨n, hn⟩ := (Input.anySkipped_iff is).1 hh
        exact absurd hn (h n)
    cases he : (runTool o req (Input.parsed is)).anyError || Input.anyBroken is
    · have hf := failed_nil_of_no_error o req (Input.parsed is) (by
        cases hh : (runTool o req (Input.parsed is)).anyError
        · rfl
        · rw [hh] at he; cases he)
      simp [toolCode, he, hs, hf] at hc
    · simp [toolCode, he] at hc

/-- C70: if no file is skipped for want of a compile command, or some file has errors, or the program
was built without assertions, then the program ends normally, and
* its exit status is 1 if there were errors, otherwise 2 if a file was skipped, otherwise 0;
* it lists, in order and once each, the parsed files that had errors;
* it writes the mutation info file exactly if asked to and able to, and the contents as well as the mutated
  sources are those for the files that were parsed.

Full statement: the program always ends normally.  It is false: `C70_false_skipped`.  And all files
that had errors are listed; false: `C70_false_listed`.  And exit status 0 means that the mutation
information that was asked for has been written; false: `C70_false_info`. -/
theorem C70_reports_partial (asserts : Bool) (o : Options) (req canWrite : Bool) (is : List Input)
    (h : asserts = false ∨ Input.SomeError is ∨ ∀ n, .skipped n ∉ is) :
    let r := mainRun asserts o req canWrite is
    let st := runTool o req (Input.parsed is)
    (r.exit = some 1 ↔ Input.SomeError is) ∧
    (r.exit = some 2 ↔ ¬ Input.SomeError is ∧ ∃ n, .skipped n ∈ is) ∧
    (r.exit = some 0 ↔ ¬ Input.SomeError is ∧ ∀ n, .skipped n ∉ is) ∧
    StrictlySorted r.listed ∧
    (∀ n, n ∈ r.listed ↔ ∃ f ∈ firstOcc [] (Input.parsed is), f.hasErrors = true ∧ f.name = n) ∧
    r.written = st.written ∧
    r.info = if req && canWrite then some (infoFile st.info) else none := by
  intro r st
  have e := mainRun_ends asserts o req canWrite is h
  dsimp only at e
  have hex : r.exit = some (toolCode st is) := by simp only [r, e, st]
  have hl : r.listed = sortedDecls st.failed := by
    simp only [r, e]
    split
    · rename_i h0
      have : st.failed = [] := by
        apply failed_nil_of_no_error
        cases hh : (runTool o req (Input.parsed is)).anyError
        · rfl
        · simp [toolCode, hh] at h0
      rw [this]
      rfl
    · rfl
  have h1 := errors_iff o req is
  have h2 := Input.anySkipped_iff is
  have h3 : (∀ n, .skipped n ∉ is) ↔ ¬ ∃ n, .skipped n ∈ is := by simp
  refine ⟨?_, ?_, ?_, ?_, ?_, by simp only [r, e, st], by simp only [r, e, st]⟩
  · rw [hex, ← h1]
    unfold toolCode
    dsimp only [st]
    generalize ((runTool o req (Input.parsed is)).anyError || Input.anyBroken is) = a
    cases a
    · simp; split <;> simp
    · simp
  · rw [hex, ← h1, ← h2]
    unfold toolCode
    dsimp only [st]
    generalize ((runTool o req (Input.parsed is)).anyError || Input.anyBroken is) = a
    cases a <;> cases Input.anySkipped is <;> simp
  · rw [hex, ← h1, h3, ← h2]
    unfold toolCode
    dsimp only [st]
    generalize ((runTool o req (Input.parsed is)).anyError || Input.anyBroken is) = a
    cases a <;> cases Input.anySkipped is <;> simp
  · rw [hl]
    exact sortedDecls_sorted _
  · intro n
    rw [hl, mem_sortedDecls, C47_reported, List.mem_map]
    simp only [List.mem_filter, and_assoc]

/-- C70, in any case: what is written to the sources does not depend on the files that could not be
parsed. -/
theorem C70_written (asserts : Bool) (o : Options) (req canWrite : Bool) (is : List Input) :
    (mainRun asserts o req canWrite is).written = (runTool o req (Input.parsed is)).written := by
  unfold mainRun
  rw [Input.files_eq]
  simp only [apply_ite MainResult.written, ite_self]

/-- C70 is false for files without compile commands: built with assertions, the program stops at the
assertion of main.cc 162 as soon as a file is skipped and nothing else goes wrong.  The sources have
been mutated by then, but no mutation information is written. -/
theorem C70_false_skipped (o : Options) (req canWrite : Bool) (is : List Input)
    (h1 : ∃ n, .skipped n ∈ is) (h2 : ¬ Input.SomeError is) :
    mainRun true o req canWrite is = ⟨none, (runTool o req (Input.parsed is)).written, [], none⟩ := by
  have hs := (Input.anySkipped_iff is).2 h1
  have he : ((runTool o req (Input.parsed is)).anyError || Input.anyBroken is) = false := by
    cases hh : (runTool o req (Input.parsed is)).anyError || Input.anyBroken is
    · rfl
    · exact absurd ((errors_iff o req is).1 hh) h2
  unfold mainRun
  rw [Input.files_eq]
  simp [toolCode, he, hs]

/-- For example: one file is mutated, another has no compile command. -/
example : let is := [Input.file (Sample.file t!"a.cc" Sample.cpp), .skipped t!"b.cc"]
    (mainRun true Sample.opts true true is).exit = none ∧
    (mainRun true Sample.opts true true is).info = none ∧
    (mainRun true Sample.opts true true is).written.map (·.1) = [t!"a.cc"] := by
  intro is
  have h : mainRun true Sample.opts true true is = _ := C70_false_skipped Sample.opts true true is
    ⟨_, .tail _ (.head _)⟩ (by
      rintro (⟨n, h⟩ | ⟨f, hf, he⟩)
      · simp [is] at h
      · simp [is, Input.parsed, firstOcc] at hf
        subst hf
        cases he)
  rw [h]
  exact ⟨rfl, rfl, by decide +kernel⟩

/-- C70 is false for compile commands that fail early: the file is not listed. -/
theorem C70_false_listed : (mainRun true Sample.opts true true [.broken t!"a.cc"]).exit = some 1 ∧
    (mainRun true Sample.opts true true [.broken t!"a.cc"]).listed = [] := by
  constructor <;> rfl

/-- C70 is false for an info file that cannot be written: the sources are mutated, there is no mutation
information, and the exit status is 0. -/
theorem C70_false_info (asserts : Bool) (o : Options) (fs : List SourceFile)
    (h : ∀ f ∈ firstOcc [] fs, f.hasErrors = false) :
    let r := mainRun asserts o true false (fs.map .file)
    r.exit = some 0 ∧ r.written = (runTool o true fs).written ∧ r.info = none := by
  have key : ∀ gs : List SourceFile, Input.parsed (gs.map .file) = gs := by
    intro gs
    induction gs with
    | nil => rfl
    | cons g gs ih => rw [List.map_cons, Input.parsed, List.filterMap_cons, ← Input.parsed, ih]
  have hf := key fs
  have hs : ∀ n, .skipped n ∉ fs.map Input.file := by simp
  have he : ¬ Input.SomeError (fs.map .file) := by
    rintro (⟨n, hn⟩ | ⟨f, h1, h2⟩)
    · simp at hn
    · rw [hf] at h1
      rw [h f h1] at h2
      cases h2
  obtain ⟨-, -, h0, -, -, h1, h2⟩ := C70_reports_partial asserts o true false (fs.map .file)
    (.inr (.inr hs))
  rw [hf] at h1
  exact ⟨h0.2 ⟨he, hs⟩, h1, h2⟩

/-- The hypotheses can be met by a run with a mutated file, a file with errors and a skipped one. -/
example : let is := [Input.file (Sample.file t!"a.cc" Sample.cpp), .skipped t!"b.cc",
      .file Sample.badFile]
    Input.SomeError is ∧ (mainRun true Sample.opts true true is).exit = some 1 ∧
    (mainRun true Sample.opts true true is).listed = [t!"bad.cc"] := by
  intro is
  have h : Input.SomeError is := .inr ⟨Sample.badFile, .tail _ (.head _), rfl⟩
  obtain ⟨h1, -, -, h2, h3, -⟩ := C70_reports_partial true Sample.opts true true is (.inr (.inl h))
  exact ⟨h, h1.2 h, by decide +kernel⟩

end Dredd
