/-
C47: exit status and reports reflect failures.
-/
import Verif.Proofs.Run
import Verif.Spec.Samples

namespace Dredd

/-- The files reported as not mutated are exactly the processed files with
errors, in order. -/
theorem C47_reported (o : Options) (req : Bool) (fs : List SourceFile) :
    (runTool o req fs).failed = ((firstOcc [] fs).filter (·.hasErrors)).map (·.name) := by
  have key : ∀ (fs : List SourceFile) (st : RunState),
      (fs.foldl (processFile o req) st).failed
        = st.failed ++ ((firstOcc st.processed fs).filter (·.hasErrors)).map (·.name) := by
    intro fs
    induction fs with
    | nil => intro st; simp [firstOcc]
    | cons f fs ih =>
      intro st
      rw [List.foldl_cons, ih]
      by_cases hm : f.name ∈ st.processed
      · rw [processFile_skip _ _ _ _ hm]
        simp [firstOcc, hm]
      · rw [processFile_new _ _ _ _ hm]
        cases he : f.hasErrors <;> simp [firstOcc, hm, he]
  simpa [runTool] using key fs {}

/-- Each is reported once. -/
theorem C47_reported_once (o : Options) (req : Bool) (fs : List SourceFile) :
    (runTool o req fs).failed.Nodup := by
  rw [C47_reported]
  exact (List.Sublist.map _ List.filter_sublist).nodup (firstOcc_nodup [] fs)

/-- The exit status is 0 exactly if every processed file compiled without
errors, and 1 otherwise. -/
theorem C47_exit_status (o : Options) (req : Bool) (fs : List SourceFile) :
    (exitCode (runTool o req fs) = 0 ↔ ∀ f ∈ firstOcc [] fs, f.hasErrors = false) ∧
    (exitCode (runTool o req fs) = 0 ∨ exitCode (runTool o req fs) = 1) := by
  have h : (runTool o req fs).anyError = false ↔ (runTool o req fs).failed = [] := by
    apply foldl_inv o req (fun st => st.anyError = false ↔ st.failed = [])
    · intro st f h hm
      rw [processFile_new _ _ _ _ hm]
      cases he : f.hasErrors <;> simp [h]
    · simp
  constructor
  · have h2 : exitCode (runTool o req fs) = 0 ↔ (runTool o req fs).anyError = false := by
      unfold exitCode; cases (runTool o req fs).anyError <;> simp
    rw [h2, h, C47_reported]
    simp [List.filter_eq_nil_iff]
  · unfold exitCode; split <;> simp

/-- The sample run fails because of one file. -/
example : exitCode (runTool Sample.opts true Sample.run) = 1 ∧
    (runTool Sample.opts true Sample.run).failed = [t!"bad.cc"] := by decide +kernel

end Dredd
