/-
C06: the mutation information lists exactly the modified files, in processing
order.
-/
import Verif.Proofs.Run
import Verif.Spec.Samples

namespace Dredd

/-- One entry per modified file, in the same order, with the file's name. -/
theorem C06_entries_are_written_files (o : Options) (fs : List SourceFile) :
    (runTool o true fs).info.map (·.filename) = (runTool o true fs).written.map (·.1) := by
  apply foldl_inv o true (fun st => st.info.map (·.filename) = st.written.map (·.1))
  · intro st f h hm
    rw [processFile_new _ _ _ _ hm]
    simp only [List.map_append, h, List.append_cancel_left_eq]
    by_cases h0 : fileCount o.optimise f = 0 <;> simp [h0]
  · rfl

/-- The written files appear in processing order: their names are a
subsequence of the names of the processed files. -/
theorem C06_processing_order (o : Options) (req : Bool) (fs : List SourceFile) :
    ((runTool o req fs).written.map (·.1)).Sublist ((firstOcc [] fs).map (·.name)) := by
  have hp : ∀ (fs : List SourceFile) (st : RunState), (∃ l, List.Sublist l
      ((firstOcc st.processed fs).map (·.name)) ∧
      (fs.foldl (processFile o req) st).written.map (·.1) = st.written.map (·.1) ++ l) := by
    intro fs
    induction fs with
    | nil => intro st; exact ⟨[], by simp [firstOcc], by simp⟩
    | cons f fs ih =>
      intro st
      rw [List.foldl_cons]
      simp only [firstOcc]
      by_cases hm : f.name ∈ st.processed
      · rw [processFile_skip _ _ _ _ hm, if_pos (by simpa using hm)]
        exact ih st
      · rw [if_neg (by simpa using hm)]
        obtain ⟨l, h1, h2⟩ := ih (processFile o req st f)
        rw [processFile_new _ _ _ _ hm] at h1 h2 ⊢
        simp only at h1 h2
        by_cases h0 : fileCount o.optimise f = 0
        · simp only [h0, ne_eq, not_true_eq_false, and_false, if_false, List.append_nil] at h2 ⊢
          exact ⟨l, h1.cons _, h2⟩
        · simp only [h0, ne_eq, not_false_eq_true, if_true, List.map_append, List.map_cons,
            List.map_nil, List.append_assoc, List.singleton_append] at h2 ⊢
          exact ⟨f.name :: l, h1.cons_cons _, h2⟩
  obtain ⟨l, h1, h2⟩ := hp fs {}
  rw [runTool, h2]
  exact h1

/-- Every entry holds at least one mutant. -/
theorem C06_entries_nonempty (o : Options) (fs : List SourceFile) :
    ∀ e ∈ (runTool o true fs).info, ∃ t, Encodes e.nodes 0 t ∧ treeIds t ≠ [] := by
  apply foldl_inv o true (fun st => ∀ e ∈ st.info, ∃ t, Encodes e.nodes 0 t ∧ treeIds t ≠ [])
  · intro st f h hm
    rw [processFile_new _ _ _ _ hm]
    intro e he
    simp only [List.mem_append] at he
    rcases he with he | he
    · exact h e he
    · split at he
      · rename_i h0
        simp only [List.mem_singleton] at he
        subst he
        have hr : f.hasErrors = false := by
          cases h : f.hasErrors
          · rfl
          · simp [fileCount, h] at h0
        refine ⟨_, flat_encodes_zero _, ?_⟩
        rw [fileTree_ids _ _ _ hr]
        intro hn
        have := congrArg List.length hn
        simp at this
        exact h0.2 this
      · simp at he
  · simp

/-- If no information is requested, none is produced, and the modified sources
are the same. -/
theorem C06_without_info (o : Options) (fs : List SourceFile) :
    (runTool o false fs).info = [] ∧ (runTool o false fs).written = (runTool o true fs).written := by
  have h := foldl_rel o o false true
    (fun s s' => s.processed = s'.processed ∧ s.nextId = s'.nextId ∧ s.info = [] ∧
      s.written = s'.written)
    (fun s s' h => h.1)
    (by
      rintro s s' f ⟨h1, h2, h3, h4⟩ hm hm'
      rw [processFile_new _ _ _ _ hm, processFile_new _ _ _ _ hm']
      simp [h1, h2, h3, h4])
    fs {} {} ⟨rfl, rfl, rfl, rfl⟩
  exact ⟨h.2.2.1, h.2.2.2⟩

/-- Two of the four files of the sample run are modified and listed. -/
example : (runTool Sample.opts true Sample.run).info.map (·.filename) = [t!"a.cc", t!"b.c"] := by
  decide +kernel

end Dredd
