/-
C04: every source file is processed at most once.
-/
import Verif.Proofs.Run
import Verif.Spec.Samples

namespace Dredd

/-- Only first occurrences matter: the run is the run over the list from which
later occurrences have been deleted. -/
theorem C04_only_first_occurrence (o : Options) (req : Bool) (fs : List SourceFile) :
    runTool o req fs = runTool o req (firstOcc [] fs) :=
  foldl_firstOcc o req fs {}

/-- `firstOcc` keeps exactly one file of each name. -/
theorem C04_firstOcc_spec (fs : List SourceFile) :
    ((firstOcc [] fs).map (·.name)).Nodup ∧ (firstOcc [] fs).Sublist fs ∧
    ∀ pre f suf, fs = pre ++ f :: suf → (∀ g ∈ pre, g.name ≠ f.name) → f ∈ firstOcc [] fs := by
  refine ⟨firstOcc_nodup [] fs, ?_, ?_⟩
  · generalize ([] : List Text) = seen
    induction fs generalizing seen with
    | nil => simp [firstOcc]
    | cons f fs ih =>
      simp only [firstOcc]
      split
      · exact (ih _).cons _
      · exact (ih _).cons_cons _
  · have : ∀ (seen : List Text) pre f suf, fs = pre ++ f :: suf → (∀ g ∈ pre, g.name ≠ f.name) →
        f.name ∉ seen → f ∈ firstOcc seen fs := by
      induction fs with
      | nil => intro _ pre f suf h; simp at h
      | cons g fs ih =>
        intro seen pre f suf h hp hs
        match pre, h with
        | [], h =>
          simp only [List.nil_append, List.cons.injEq] at h
          obtain ⟨rfl, rfl⟩ := h
          simp [firstOcc, hs]
        | p :: pre, h =>
          simp only [List.cons_append, List.cons.injEq] at h
          obtain ⟨rfl, rfl⟩ := h
          have hg : g.name ≠ f.name := hp g (by simp)
          simp only [firstOcc]
          split
          · exact ih seen pre f suf rfl (fun x hx => hp x (by simp [hx])) hs
          · apply List.mem_cons_of_mem
            exact ih _ pre f suf rfl (fun x hx => hp x (by simp [hx])) (by simp [hs, hg.symm])
    intro pre f suf h hp
    exact this [] pre f suf h hp (by simp)

/-- No file is written twice and no file gets two entries. -/
theorem C04_written_once (o : Options) (req : Bool) (fs : List SourceFile) :
    ((runTool o req fs).written.map (·.1)).Nodup ∧
    ((runTool o req fs).info.map (·.filename)).Nodup := by
  have := foldl_inv o req (fun st => (∀ x ∈ st.written, x.1 ∈ st.processed) ∧
      (∀ x ∈ st.info, x.filename ∈ st.processed) ∧
      (st.written.map (·.1)).Nodup ∧ (st.info.map (·.filename)).Nodup) (by
    rintro st f ⟨h1, h2, h3, h4⟩ hm
    rw [processFile_new _ _ _ _ hm]
    refine ⟨?_, ?_, ?_, ?_⟩
    · intro x hx
      simp only [List.mem_append] at hx ⊢
      rcases hx with hx | hx
      · exact Or.inl (h1 x hx)
      · split at hx <;> simp_all
    · intro x hx
      simp only [List.mem_append] at hx ⊢
      rcases hx with hx | hx
      · exact Or.inl (h2 x hx)
      · split at hx <;> simp_all
    · simp only [List.map_append]
      rw [List.nodup_append]
      refine ⟨h3, by split <;> simp, ?_⟩
      intro a ha b hb hab
      subst hab
      obtain ⟨x, hx, rfl⟩ := List.mem_map.mp ha
      split at hb
      · simp at hb; exact hm (hb ▸ h1 x hx)
      · simp at hb
    · simp only [List.map_append]
      rw [List.nodup_append]
      refine ⟨h4, by split <;> simp, ?_⟩
      intro a ha b hb hab
      subst hab
      obtain ⟨x, hx, rfl⟩ := List.mem_map.mp ha
      split at hb
      · simp at hb; exact hm (hb ▸ h2 x hx)
      · simp at hb) fs {} (by simp)
  exact this.2.2

/-- A run with a repetition. -/
example : (firstOcc [] Sample.run).length = 4 ∧ Sample.run.length = 5 := by decide +kernel

end Dredd
