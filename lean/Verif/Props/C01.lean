/-
C01: mutant ids are exactly 0..N-1, each used once.
-/
import Verif.Proofs.Run
import Verif.Spec.Samples

namespace Dredd

/-- What a file entry lists is unambiguous: a flat list of nodes encodes at most
one tree of groups. -/
theorem C01_entry_unambiguous (nodes : List PNode) (t u : MTree Group)
    (ht : Encodes nodes 0 t) (hu : Encodes nodes 0 u) : t = u :=
  Encodes_unique nodes 0 t u ht hu

/-- Every entry encodes a tree of groups, and the ids of all these trees, file
after file and in order of application, are `0, 1, …, N-1`, where `N` is the
final value of the id counter. -/
theorem C01_ids_are_range (o : Options) (fs : List SourceFile) :
    ∃ trees : List (MTree Group),
      EncodedAs (runTool o true fs).info trees ∧
      trees.flatMap treeIds = List.range (runTool o true fs).nextId := by
  apply foldl_inv o true (fun st => ∃ trees : List (MTree Group),
      EncodedAs st.info trees ∧
      trees.flatMap treeIds = List.range st.nextId)
  · rintro st f ⟨trees, h1, h2⟩ hm
    rw [processFile_new _ _ _ _ hm]
    by_cases h0 : fileCount o.optimise f = 0
    · exact ⟨trees, by simpa [h0] using h1, by simpa [h0] using h2⟩
    · have he : f.hasErrors = false := by
        cases h : f.hasErrors
        · rfl
        · simp [fileCount, h] at h0
      refine ⟨trees ++ [fileTree o.optimise st.nextId f], ?_, ?_⟩
      · simp only [h0, ne_eq, not_false_eq_true, and_self, if_true]
        exact h1.append ⟨flat_encodes_zero _, trivial⟩
      · rw [List.flatMap_append, h2]
        simp only [List.flatMap_cons, List.flatMap_nil, List.append_nil, fileTree_ids _ _ _ he]
        rw [List.range_eq_range', List.range_eq_range']
        have := List.range'_append_1 (s := 0) (m := st.nextId) (n := fileCount o.optimise f)
        simpa using this
  · exact ⟨[], trivial, rfl⟩

/-- The same without reference to trees: collecting the ids of all groups of all
nodes of all entries gives a permutation of `0, 1, …, N-1`; no id is missing and
none occurs twice. -/
theorem C01_flat_ids_perm (o : Options) (fs : List SourceFile) :
    (((runTool o true fs).info.flatMap (·.nodes)).flatMap
      (fun n => n.groups.flatMap Group.ids)).Perm (List.range (runTool o true fs).nextId) := by
  apply foldl_inv o true (fun st => ((st.info.flatMap (·.nodes)).flatMap
      (fun n => n.groups.flatMap Group.ids)).Perm (List.range st.nextId))
  · intro st f h hm
    rw [processFile_new _ _ _ _ hm]
    by_cases h0 : fileCount o.optimise f = 0
    · simpa [h0] using h
    · have he : f.hasErrors = false := by
        cases h : f.hasErrors
        · rfl
        · simp [fileCount, h] at h0
      simp only [h0, ne_eq, not_false_eq_true, and_self, if_true, List.flatMap_append]
      have hr : List.range (st.nextId + fileCount o.optimise f)
          = List.range st.nextId ++ List.range' st.nextId (fileCount o.optimise f) := by
        rw [List.range_eq_range', List.range_eq_range']
        have := List.range'_append_1 (s := 0) (m := st.nextId) (n := fileCount o.optimise f)
        simpa using this.symm
      rw [hr]
      refine h.append ?_
      rw [← fileTree_ids _ _ _ he]
      simp only [List.flatMap_cons, List.flatMap_nil, List.append_nil]
      exact flat_ids_perm _ _
  · exact .refl _

/-- A run over five inputs (two mutated files, one with errors, one without
mutation opportunities, one repeated) with 50 mutants. -/
example : (runTool Sample.opts true Sample.run).nextId = 50 ∧
    (runTool Sample.opts true Sample.run).info.length = 2 := by decide +kernel

end Dredd
