/-
C03: a tracking build and a mutating build of the same code use the same ids.
-/
import Verif.Proofs.Run
import Verif.Spec.Samples

namespace Dredd

/-- Options that agree on optimisation lead to the same mutation information,
the same number of mutants, the same set of written files and the same
failures. -/
theorem C03_same_info (o o' : Options) (h : o.optimise = o'.optimise) (req : Bool)
    (fs : List SourceFile) :
    let a := runTool o req fs
    let b := runTool o' req fs
    a.info = b.info ∧ a.nextId = b.nextId ∧ a.failed = b.failed ∧ exitCode a = exitCode b ∧
    a.written.map (·.1) = b.written.map (·.1) := by
  intro a b
  have hR := foldl_rel o o' req req
    (fun s s' => s.info = s'.info ∧ s.nextId = s'.nextId ∧ s.failed = s'.failed ∧
      s.anyError = s'.anyError ∧ s.processed = s'.processed ∧
      s.written.map (·.1) = s'.written.map (·.1))
    (fun s s' h => h.2.2.2.2.1)
    (by
      rintro s s' f ⟨h1, h2, h3, h4, h5, h6⟩ hm hm'
      rw [processFile_new _ _ _ _ hm, processFile_new _ _ _ _ hm']
      simp only [h, h1, h2, h3, h4, h5, List.map_append, h6, true_and]
      split <;> simp)
    fs {} {} ⟨rfl, rfl, rfl, rfl, rfl, rfl⟩
  obtain ⟨h1, h2, h3, h4, h5, h6⟩ := hR
  refine ⟨h1, h2, h3, ?_, h6⟩
  simp only [exitCode]
  have h4' : a.anyError = b.anyError := h4
  rw [h4']

/-- Point by point: for a file that is mutated, the two outputs are obtained from
the same list of instrumented points; at every point one local id is written,
the same in both, and the same group is reported. -/
theorem C03_same_points (o o' : Options) (h : o.optimise = o'.optimise)
    (pre suf : List SourceFile) (f : SourceFile)
    (hnew : ∀ g ∈ pre, g.name ≠ f.name)
    (hmut : (runTool o true (pre ++ [f])).nextId ≠ (runTool o true pre).nextId) :
    ∃ (i first : Nat) (edits edits' rest rest' : List Edit) (pts : List (Nat × Mutation)),
      (runTool o true (pre ++ f :: suf)).written[i]? = some (f.name, rewrite f.src edits) ∧
      (runTool o' true (pre ++ f :: suf)).written[i]? = some (f.name, rewrite f.src edits') ∧
      edits = pts.flatMap (fun p => (p.2.apply f.lang o first p.1).edits) ++ rest ∧
      edits' = pts.flatMap (fun p => (p.2.apply f.lang o' first p.1).edits) ++ rest' ∧
      (∀ e ∈ rest ++ rest', e.ids = []) ∧
      pts.map (·.2) = f.tree.post ∧
      ∀ p ∈ pts, ∃ k,
        let a := p.2.apply f.lang o first p.1
        let b := p.2.apply f.lang o' first p.1
        a.group = b.group ∧ a.nextId = b.nextId ∧
        a.localIds ≠ [] ∧ b.localIds ≠ [] ∧
        (∀ j ∈ a.localIds, j = k) ∧ (∀ j ∈ b.localIds, j = k) := by
  have hs := C03_same_info o o' h true pre
  have hs2 := C03_same_info o o' h true (pre ++ [f])
  have hnew1 : f.name ∉ (runTool o true pre).processed := by
    rw [runTool_processed]
    intro h
    obtain ⟨g, hg, he⟩ := List.mem_map.mp h
    exact hnew g hg he
  have hnew2 : f.name ∉ (runTool o' true pre).processed := by
    rw [runTool_processed]
    intro h
    obtain ⟨g, hg, he⟩ := List.mem_map.mp h
    exact hnew g hg he
  have h1 : runTool o true (pre ++ [f]) = processFile o true (runTool o true pre) f := by
    simp [runTool_append]
  rw [processFile_new _ _ _ _ hnew1] at h1
  have h0 : fileCount o.optimise f ≠ 0 := by
    intro h0; apply hmut; rw [h1]; simp [h0]
  have hlen : (runTool o' true pre).written.length = (runTool o true pre).written.length := by
    have := congrArg List.length hs.2.2.2.2
    simpa using this.symm
  have hid : (runTool o' true pre).nextId = (runTool o true pre).nextId := hs.2.1.symm
  refine ⟨(runTool o true pre).written.length, (runTool o true pre).nextId,
    fileEdits o (runTool o true pre).nextId f, fileEdits o' (runTool o true pre).nextId f,
    (fileEdits o (runTool o true pre).nextId f).drop (editsFrom f.lang o
      (runTool o true pre).nextId (runTool o true pre).nextId f.tree.post).length,
    (fileEdits o' (runTool o true pre).nextId f).drop (editsFrom f.lang o'
      (runTool o true pre).nextId (runTool o true pre).nextId f.tree.post).length,
    numbered f.lang o.optimise (runTool o true pre).nextId f.tree.post, ?_, ?_, ?_, ?_, ?_,
    numbered_snd _ _ _ _, ?_⟩
  · have hp := foldl_written_prefix o true suf (processFile o true (runTool o true pre) f)
    rw [← List.foldl_cons, ← runTool_append, processFile_new _ _ _ _ hnew1] at hp
    simp only [h0, ne_eq, not_false_eq_true, if_true] at hp
    obtain ⟨t, ht⟩ := hp
    rw [← ht]
    simp
  · have hp := foldl_written_prefix o' true suf (processFile o' true (runTool o' true pre) f)
    rw [← List.foldl_cons, ← runTool_append, processFile_new _ _ _ _ hnew2] at hp
    simp only [h ▸ h0, ne_eq, not_false_eq_true, if_true] at hp
    obtain ⟨t, ht⟩ := hp
    rw [← ht]
    simp [← hlen, hid]
  · rw [← editsFrom_numbered]
    simp [fileEdits, finishEdits]
  · rw [h, ← editsFrom_numbered]
    simp [fileEdits, finishEdits]
  · intro e he
    simp only [fileEdits, finishEdits, List.append_assoc, List.drop_left] at he
    simp only [List.mem_append, List.mem_map, List.mem_singleton] at he
    rcases he with ⟨_, _, rfl⟩ | ⟨_, _, rfl⟩ | rfl | ⟨_, _, rfl⟩ | ⟨_, _, rfl⟩ | rfl <;>
      simp [Edit.ids]
  · intro p hp
    have hl := apply_localIds f.lang o (runTool o true pre).nextId p.1 p.2
    have hl' := apply_localIds f.lang o' (runTool o true pre).nextId p.1 p.2
    refine ⟨p.1 - (runTool o true pre).nextId, ?_, ?_, hl.1, hl'.1, hl.2, hl'.2⟩
    · rw [Mutation.apply_group, Mutation.apply_group, h]
    · rw [Mutation.apply_nextId, Mutation.apply_nextId, h]

/-- A mutating and a tracking build; the outputs differ although the ids do
not. -/
example : Sample.opts.optimise = Sample.track.optimise ∧ Sample.opts ≠ Sample.track ∧
    (runTool Sample.opts true Sample.run).info ≠ [] := by decide +kernel

end Dredd
