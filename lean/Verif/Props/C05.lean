/-
C05: files with compile errors (and files without mutation opportunities) are
left alone and do not disturb the others.
-/
import Verif.Proofs.Run
import Verif.Spec.Samples

namespace Dredd

/-- The file has errors, or no mutation found in it yields any mutant. -/
def NothingToMutate (o : Options) (f : SourceFile) : Prop :=
  f.hasErrors = true ∨ ∀ m ∈ f.tree.post, ∀ first id, (m.apply f.lang o first id).group.ids = []

theorem fileCount_zero_of_nothing (o f) (h : NothingToMutate o f) :
    fileCount o.optimise f = 0 := by
  rcases h with h | h
  · simp [fileCount, h]
  · unfold fileCount
    split
    · rfl
    · generalize f.tree.post = ms at h
      induction ms with
      | nil => rfl
      | cons m ms ih =>
        have h1 := h m (by simp) 0 0
        rw [apply_ids] at h1
        have h2 := ih (fun m hm => h m (by simp [hm]))
        simp only [countAll_cons, h2]
        have := congrArg List.length h1
        simpa using this

/-- Deleting the file from the list (with its later repetitions, which the tool
skips) changes neither ids nor mutation information nor written files. -/
theorem C05_others_undisturbed (o : Options) (req : Bool) (pre suf : List SourceFile)
    (f : SourceFile) (h : NothingToMutate o f) :
    let a := runTool o req (pre ++ f :: suf)
    let b := runTool o req (pre ++ suf.filter (fun g => g.name ≠ f.name))
    a.nextId = b.nextId ∧ a.info = b.info ∧ a.written = b.written := by
  have h0 := fileCount_zero_of_nothing o f h
  have key : ∀ (suf : List SourceFile) (s s' : RunState), s.nextId = s'.nextId → s.info = s'.info →
      s.written = s'.written → (∀ x, x ∈ s.processed ↔ x ∈ s'.processed ∨ x = f.name) →
      let a := suf.foldl (processFile o req) s
      let b := (suf.filter (fun g => g.name ≠ f.name)).foldl (processFile o req) s'
      a.nextId = b.nextId ∧ a.info = b.info ∧ a.written = b.written := by
    intro suf
    induction suf with
    | nil => intro s s' h1 h2 h3 _; exact ⟨h1, h2, h3⟩
    | cons g suf ih =>
      intro s s' h1 h2 h3 h4
      by_cases hg : g.name = f.name
      · have hm : g.name ∈ s.processed := (h4 _).mpr (Or.inr hg)
        simp only [List.foldl_cons, processFile_skip _ _ _ _ hm, List.filter_cons, hg, ne_eq,
          not_true_eq_false, decide_false, Bool.false_eq_true, if_false]
        exact ih s s' h1 h2 h3 h4
      · simp only [List.foldl_cons, List.filter_cons, hg, ne_eq, not_false_eq_true, decide_true,
          if_true]
        apply ih
        all_goals by_cases hm : g.name ∈ s'.processed
        all_goals first
          | (rw [processFile_skip _ _ _ _ hm, processFile_skip o req s g ((h4 _).mpr (Or.inl hm))]
             assumption)
          | (have hm' : g.name ∉ s.processed := by
               rw [h4]; simp [hm, hg]
             rw [processFile_new _ _ _ _ hm, processFile_new _ _ _ _ hm']
             simp [h1, h2, h3, h4]
             try grind)
  intro a b
  have ha : a = suf.foldl (processFile o req) (processFile o req (runTool o req pre) f) := by
    simp [a, runTool_append]
  have hb : b = (suf.filter (fun g => g.name ≠ f.name)).foldl (processFile o req)
      (runTool o req pre) := by
    simp [b, runTool_append]
  rw [ha, hb]
  apply key
  all_goals by_cases hm : f.name ∈ (runTool o req pre).processed
  all_goals first
    | (rw [processFile_skip _ _ _ _ hm]; done)
    | (rw [processFile_new _ _ _ _ hm]; simp [h0]; done)
    | skip
  · intro x; rw [processFile_skip _ _ _ _ hm]; grind

/-- The file itself is not written, gets no entry and consumes no ids. -/
theorem C05_left_alone (o : Options) (req : Bool) (pre suf : List SourceFile) (f : SourceFile)
    (hnew : ∀ g ∈ pre, g.name ≠ f.name) (h : NothingToMutate o f) :
    (∀ w ∈ (runTool o req (pre ++ f :: suf)).written, w.1 ≠ f.name) ∧
    (∀ e ∈ (runTool o req (pre ++ f :: suf)).info, e.filename ≠ f.name) ∧
    (runTool o req (pre ++ [f])).nextId = (runTool o req pre).nextId := by
  have h0 := fileCount_zero_of_nothing o f h
  have hm : f.name ∉ (runTool o req pre).processed := by
    rw [runTool_processed]
    intro h
    obtain ⟨g, hg, he⟩ := List.mem_map.mp h
    exact hnew g hg he
  have hpre := foldl_inv o req (fun st => (∀ w ∈ st.written, w.1 ∈ st.processed) ∧
      (∀ e ∈ st.info, e.filename ∈ st.processed)) (by
    rintro st g ⟨h1, h2⟩ hg
    rw [processFile_new _ _ _ _ hg]
    constructor
    · intro x hx
      simp only [List.mem_append] at hx ⊢
      rcases hx with hx | hx
      · exact Or.inl (h1 x hx)
      · split at hx <;> simp_all
    · intro x hx
      simp only [List.mem_append] at hx ⊢
      rcases hx with hx | hx
      · exact Or.inl (h2 x hx)
      · split at hx <;> simp_all) pre {} (by simp)
  have hall := foldl_inv o req (fun st => f.name ∈ st.processed ∧
      (∀ w ∈ st.written, w.1 ≠ f.name) ∧ (∀ e ∈ st.info, e.filename ≠ f.name)) (by
    rintro st g ⟨h0, h1, h2⟩ hg
    have hne : g.name ≠ f.name := fun e => hg (e ▸ h0)
    rw [processFile_new _ _ _ _ hg]
    refine ⟨by simp [h0], ?_, ?_⟩
    · intro x hx
      simp only [List.mem_append] at hx
      rcases hx with hx | hx
      · exact h1 x hx
      · split at hx
        · simp at hx; subst hx; exact hne
        · simp at hx
    · intro x hx
      simp only [List.mem_append] at hx
      rcases hx with hx | hx
      · exact h2 x hx
      · split at hx
        · simp at hx; subst hx; exact hne
        · simp at hx) suf (processFile o req (runTool o req pre) f) (by
      rw [processFile_new _ _ _ _ hm]
      refine ⟨by simp, ?_, ?_⟩
      · intro x hx
        simp only [h0, ne_eq, not_true_eq_false, if_false, List.append_nil] at hx
        intro he
        exact hm (he ▸ hpre.1 x hx)
      · intro x hx
        simp only [h0, ne_eq, not_true_eq_false, and_false, if_false, List.append_nil] at hx
        intro he
        exact hm (he ▸ hpre.2 x hx))
  rw [← List.foldl_cons, ← runTool_append] at hall
  refine ⟨hall.2.1, hall.2.2, ?_⟩
  have : runTool o req (pre ++ [f]) = processFile o req (runTool o req pre) f := by
    simp [runTool_append]
  rw [this, processFile_new _ _ _ _ hm]
  simp [h0]

/-- Both kinds of file occur in the sample run. -/
example : NothingToMutate Sample.opts Sample.badFile ∧
    NothingToMutate Sample.opts Sample.emptyFile :=
  ⟨Or.inl rfl, Or.inr (by simp [Sample.emptyFile, MTree.post, MTree.postL])⟩

end Dredd
