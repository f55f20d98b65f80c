/-
C44: an interrupted run leaves every file either original or completely
mutated.
-/
import Verif.Props.C01
import Verif.Spec.Samples

namespace Dredd

/-- Files on disk: the last text written, or the original. -/
def onDisk (orig : Text → Text) (st : RunState) (name : Text) : Text :=
  match st.written.find? (fun w => w.1 == name) with
  | some w => w.2
  | none => orig name

/-- Stopping after the first `k` inputs: every file is either as in the complete
run or untouched, and files that are not among the first `k` inputs are
untouched. -/
theorem C44_all_or_nothing (o : Options) (req : Bool) (fs : List SourceFile) (k : Nat)
    (orig : Text → Text) (name : Text) :
    let part := runTool o req (fs.take k)
    let full := runTool o req fs
    (onDisk orig part name = onDisk orig full name ∨
      onDisk orig part name = orig name) ∧
    (name ∉ (fs.take k).map (·.name) → onDisk orig part name = orig name) ∧
    (name ∈ (fs.take k).map (·.name) → onDisk orig part name = onDisk orig full name) := by
  intro part full
  have hfull : full = (fs.drop k).foldl (processFile o req) part := by
    simp only [full, part]
    rw [← runTool_append, List.take_append_drop]
  have hpre : part.written <+: full.written := by
    rw [hfull]; exact foldl_written_prefix o req _ _
  have hproc : ∀ w ∈ part.written, w.1 ∈ part.processed :=
    foldl_inv o req (fun st => ∀ w ∈ st.written, w.1 ∈ st.processed) (by
      intro st g h1 hg
      rw [processFile_new _ _ _ _ hg]
      intro x hx
      simp only [List.mem_append] at hx ⊢
      rcases hx with hx | hx
      · exact Or.inl (h1 x hx)
      · split at hx <;> simp_all) (fs.take k) {} (by simp)
  have hlate : ∀ x ∈ part.processed, ∃ t, full.written = part.written ++ t ∧ ∀ w ∈ t, w.1 ≠ x := by
    intro x hx
    rw [hfull]
    have := foldl_inv o req (fun st => x ∈ st.processed ∧
      ∃ t, st.written = part.written ++ t ∧ ∀ w ∈ t, w.1 ≠ x) (by
        rintro st g ⟨h1, t, h2, h3⟩ hg
        rw [processFile_new _ _ _ _ hg]
        refine ⟨by simp [h1], _, by simp only; rw [h2, List.append_assoc], ?_⟩
        intro w hw
        simp only [List.mem_append] at hw
        rcases hw with hw | hw
        · exact h3 w hw
        · split at hw
          · simp only [List.mem_singleton] at hw
            subst hw
            intro e; simp only at e; exact hg (e ▸ h1)
          · simp at hw) (fs.drop k) part ⟨hx, [], by simp, by simp⟩
    exact this.2
  have hthird : name ∈ (fs.take k).map (·.name) → onDisk orig part name = onDisk orig full name := by
    intro hn
    have : name ∈ part.processed := (runTool_processed o req _ name).mpr hn
    obtain ⟨t, ht, hne⟩ := hlate name this
    unfold onDisk
    rw [ht, List.find?_append]
    cases hf : part.written.find? (fun w => w.1 == name) with
    | some w => simp
    | none =>
      have : t.find? (fun w => w.1 == name) = none := by
        rw [List.find?_eq_none]
        intro w hw; simp [hne w hw]
      simp [this]
  have hsecond : name ∉ (fs.take k).map (·.name) → onDisk orig part name = orig name := by
    intro hn
    have hn' : name ∉ part.processed := fun h => hn ((runTool_processed o req _ name).mp h)
    unfold onDisk
    have : part.written.find? (fun w => w.1 == name) = none := by
      rw [List.find?_eq_none]
      intro w hw
      have := hproc w hw
      simp only [beq_iff_eq]
      intro e; exact hn' (e ▸ this)
    rw [this]
  refine ⟨?_, hsecond, hthird⟩
  by_cases hn : name ∈ (fs.take k).map (·.name)
  · exact Or.inl (hthird hn)
  · exact Or.inr (hsecond hn)

/-- The ids used so far are consistent: those of the completed files are
`0, …, N'-1` where `N'` is the counter at the interruption, and they are the ids
these files have in the complete run. -/
theorem C44_ids_consistent (o : Options) (fs : List SourceFile) (k : Nat) :
    (∃ trees, EncodedAs (runTool o true (fs.take k)).info trees ∧
      trees.flatMap treeIds = List.range (runTool o true (fs.take k)).nextId) ∧
    (runTool o true (fs.take k)).info <+: (runTool o true fs).info ∧
    (runTool o true (fs.take k)).written <+: (runTool o true fs).written := by
  refine ⟨C01_ids_are_range o _, ?_, ?_⟩
  · have : runTool o true fs = (fs.drop k).foldl (processFile o true) (runTool o true (fs.take k)) := by
      rw [← runTool_append, List.take_append_drop]
    rw [this]; exact foldl_info_prefix _ _ _ _
  · have : runTool o true fs = (fs.drop k).foldl (processFile o true) (runTool o true (fs.take k)) := by
      rw [← runTool_append, List.take_append_drop]
    rw [this]; exact foldl_written_prefix _ _ _ _

/-- Interrupting the sample run after two inputs: one file is mutated, the other
not yet. -/
example : (runTool Sample.opts true (Sample.run.take 2)).written.length = 1 ∧
    (runTool Sample.opts true Sample.run).written.length = 2 := by decide +kernel

end Dredd
