/-
C74: the command line options.
-/
import Verif.Model.Flags
import Verif.Proofs.Comments
import Verif.Props.C03
import Verif.Props.C58
import Verif.Props.C70

namespace Dredd

/-- Whether anything failed, for two sets of options. -/
theorem anyError_same (o o' : Options) (req req' : Bool) (fs : List SourceFile) :
    (runTool o req fs).anyError = (runTool o' req' fs).anyError ∧
    (runTool o req fs).failed = (runTool o' req' fs).failed := by
  obtain ⟨h1, h2, -⟩ := foldl_rel o o' req req'
    (fun s s' => s.anyError = s'.anyError ∧ s.failed = s'.failed ∧ s.processed = s'.processed)
    (fun s s' h => h.2.2)
    (by
      rintro s s' f ⟨h1, h2, h3⟩ hm hm'
      rw [processFile_new _ _ _ _ hm, processFile_new _ _ _ _ hm']
      simp only [h1, h2, h3, and_self])
    fs {} {} ⟨rfl, rfl, rfl⟩
  exact ⟨h1, h2⟩

/-- The result of `mainRun` in terms of the run. -/
theorem mainRun_congr (asserts canWrite : Bool) (o o' : Options) (req req' : Bool) (is : List Input) :
    (mainRun asserts o req canWrite is).exit = (mainRun asserts o' req' canWrite is).exit ∧
    (mainRun asserts o req canWrite is).listed = (mainRun asserts o' req' canWrite is).listed ∧
    (mainRun asserts o req canWrite is).written = (runTool o req (Input.files is)).written := by
  obtain ⟨h1, h2⟩ := anyError_same o o' req req' (Input.files is)
  have hc : toolCode (runTool o req (Input.files is)) is = toolCode (runTool o' req' (Input.files is)) is := by
    simp only [toolCode, h1]
  refine ⟨?_, ?_, ?_⟩
  · simp only [mainRun, h1, h2, hc]
    repeat' split
    all_goals rfl
  · simp only [mainRun, h1, h2, hc]
    repeat' split
    all_goals rfl
  · simp only [mainRun]
    repeat' split
    all_goals rfl

/-- C74: `--only-track-mutant-coverage`, `--dump-asts`, `--show-ast-node-types` and the name of the
information file make no difference to the exit status, to the files listed as not mutated, to the names
of the files that are overwritten, and to the mutation information. -/
theorem C74_same (asserts canWrite : Bool) (fl fl' : Flags) (is : List Input)
    (h : fl.noMutationOpts = fl'.noMutationOpts) (hi : fl.infoFile = [] ↔ fl'.infoFile = []) :
    let a := mainFlags asserts canWrite fl is
    let b := mainFlags asserts canWrite fl' is
    a.exit = b.exit ∧ a.listed = b.listed ∧ a.info = b.info ∧ a.written.map (·.1) = b.written.map (·.1) := by
  have hq : fl.infoFile.isEmpty = fl'.infoFile.isEmpty := by
    rw [Bool.eq_iff_iff, List.isEmpty_iff, List.isEmpty_iff]
    exact hi
  have ho : fl.options.optimise = fl'.options.optimise := by simp [Flags.options, h]
  have h1 := mainRun_congr asserts canWrite fl.options fl'.options (!fl.infoFile.isEmpty)
    (!fl'.infoFile.isEmpty) is
  have h2 := mainRun_congr asserts canWrite fl'.options fl.options (!fl'.infoFile.isEmpty)
    (!fl.infoFile.isEmpty) is
  have h3 := C03_same_info fl.options fl'.options ho (!fl.infoFile.isEmpty) (Input.files is)
  have h4 := anyError_same fl.options fl'.options (!fl.infoFile.isEmpty) (!fl.infoFile.isEmpty)
    (Input.files is)
  refine ⟨h1.1, h1.2.1, ?_, ?_⟩
  · simp only [mainFlags, mainRun, toolCode, h4.1, h4.2, h3.1, ← hq]
    repeat' split
    all_goals rfl
  · simp only [mainFlags]
    rw [h1.2.2, h2.2.2, ← hq]
    exact h3.2.2.2.2

/-- C74: `--dump-asts` makes no difference to anything but what is printed. -/
theorem C74_dump (asserts canWrite : Bool) (fl : Flags) (b : Bool) (is : List Input) :
    mainFlags asserts canWrite { fl with dumpAsts := b } is = mainFlags asserts canWrite fl is := by
  have key : runTool { fl.options with dumpAsts := b } (!fl.infoFile.isEmpty) (Input.files is) =
      runTool fl.options (!fl.infoFile.isEmpty) (Input.files is) := by
    apply foldl_rel _ _ _ _ Eq (fun s s' h => by rw [h])
    · rintro s _ f rfl hm -
      rw [processFile_new _ _ _ _ hm, processFile_new _ _ _ _ hm]
      have hd : ∀ id ms, declsFrom f.lang { fl.options with dumpAsts := b } s.nextId id ms =
          declsFrom f.lang fl.options s.nextId id ms := by
        intro id ms
        induction ms generalizing id with
        | nil => rfl
        | cons m ms ih =>
          simp only [declsFrom, ih]
          rfl
      have he : ∀ id ms, editsFrom f.lang { fl.options with dumpAsts := b } s.nextId id ms =
          editsFrom f.lang fl.options s.nextId id ms := by
        intro id ms
        induction ms generalizing id with
        | nil => rfl
        | cons m ms ih =>
          simp only [editsFrom, ih]
          rfl
      have : fileEdits { fl.options with dumpAsts := b } s.nextId f = fileEdits fl.options s.nextId f := by
        unfold fileEdits
        rw [hd, he]
        rfl
      rw [this]
    · rfl
  show mainRun asserts { fl.options with dumpAsts := b } _ _ _ = _
  unfold mainFlags mainRun
  rw [key]

/-- C74: without `--mutation-info-file` there is no mutation information; nothing else is different. -/
theorem C74_info_file (asserts canWrite : Bool) (fl : Flags) (name : Text) (is : List Input) :
    let a := mainFlags asserts canWrite { fl with infoFile := [] } is
    let b := mainFlags asserts canWrite { fl with infoFile := name } is
    a.info = none ∧ a.exit = b.exit ∧ a.listed = b.listed ∧ a.written = b.written := by
  have h1 := mainRun_congr asserts canWrite fl.options fl.options false (!name.isEmpty) is
  have h2 := mainRun_congr asserts canWrite fl.options fl.options (!name.isEmpty) false is
  refine ⟨?_, h1.1, h1.2.1, ?_⟩
  · show (mainRun asserts fl.options false canWrite is).info = none
    unfold mainRun
    simp only [Bool.false_and, Bool.false_eq_true, if_false]
    repeat' split
    all_goals rfl
  · show (mainRun asserts fl.options false canWrite is).written =
      (mainRun asserts fl.options (!name.isEmpty) canWrite is).written
    rw [h1.2.2, h2.2.2]
    obtain ⟨h, -⟩ := foldl_rel fl.options fl.options false (!name.isEmpty)
      (fun s s' => s.written = s'.written ∧ s.nextId = s'.nextId ∧ s.processed = s'.processed)
      (fun s s' h => h.2.2)
      (by
        rintro s s' f ⟨h1, h2, h3⟩ hm hm'
        rw [processFile_new _ _ _ _ hm, processFile_new _ _ _ _ hm']
        simp only [h1, h2, h3, true_and])
      (Input.files is) {} {} ⟨rfl, rfl, rfl⟩
    exact h

/-- Two runs that differ in comments: file by file. -/
theorem runTool_shown (o : Options) (req : Bool) (R : SourceFile → Text → Text → Prop)
    (fs : List SourceFile) (ho : o.showAst = false)
    (h : ∀ f ∈ fs, ∀ first, R f (rewrite f.src (fileEdits o first f))
      (rewrite f.src (fileEdits o.shown first f))) :
    Each (fun a b => a.1 = b.1 ∧ ∃ f ∈ fs, R f a.2 b.2) (runTool o req fs).written
      (runTool o.shown req fs).written := by
  have key : ∀ (gs : List SourceFile), (∀ f ∈ gs, f ∈ fs) → ∀ s s' : RunState,
      s.nextId = s'.nextId → s.processed = s'.processed →
      Each (fun a b => a.1 = b.1 ∧ ∃ f ∈ fs, R f a.2 b.2) s.written s'.written →
      Each (fun a b => a.1 = b.1 ∧ ∃ f ∈ fs, R f a.2 b.2) (gs.foldl (processFile o req) s).written
        (gs.foldl (processFile o.shown req) s').written := by
    intro gs hgs
    induction gs with
    | nil => intro s s' _ _ h; exact h
    | cons f gs ih =>
      intro s s' h1 h2 h3
      rw [List.foldl_cons, List.foldl_cons]
      by_cases hm : f.name ∈ s.processed
      · rw [processFile_skip _ _ _ _ hm, processFile_skip _ _ _ _ (h2 ▸ hm)]
        exact ih (fun g hg => hgs g (by simp [hg])) s s' h1 h2 h3
      · refine ih (fun g hg => hgs g (by simp [hg])) _ _ ?_ ?_ ?_ <;>
          rw [processFile_new _ _ _ _ hm, processFile_new _ _ _ _ (h2 ▸ hm)]
        · simp only [h1]
          rfl
        · simp only [h2]
        · dsimp only
          refine h3.append ?_
          rw [show o.shown.optimise = o.optimise from rfl]
          split
          · exact .cons ⟨rfl, f, hgs f (by simp), h1 ▸ h f (hgs f (by simp)) s.nextId⟩ .nil
          · exact .nil
  exact key fs (fun _ h => h) {} {} rfl rfl .nil

/-- C74: `--show-ast-node-types` only adds comments to the files that are written.  Names of nodes of the
syntax tree contain no star. -/
theorem C74_comments (asserts canWrite : Bool) (fl : Flags) (is : List Input)
    (hN : ∀ f ∈ Input.parsed is, ∀ m ∈ f.tree.post, '*' ∉ m.node) :
    Each (fun a b => a.1 = b.1 ∧ CommentsAdded a.2 b.2)
      (mainFlags asserts canWrite { fl with showAst := false } is).written
      (mainFlags asserts canWrite { fl with showAst := true } is).written := by
  have h := fun o => (mainRun_congr asserts canWrite o o (!fl.infoFile.isEmpty) (!fl.infoFile.isEmpty) is).2.2
  simp only [mainFlags, h, Input.files_eq]
  refine (runTool_shown { fl with showAst := false }.options _ (fun _ => CommentsAdded) _ rfl ?_).imp ?_
  · intro f hf first
    exact (fileEdits_shown _ first f rfl fun _ => hN f hf).rewrite_added f.src
  · rintro a b ⟨h1, f, -, h2⟩
    exact ⟨h1, h2⟩

/-- C74: `--show-ast-node-types` leaves the tokens of the files that are written as they are, if what is
mutated is made of tokens (as for C58). -/
theorem C74_tokens (asserts canWrite : Bool) (fl : Flags) (is : List Input)
    (hN : ∀ f ∈ Input.parsed is, ∀ m ∈ f.tree.post, '*' ∉ m.node)
    (hT : ∀ f ∈ Input.parsed is, Tokenised f) :
    Each (fun a b => a.1 = b.1 ∧ tokens a.2 = tokens b.2)
      (mainFlags asserts canWrite { fl with showAst := false } is).written
      (mainFlags asserts canWrite { fl with showAst := true } is).written := by
  have h := fun o => (mainRun_congr asserts canWrite o o (!fl.infoFile.isEmpty) (!fl.infoFile.isEmpty) is).2.2
  simp only [mainFlags, h, Input.files_eq]
  refine (runTool_shown { fl with showAst := false }.options _ (fun _ a b => tokens a = tokens b) _ rfl
    ?_).imp ?_
  · intro f hf first
    exact (rewrite_tokens _ first f rfl (fun _ => hN f hf) (hT f hf)).symm
  · rintro a b ⟨h1, f, -, h2⟩
    exact ⟨h1, h2⟩

/-- The hypotheses hold for a file with five mutations, and there is a difference. -/
example :
    let is := [Input.file Sample.lexFile]
    (∀ f ∈ Input.parsed is, ∀ m ∈ f.tree.post, '*' ∉ m.node) ∧ (∀ f ∈ Input.parsed is, Tokenised f) ∧
    (mainFlags true true { } is).written ≠ (mainFlags true true { showAst := true } is).written ∧
    (mainFlags true true { infoFile := t!"a.json" } is).info.isSome = true := by
  refine ⟨?_, ?_, by decide +kernel, by decide +kernel⟩
  · intro f hf
    simp [Input.parsed] at hf
    subst hf
    decide +kernel
  · intro f hf
    simp [Input.parsed] at hf
    subst hf
    exact Sample.lexFile_tokenised

end Dredd
