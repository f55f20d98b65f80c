/-
Closed forms for `handleTU` and `runTool`.  Helper lemmas.
-/
import Verif.Proofs.TreeRun
import Verif.Proofs.Tidy
import Verif.Spec.Run

namespace Dredd

/-- Number of mutants in a file. -/
def fileCount (opt : Bool) (f : SourceFile) : Nat :=
  if f.hasErrors then 0 else countAll f.lang opt f.tree.post

/-- The edits of a file. -/
def fileEdits (o : Options) (first : Nat) (f : SourceFile) : List Edit :=
  finishEdits f o first
    { nextId := first + fileCount o.optimise f, nodes := []
      edits := editsFrom f.lang o first first f.tree.post
      decls := declsFrom f.lang o first first f.tree.post }

/-- The tree of groups of a file. -/
def fileTree (opt : Bool) (first : Nat) (f : SourceFile) : MTree Group :=
  grpTree f.lang opt true first f.tree.tidyUp

theorem handleTU_eq (o req id f) :
    handleTU o req id f =
      if fileCount o.optimise f = 0 then { nextId := id, output := none, info := none }
      else
        { nextId := id + fileCount o.optimise f
          output := some (rewrite f.src (fileEdits o id f))
          info := if req then some ⟨f.name, flat 0 (fileTree o.optimise id f)⟩ else none } := by
  unfold handleTU
  cases he : f.hasErrors
  · have h := applyMutations_eq f.lang o id req f.tree.tidyUp [] { nextId := id, nodes := [{}] } rfl
    simp only [List.length_nil] at h
    simp only [Bool.false_eq_true, if_false, h]
    have hc : fileCount o.optimise f = countAll f.lang o.optimise f.tree.post := by
      simp [fileCount, he]
    simp only [MTree.tidyUp_post, hc]
    by_cases h0 : countAll f.lang o.optimise f.tree.post = 0
    · simp [h0]
    · rw [if_neg (by omega), if_neg h0]
      have he' : fileEdits o id f = finishEdits f o id
          { nextId := id + countAll f.lang o.optimise f.tree.post
            nodes := flat 0 (grpTree f.lang o.optimise req id f.tree.tidyUp)
            edits := editsFrom f.lang o id id f.tree.post
            decls := declsFrom f.lang o id id f.tree.post } := by
        unfold fileEdits finishEdits
        rw [hc]
      rw [he']
      simp only [List.nil_append]
      cases req
      · simp only [Bool.false_eq_true, if_false]
      · simp only [if_true, fileTree]
  · simp [fileCount, he]

mutual
theorem flat_encodes : (t : MTree Group) → (pre suf : List PNode) →
    Encodes (pre ++ flat pre.length t ++ suf) pre.length t
  | .node gs ks, pre, suf => by
    simp only [flat]
    refine ⟨⟨gs, kidIdx (pre.length + 1) ks⟩, by simp, rfl, ?_⟩
    have := flatL_encodes ks (pre ++ [⟨gs, kidIdx (pre.length + 1) ks⟩]) suf
    simpa using this
theorem flatL_encodes : (ts : List (MTree Group)) → (pre suf : List PNode) →
    EncodesL (pre ++ flatL pre.length ts ++ suf) (kidIdx pre.length ts) ts
  | [], pre, suf => by simp [kidIdx, EncodesL]
  | t :: ts, pre, suf => by
    simp only [flatL, kidIdx, EncodesL]
    constructor
    · have := flat_encodes t pre (flatL (pre.length + t.size) ts ++ suf)
      simpa [List.append_assoc] using this
    · have := flatL_encodes ts (pre ++ flat pre.length t) suf
      simpa [flat_length, List.append_assoc] using this
end

theorem flat_encodes_zero (t : MTree Group) : Encodes (flat 0 t) 0 t := by
  simpa using flat_encodes t [] []

mutual
theorem Encodes_unique (nodes : List PNode) : (i : Nat) → (t u : MTree Group) →
    Encodes nodes i t → Encodes nodes i u → t = u
  | i, .node gs ks, .node hs ls, h1, h2 => by
    obtain ⟨n, hn, hg, hk⟩ := h1
    obtain ⟨m, hm, hg', hk'⟩ := h2
    have : n = m := by simpa [hn] using hm
    subst this
    rw [← hg, ← hg']
    rw [EncodesL_unique nodes _ ks ls hk hk']
theorem EncodesL_unique (nodes : List PNode) : (cs : List Nat) → (ts us : List (MTree Group)) →
    EncodesL nodes cs ts → EncodesL nodes cs us → ts = us
  | [], [], [], _, _ => rfl
  | [], [], _ :: _, _, h => by simp [EncodesL] at h
  | [], _ :: _, _, h, _ => by simp [EncodesL] at h
  | _ :: _, [], _, h, _ => by simp [EncodesL] at h
  | _ :: _, _ :: _, [], _, h => by simp [EncodesL] at h
  | c :: cs, t :: ts, u :: us, h1, h2 => by
    rw [Encodes_unique nodes c t u h1.1 h2.1, EncodesL_unique nodes cs ts us h1.2 h2.2]
end

theorem EncodedAs.append : {a : List FileInfo} → {ts : List (MTree Group)} →
    {b : List FileInfo} → {us : List (MTree Group)} →
    EncodedAs a ts → EncodedAs b us → EncodedAs (a ++ b) (ts ++ us)
  | [], [], _, _, _, h => h
  | [], _ :: _, _, _, h, _ => h.elim
  | _ :: _, [], _, _, h, _ => h.elim
  | _ :: _, _ :: _, _, _, h, h' => ⟨h.1, EncodedAs.append h.2 h'⟩

theorem fileTree_ids (opt first f) (h : f.hasErrors = false) :
    treeIds (fileTree opt first f) = List.range' first (fileCount opt f) := by
  simp [treeIds, fileTree, grpTree_post, MTree.tidyUp_post, groupsFrom_ids, fileCount, h]

mutual
theorem flat_ids_perm : (t : MTree Group) → (b : Nat) →
    ((flat b t).flatMap fun n => n.groups.flatMap Group.ids).Perm (treeIds t)
  | .node gs ks, b => by
    have := flatL_ids_perm ks (b + 1)
    simp only [flat, List.flatMap_cons, treeIds, MTree.post, List.flatMap_append]
    exact (List.perm_append_comm).trans (this.append_right _)
theorem flatL_ids_perm : (ts : List (MTree Group)) → (b : Nat) →
    ((flatL b ts).flatMap fun n => n.groups.flatMap Group.ids).Perm
      ((MTree.postL ts).flatMap Group.ids)
  | [], b => by simp [flatL, MTree.postL]
  | t :: ts, b => by
    simp only [flatL, MTree.postL, List.flatMap_append]
    exact (flat_ids_perm t b).append (flatL_ids_perm ts _)
end

/-- Mutations paired with their first ids. -/
def numbered (l : Lang) (opt : Bool) : Nat → List Mutation → List (Nat × Mutation)
  | _, [] => []
  | id, m :: ms => (id, m) :: numbered l opt (id + m.count l opt) ms

theorem numbered_snd (l opt id ms) : (numbered l opt id ms).map (·.2) = ms := by
  induction ms generalizing id with
  | nil => rfl
  | cons m ms ih => simp [numbered, ih]

theorem editsFrom_numbered (l o first id ms) :
    editsFrom l o first id ms
      = (numbered l o.optimise id ms).flatMap (fun p => (p.2.apply l o first p.1).edits) := by
  induction ms generalizing id with
  | nil => rfl
  | cons m ms ih => simp [numbered, editsFrom, ih]

theorem declsFrom_numbered (l o first id ms) :
    declsFrom l o first id ms
      = (numbered l o.optimise id ms).flatMap (fun p => (p.2.apply l o first p.1).decls) := by
  induction ms generalizing id with
  | nil => rfl
  | cons m ms ih => simp [numbered, declsFrom, ih]

theorem groupsFrom_numbered (l o first id ms) :
    groupsFrom l o.optimise true id ms
      = ((numbered l o.optimise id ms).map (fun p => (p.2.apply l o first p.1).group)).filter
          (fun g => g.ids ≠ []) := by
  induction ms generalizing id with
  | nil => rfl
  | cons m ms ih =>
    simp only [numbered, groupsFrom, ih, List.map_cons, List.filter_cons, Mutation.apply_group,
      Mutation.groupAt_ids]
    by_cases h : m.count l o.optimise = 0
    · simp [h]
    · have : 0 < m.count l o.optimise := by omega
      simp [h, this]

theorem numbered_bounds (l opt id ms) : ∀ p ∈ numbered l opt id ms,
    id ≤ p.1 ∧ p.1 + p.2.count l opt ≤ id + countAll l opt ms := by
  induction ms generalizing id with
  | nil => simp [numbered]
  | cons m ms ih =>
    intro p hp
    simp only [numbered, List.mem_cons] at hp
    rcases hp with rfl | hp
    · simp
    · have := ih _ p hp
      simp; omega

theorem apply_localIds (l o first id) (m : Mutation) :
    (m.apply l o first id).localIds ≠ [] ∧
    ∀ k ∈ (m.apply l o first id).localIds, k = id - first := by
  unfold Applied.localIds
  cases m with
  | bin s =>
    simp only [Mutation.apply, BinSite.apply]
    split
    · simp only [BinSite.applyCLogical, wrapCall]
      split <;> simp [Edit.ids]
    · cases h : s.opOff <;> simp [BinSite.replaceOperator, replaceSymbol, h, Edit.ids]
  | un s =>
    cases h : s.opOff <;> simp [Mutation.apply, UnSite.apply, UnSite.edits, replaceSymbol, h, Edit.ids]
  | expr s => simp [Mutation.apply, ExprSite.apply, ExprSite.edits, Edit.ids]
  | stmt s =>
    simp only [Mutation.apply, StmtSite.apply, StmtSite.edits]
    split <;> simp [Edit.ids]

theorem apply_ids (l o first id) (m : Mutation) :
    (m.apply l o first id).group.ids = List.range' id (m.count l o.optimise) := by
  rw [Mutation.apply_group, Mutation.groupAt_ids]

/-! ### Runs -/

theorem processFile_skip (o req st f) (h : f.name ∈ st.processed) :
    processFile o req st f = st := by
  simp [processFile, h]

theorem processFile_new (o req st f) (h : f.name ∉ st.processed) :
    processFile o req st f =
      { nextId := st.nextId + fileCount o.optimise f
        info := st.info ++
          (if req = true ∧ fileCount o.optimise f ≠ 0 then
            [⟨f.name, flat 0 (fileTree o.optimise st.nextId f)⟩] else [])
        processed := st.processed ++ [f.name]
        written := st.written ++
          (if fileCount o.optimise f ≠ 0 then
            [(f.name, rewrite f.src (fileEdits o st.nextId f))] else [])
        failed := if f.hasErrors then st.failed ++ [f.name] else st.failed
        anyError := st.anyError || f.hasErrors } := by
  simp only [processFile, handleTU_eq]
  rw [if_neg (by simpa using h)]
  by_cases h0 : fileCount o.optimise f = 0
  · simp [h0]
  · cases req <;> simp [h0]

theorem foldl_firstOcc (o req) (fs : List SourceFile) (st : RunState) :
    fs.foldl (processFile o req) st
      = (firstOcc st.processed fs).foldl (processFile o req) st := by
  induction fs generalizing st with
  | nil => rfl
  | cons f fs ih =>
    simp only [List.foldl_cons, firstOcc]
    by_cases h : f.name ∈ st.processed
    · rw [processFile_skip _ _ _ _ h, if_pos (by simpa using h)]
      exact ih st
    · rw [if_neg (by simpa using h), List.foldl_cons, ih]
      rw [processFile_new _ _ _ _ h]

theorem firstOcc_not_mem (seen) (fs : List SourceFile) : ∀ f ∈ firstOcc seen fs, f.name ∉ seen := by
  induction fs generalizing seen with
  | nil => simp [firstOcc]
  | cons g fs ih =>
    intro f hf
    simp only [firstOcc] at hf
    split at hf
    · exact ih _ f hf
    · rename_i h
      simp only [List.mem_cons] at hf
      rcases hf with rfl | hf
      · simpa using h
      · have := ih _ f hf
        simp at this; exact this.1

theorem firstOcc_nodup (seen) (fs : List SourceFile) :
    ((firstOcc seen fs).map (·.name)).Nodup := by
  induction fs generalizing seen with
  | nil => simp [firstOcc]
  | cons g fs ih =>
    simp only [firstOcc]
    split
    · exact ih _
    · simp only [List.map_cons, List.nodup_cons]
      refine ⟨?_, ih _⟩
      intro h
      obtain ⟨f, hf, he⟩ := List.mem_map.mp h
      have := firstOcc_not_mem _ _ f hf
      simp [he] at this

theorem firstOcc_sub (seen) (fs : List SourceFile) : ∀ f ∈ firstOcc seen fs, f ∈ fs := by
  induction fs generalizing seen with
  | nil => simp [firstOcc]
  | cons g fs ih =>
    intro f hf
    simp only [firstOcc] at hf
    split at hf
    · exact List.mem_cons_of_mem _ (ih _ f hf)
    · simp only [List.mem_cons] at hf ⊢
      rcases hf with h | h
      · exact Or.inl h
      · exact Or.inr (ih _ f h)

theorem firstOcc_of_nodup (seen) (fs : List SourceFile) (h1 : ∀ f ∈ fs, f.name ∉ seen)
    (h2 : (fs.map (·.name)).Nodup) : firstOcc seen fs = fs := by
  induction fs generalizing seen with
  | nil => rfl
  | cons f fs ih =>
    have := h1 f (by simp)
    simp only [firstOcc]
    rw [if_neg (by simpa using this), ih]
    · intro g hg
      simp only [List.map_cons, List.nodup_cons] at h2
      simp only [List.mem_append, List.mem_singleton, not_or]
      refine ⟨h1 g (by simp [hg]), ?_⟩
      intro he
      exact h2.1 (he ▸ List.mem_map_of_mem hg)
    · simp only [List.map_cons, List.nodup_cons] at h2; exact h2.2

theorem processFile_processed (o req st f) :
    ∀ x, x ∈ (processFile o req st f).processed ↔ x ∈ st.processed ∨ x = f.name := by
  intro x
  by_cases h : f.name ∈ st.processed
  · rw [processFile_skip _ _ _ _ h]
    constructor
    · exact Or.inl
    · rintro (h' | rfl) <;> assumption
  · rw [processFile_new _ _ _ _ h]; simp

theorem foldl_processed (o req) (fs : List SourceFile) (st : RunState) :
    ∀ x, x ∈ (fs.foldl (processFile o req) st).processed ↔
      x ∈ st.processed ∨ x ∈ fs.map (·.name) := by
  induction fs generalizing st with
  | nil => simp
  | cons f fs ih =>
    intro x
    rw [List.foldl_cons, ih, processFile_processed]
    simp [or_assoc]

theorem runTool_processed (o req) (fs : List SourceFile) :
    ∀ x, x ∈ (runTool o req fs).processed ↔ x ∈ fs.map (·.name) := by
  intro x
  rw [runTool, foldl_processed]; simp

theorem runTool_append (o req fs gs) :
    runTool o req (fs ++ gs) = gs.foldl (processFile o req) (runTool o req fs) := by
  simp [runTool]

/-- A property of states kept by every step holds of every run. -/
theorem foldl_inv (o req) (P : RunState → Prop) (hstep : ∀ st f, P st → f.name ∉ st.processed →
    P (processFile o req st f)) (fs : List SourceFile) (st : RunState) (h : P st) :
    P (fs.foldl (processFile o req) st) := by
  induction fs generalizing st with
  | nil => exact h
  | cons f fs ih =>
    rw [List.foldl_cons]
    apply ih
    by_cases hm : f.name ∈ st.processed
    · rw [processFile_skip _ _ _ _ hm]; exact h
    · exact hstep st f h hm

theorem foldl_nextId_le (o req) (fs : List SourceFile) (st : RunState) : st.nextId ≤ (fs.foldl (processFile o req) st).nextId := by
  apply foldl_inv o req (fun s => st.nextId ≤ s.nextId)
  · intro s f h hm
    rw [processFile_new _ _ _ _ hm]
    simp only; omega
  · exact Nat.le_refl _

theorem foldl_info_prefix (o req) (fs : List SourceFile) (st : RunState) : st.info <+: (fs.foldl (processFile o req) st).info := by
  apply foldl_inv o req (fun s => st.info <+: s.info)
  · intro s f h hm
    rw [processFile_new _ _ _ _ hm]
    exact h.trans (List.prefix_append _ _)
  · exact List.prefix_refl _

theorem foldl_written_prefix (o req) (fs : List SourceFile) (st : RunState) :
    st.written <+: (fs.foldl (processFile o req) st).written := by
  apply foldl_inv o req (fun s => st.written <+: s.written)
  · intro s f h hm
    rw [processFile_new _ _ _ _ hm]
    exact h.trans (List.prefix_append _ _)
  · exact List.prefix_refl _

/-- Two runs whose states stay related. -/
theorem foldl_rel (o o' : Options) (req req' : Bool) (R : RunState → RunState → Prop)
    (hproc : ∀ s s', R s s' → s.processed = s'.processed)
    (hstep : ∀ s s' f, R s s' → f.name ∉ s.processed → f.name ∉ s'.processed →
      R (processFile o req s f) (processFile o' req' s' f))
    (fs : List SourceFile) (s s' : RunState) (h : R s s') :
    R (fs.foldl (processFile o req) s) (fs.foldl (processFile o' req') s') := by
  induction fs generalizing s s' with
  | nil => exact h
  | cons f fs ih =>
    rw [List.foldl_cons, List.foldl_cons]
    apply ih
    by_cases hm : f.name ∈ s.processed
    · rw [processFile_skip _ _ _ _ hm, processFile_skip _ _ _ _ (hproc _ _ h ▸ hm)]; exact h
    · exact hstep s s' f h hm (hproc _ _ h ▸ hm)

end Dredd
