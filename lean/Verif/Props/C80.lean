/-
C80: what is written for a file depends on the other files in one number only.
-/
import Verif.Spec.Shift
import Verif.Props.C23

namespace Dredd

theorem instsFrom_add {α : Type} (id k : Nat) (cs : List (RetE × α)) :
    instsFrom (id + k) cs = (instsFrom id cs).map fun i => (i.1 + k, i.2) := by
  induction cs generalizing id with
  | nil => rfl
  | cons c cs ih =>
    rw [instsFrom, instsFrom, List.map_cons, ← ih, show id + k + 1 = id + 1 + k by omega]

theorem groupAt_shift (l : Lang) (opt : Bool) (id k : Nat) (m : Mutation) :
    m.groupAt l opt (id + k) = (m.groupAt l opt id).shift k := by
  cases m with
  | bin s =>
    simp only [Mutation.groupAt, Group.shift]
    split
    · simp only [List.map_cons, List.map_nil]
      rw [show id + k + 1 = id + 1 + k by omega, show id + k + 2 = id + 2 + k by omega]
    · rw [instsFrom_add]
  | un s => simp only [Mutation.groupAt, Group.shift, instsFrom_add]
  | expr s => simp only [Mutation.groupAt, Group.shift, instsFrom_add]
  | stmt s => rfl

theorem groupsFrom_shift (l : Lang) (opt build : Bool) (k : Nat) (ms : List Mutation) (id : Nat) :
    groupsFrom l opt build (id + k) ms = (groupsFrom l opt build id ms).map (·.shift k) := by
  induction ms generalizing id with
  | nil => rfl
  | cons m ms ih =>
    rw [groupsFrom, groupsFrom, List.map_append, ← ih, groupAt_shift,
      show id + k + m.count l opt = id + m.count l opt + k by omega]
    split <;> rfl

mutual
/-- A tree of groups with other ids. -/
def shiftTree (k : Nat) : MTree Group → MTree Group
  | .node gs ks => .node (gs.map (·.shift k)) (shiftTreeL k ks)
def shiftTreeL (k : Nat) : List (MTree Group) → List (MTree Group)
  | [] => []
  | t :: ts => shiftTree k t :: shiftTreeL k ts
end

mutual
theorem grpTree_shift (l : Lang) (opt build : Bool) (k : Nat) : (t : MTree Mutation) → (id : Nat) →
    grpTree l opt build (id + k) t = shiftTree k (grpTree l opt build id t)
  | .node ms ks, id => by
    rw [grpTree, grpTree, shiftTree, ← grpTreeL_shift l opt build k ks id, ← groupsFrom_shift,
      show id + k + countAll l opt (MTree.postL ks) = id + countAll l opt (MTree.postL ks) + k by omega]
theorem grpTreeL_shift (l : Lang) (opt build : Bool) (k : Nat) : (ts : List (MTree Mutation)) → (id : Nat) →
    grpTreeL l opt build (id + k) ts = shiftTreeL k (grpTreeL l opt build id ts)
  | [], _ => rfl
  | t :: ts, id => by
    rw [grpTreeL, grpTreeL, shiftTreeL, ← grpTree_shift l opt build k t id,
      ← grpTreeL_shift l opt build k ts (id + countAll l opt t.post),
      show id + k + countAll l opt t.post = id + countAll l opt t.post + k by omega]
end

mutual
theorem shiftTree_size (k : Nat) : (t : MTree Group) → (shiftTree k t).size = t.size
  | .node gs ks => by rw [shiftTree, MTree.size, MTree.size, shiftTreeL_size k ks]
theorem shiftTreeL_size (k : Nat) : (ts : List (MTree Group)) → MTree.sizeL (shiftTreeL k ts) = MTree.sizeL ts
  | [] => rfl
  | t :: ts => by rw [shiftTreeL, MTree.sizeL, MTree.sizeL, shiftTree_size k t, shiftTreeL_size k ts]
end

theorem kidIdx_shift (k : Nat) : (ts : List (MTree Group)) → (i : Nat) → kidIdx i (shiftTreeL k ts) = kidIdx i ts
  | [], _ => rfl
  | t :: ts, i => by rw [shiftTreeL, kidIdx, kidIdx, shiftTree_size, kidIdx_shift k ts]

mutual
theorem flat_shift (k : Nat) : (t : MTree Group) → (i : Nat) →
    flat i (shiftTree k t) = (flat i t).map (·.shift k)
  | .node gs ks, i => by
    rw [shiftTree, flat, flat, List.map_cons, flatL_shift k ks, kidIdx_shift]
    rfl
theorem flatL_shift (k : Nat) : (ts : List (MTree Group)) → (i : Nat) →
    flatL i (shiftTreeL k ts) = (flatL i ts).map (·.shift k)
  | [], _ => rfl
  | t :: ts, i => by
    rw [shiftTreeL, flatL, flatL, List.map_append, flat_shift k t, flatL_shift k ts, shiftTree_size]
end

theorem apply_edits_shift (l : Lang) (o : Options) (k first id : Nat) (m : Mutation) :
    (m.apply l o (first + k) (id + k)).edits = (m.apply l o first id).edits ∧
    (m.apply l o (first + k) (id + k)).decls = (m.apply l o first id).decls := by
  have h : id + k - (first + k) = id - first := by omega
  cases m with
  | bin s =>
    simp only [Mutation.apply, BinSite.apply]
    split
    · simp only [BinSite.applyCLogical, h, and_self]
    · simp only [h, BinSite.genFn, BinSite.genBody_eq, runClauses_eq, and_self]
  | un s => simp only [Mutation.apply, UnSite.apply, h, UnSite.genFn, UnSite.genBody_eq, runClauses_eq, and_self]
  | expr s =>
    simp only [Mutation.apply, ExprSite.apply, h, ExprSite.genFn, ExprSite.genBody_eq, runClauses_eq, and_self]
  | stmt s => simp only [Mutation.apply, StmtSite.apply, h, and_self]

theorem editsFrom_shift (l : Lang) (o : Options) (k first : Nat) (ms : List Mutation) (id : Nat) :
    editsFrom l o (first + k) (id + k) ms = editsFrom l o first id ms ∧
    declsFrom l o (first + k) (id + k) ms = declsFrom l o first id ms := by
  induction ms generalizing id with
  | nil => exact ⟨rfl, rfl⟩
  | cons m ms ih =>
    obtain ⟨h1, h2⟩ := apply_edits_shift l o k first id m
    obtain ⟨i1, i2⟩ := ih (id + m.count l o.optimise)
    rw [editsFrom, editsFrom, declsFrom, declsFrom, h1, h2,
      show id + k + m.count l o.optimise = id + m.count l o.optimise + k by omega, i1, i2]
    exact ⟨rfl, rfl⟩

/-- The text has the number in one place. -/
def OnePlace (g : Nat → Text) : Prop := ∃ a b, ∀ first, g first = a ++ natDec first ++ b

theorem OnePlace.here (a : Text) : OnePlace fun first => a ++ natDec first :=
  ⟨a, [], fun _ => by rw [List.append_nil]⟩

theorem OnePlace.before {g : Nat → Text} (h : OnePlace g) (t : Text) : OnePlace fun first => g first ++ t := by
  obtain ⟨a, b, h⟩ := h
  exact ⟨a, b ++ t, fun first => by dsimp only; rw [h]; simp only [List.append_assoc]⟩

theorem OnePlace.behind {g : Nat → Text} (h : OnePlace g) (t : Text) : OnePlace fun first => t ++ g first := by
  obtain ⟨a, b, h⟩ := h
  exact ⟨t ++ a, b, fun first => by dsimp only; rw [h]; simp only [List.append_assoc]⟩

/-- The first id occurs once in the prelude. -/
theorem preludeText_first (l : Lang) (o : Options) (n : Nat) :
    OnePlace fun first => preludeText l o first n := by
  unfold preludeText
  refine .behind ?_ _
  cases l.cpp <;> cases o.track
  all_goals simp only [Bool.false_eq_true, if_true, if_false]
  · unfold regularPreludeC
    repeat with_reducible refine .before ?_ _
    with_reducible exact .here _
  · unfold trackingPreludeC
    repeat with_reducible refine .before ?_ _
    with_reducible exact .here _
  · unfold regularPreludeCpp
    repeat with_reducible refine .before ?_ _
    with_reducible exact .here _
  · unfold trackingPreludeCpp
    repeat with_reducible refine .before ?_ _
    with_reducible exact .here _

/-- C80: how a file is mutated does not depend on its first id, but for one number in the text that is
written and for the ids in the mutation information. -/
theorem C80_file (o : Options) (req : Bool) (f : SourceFile) (hloc : f.preludeOff.getD 0 ≤ f.src.length) :
    ∃ n, (∀ first, (handleTU o req first f).nextId = first + n) ∧
      (n = 0 → ∀ first, (handleTU o req first f).output = none) ∧
      (n ≠ 0 → ∃ front back, ∀ first, (handleTU o req first f).output = some (front ++ natDec first ++ back)) ∧
      ∀ first, (handleTU o req first f).info = (handleTU o req 0 f).info.map (·.shift first) := by
  refine ⟨fileCount o.optimise f, ?_, ?_, ?_, ?_⟩
  · intro first
    rw [handleTU_eq]
    split <;> simp_all
  · intro h first
    rw [handleTU_eq, if_pos h]
  · intro h
    let A : List Edit := editsFrom f.lang o 0 0 f.tree.post
      ++ f.consts.map (fun c => .replace c.span.b (c.span.e - c.span.b) (natDec c.value))
    let B (first : Nat) : List Edit :=
      (sortedDecls ((declsFrom f.lang o 0 0 f.tree.post).map MutFn.render)).map
          (fun d => Edit.before (f.preludeOff.getD 0) [.txt d])
        ++ [.before (f.preludeOff.getD 0) [.txt (preludeText f.lang o first (fileCount o.optimise f))]]
    have hAB : ∀ first, fileEdits o first f = A ++ B first := by
      intro first
      obtain ⟨h1, h2⟩ := editsFrom_shift f.lang o first 0 f.tree.post 0
      rw [Nat.zero_add] at h1 h2
      simp only [fileEdits, finishEdits, A, B, List.append_assoc, h1, h2, Nat.add_sub_cancel_left]
    have hB : ∀ first, OnlyBefore (f.preludeOff.getD 0) (B first) := by
      intro first e he
      simp only [B, List.mem_append, List.mem_map, List.mem_singleton] at he
      rcases he with ⟨d, -, rfl⟩ | rfl
      · exact ⟨_, rfl⟩
      · exact ⟨_, rfl⟩
    obtain ⟨back, -, hback⟩ := rewriteFrom_insert (A := A) (hB 0) f.src 0 (Nat.zero_le _) (by simpa using hloc)
    have hp := (((preludeText_first f.lang o (fileCount o.optimise f)).before
      (sortedDecls ((declsFrom f.lang o 0 0 f.tree.post).map MutFn.render)).reverse.flatten).behind
      (rewriteFrom (A.filter fun e => e.off < f.preludeOff.getD 0) 0
        (f.src.take (f.preludeOff.getD 0 - 0)))).before back
    obtain ⟨front, rest, hp⟩ := hp
    refine ⟨front, rest, fun first => ?_⟩
    obtain ⟨back', e1, e2⟩ :=
      rewriteFrom_insert (A := A) (hB first) f.src 0 (Nat.zero_le _) (by simpa using hloc)
    have hb : back' = back := List.append_cancel_left (e2.symm.trans hback)
    rw [handleTU_eq, if_neg h]
    dsimp only
    rw [hAB, rewrite, e1, hb, befores_decls, ← hp]
  · intro first
    rw [handleTU_eq, handleTU_eq]
    split
    · rfl
    · cases req with
      | false => rfl
      | true =>
        have h := grpTree_shift f.lang o.optimise true first f.tree.tidyUp 0
        rw [Nat.zero_add] at h
        simp only [if_true, fileTree, h, flat_shift, Option.map_some, FileInfo.shift]

/-- What a step adds is for the file of the step. -/
theorem processFile_adds (o : Options) (req : Bool) (st : RunState) (f : SourceFile) (hn : f.name ∉ st.processed) :
    (processFile o req st f).written =
        st.written ++ ((handleTU o req st.nextId f).output.map fun t => (f.name, t)).toList ∧
      (processFile o req st f).info = st.info ++ (handleTU o req st.nextId f).info.toList ∧
      (processFile o req st f).nextId = (handleTU o req st.nextId f).nextId ∧
      (processFile o req st f).processed = st.processed ++ [f.name] ∧
      ∀ i ∈ (handleTU o req st.nextId f).info, i.filename = f.name := by
  unfold processFile
  rw [if_neg (by simpa using hn)]
  refine ⟨rfl, rfl, rfl, rfl, fun i hi => ?_⟩
  rw [handleTU_eq] at hi
  split at hi
  · cases hi
  · cases req with
    | false => cases hi
    | true => cases hi; rfl

theorem runTool_names (o : Options) (req : Bool) (fs : List SourceFile) :
    (∀ w ∈ (runTool o req fs).written, w.1 ∈ (runTool o req fs).processed) ∧
    ∀ i ∈ (runTool o req fs).info, i.filename ∈ (runTool o req fs).processed := by
  refine foldl_inv o req (fun st => (∀ w ∈ st.written, w.1 ∈ st.processed) ∧
    ∀ i ∈ st.info, i.filename ∈ st.processed) ?_ fs {} ⟨nofun, nofun⟩
  rintro st f ⟨h1, h2⟩ hn
  obtain ⟨e1, e2, -, e4, e5⟩ := processFile_adds o req st f hn
  rw [e1, e2, e4]
  refine ⟨fun w hw => ?_, fun i hi => ?_⟩
  · rcases List.mem_append.mp hw with hw | hw
    · exact List.mem_append_left _ (h1 w hw)
    · simp only [Option.mem_toList, Option.mem_def, Option.map_eq_some_iff] at hw
      obtain ⟨t, -, rfl⟩ := hw
      simp
  · rcases List.mem_append.mp hi with hi | hi
    · exact List.mem_append_left _ (h2 i hi)
    · rw [e5 i (by simpa using hi)]
      simp

/-- C80: what is written and reported for a file.  The text but for one number, the entry but for the
ids, and the number of mutants depend on nothing else than the file and the options; the number, and the
ids, are told by how many mutants there are in the files before it. -/
theorem C80 (o : Options) (req : Bool) (f : SourceFile) (hloc : f.preludeOff.getD 0 ≤ f.src.length) :
    ∃ (n : Nat) (out : Option (Text × Text)) (entry : Option FileInfo), ∀ pre suf : List SourceFile,
      (∀ g ∈ pre, g.name ≠ f.name) →
      let first := (runTool o req pre).nextId
      let st := runTool o req (pre ++ f :: suf)
      (runTool o req (pre ++ [f])).nextId = first + n ∧
      st.written.filter (·.1 = f.name) =
        (out.map fun p => (f.name, p.1 ++ natDec first ++ p.2)).toList ∧
      st.info.filter (·.filename = f.name) = (entry.map (·.shift first)).toList := by
  obtain ⟨n, h1, h2, h3, h4⟩ := C80_file o req f hloc
  have hout : ∃ out : Option (Text × Text), ∀ first, (handleTU o req first f).output =
      out.map fun p => p.1 ++ natDec first ++ p.2 := by
    by_cases hn : n = 0
    · exact ⟨none, h2 hn⟩
    · obtain ⟨a, b, h⟩ := h3 hn
      exact ⟨some (a, b), h⟩
  obtain ⟨out, hout⟩ := hout
  refine ⟨n, out, (handleTU o req 0 f).info, fun pre suf hpre => ?_⟩
  intro first st
  have hnew : f.name ∉ (runTool o req pre).processed := by
    rw [runTool_processed]
    intro h
    obtain ⟨g, hg, he⟩ := List.mem_map.mp h
    exact hpre g hg he
  obtain ⟨n1, n2⟩ := runTool_names o req pre
  obtain ⟨e1, e2, e3, e4, e5⟩ := processFile_adds o req (runTool o req pre) f hnew
  have hf : runTool o req (pre ++ [f]) = processFile o req (runTool o req pre) f := by
    rw [runTool_append]; rfl
  refine ⟨by rw [hf, e3, h1], ?_⟩
  have hst : st = suf.foldl (processFile o req) (runTool o req (pre ++ [f])) := by
    show runTool o req (pre ++ f :: suf) = _
    rw [← runTool_append]
    simp
  rw [hst]
  have key := foldl_inv o req (fun s => f.name ∈ s.processed ∧
      s.written.filter (·.1 = f.name) = (out.map fun p => (f.name, p.1 ++ natDec first ++ p.2)).toList ∧
      s.info.filter (·.filename = f.name) = ((handleTU o req 0 f).info.map (·.shift first)).toList) (by
    rintro s g ⟨p1, p2, p3⟩ hg
    obtain ⟨g1, g2, -, g4, g5⟩ := processFile_adds o req s g hg
    have hne : g.name ≠ f.name := fun h => hg (h ▸ p1)
    refine ⟨by rw [g4]; exact List.mem_append_left _ p1, ?_, ?_⟩
    · rw [g1, List.filter_append, p2, List.filter_eq_nil_iff.mpr, List.append_nil]
      intro w hw
      simp only [Option.mem_toList, Option.mem_def, Option.map_eq_some_iff] at hw
      obtain ⟨t, -, rfl⟩ := hw
      simpa using hne
    · rw [g2, List.filter_append, p3, List.filter_eq_nil_iff.mpr, List.append_nil]
      intro i hi
      rw [g5 i (by simpa using hi)]
      simpa using hne) suf (runTool o req (pre ++ [f])) ?_
  · exact key.2
  · rw [hf, e1, e2, e4]
    refine ⟨by simp, ?_, ?_⟩
    · rw [List.filter_append, List.filter_eq_nil_iff.mpr, List.nil_append, List.filter_eq_self.mpr, hout]
      · cases out <;> rfl
      · intro w hw
        simp only [Option.mem_toList, Option.mem_def, Option.map_eq_some_iff] at hw
        obtain ⟨t, -, rfl⟩ := hw
        simp
      · intro w hw
        simp only [decide_eq_true_eq]
        exact fun h => hnew (h ▸ n1 w hw)
    · rw [List.filter_append, List.filter_eq_nil_iff.mpr, List.nil_append, List.filter_eq_self.mpr, h4]
      · intro i hi
        simpa using e5 i (by simpa using hi)
      · intro i hi
        simp only [decide_eq_true_eq]
        exact fun h => hnew (h ▸ n2 i hi)

/-- C80: further files change nothing for those that came before. -/
theorem C80_prefix (o : Options) (req : Bool) (fs gs : List SourceFile) :
    (runTool o req fs).written <+: (runTool o req (fs ++ gs)).written ∧
    (runTool o req fs).info <+: (runTool o req (fs ++ gs)).info := by
  rw [runTool_append]
  refine foldl_inv o req (fun s => (runTool o req fs).written <+: s.written ∧
    (runTool o req fs).info <+: s.info) ?_ gs _ ⟨List.prefix_refl _, List.prefix_refl _⟩
  rintro s g ⟨p1, p2⟩ hg
  obtain ⟨g1, g2, -⟩ := processFile_adds o req s g hg
  rw [g1, g2]
  exact ⟨p1.trans (List.prefix_append ..), p2.trans (List.prefix_append ..)⟩

/-- C80: if files with different names are given in another order, there are as many mutants. -/
theorem C80_order (o : Options) (req : Bool) (fs gs : List SourceFile) (hp : fs.Perm gs)
    (hn : (fs.map (·.name)).Nodup) : (runTool o req fs).nextId = (runTool o req gs).nextId := by
  have key : ∀ (fs : List SourceFile), (fs.map (·.name)).Nodup →
      (runTool o req fs).nextId = (fs.map (fileCount o.optimise)).sum := by
    intro fs hn
    suffices h : ∀ (fs : List SourceFile) (st : RunState), (fs.map (·.name)).Nodup →
        (∀ f ∈ fs, f.name ∉ st.processed) →
        (fs.foldl (processFile o req) st).nextId = st.nextId + (fs.map (fileCount o.optimise)).sum by
      have := h fs {} hn (fun _ _ => by simp)
      rw [runTool, this]
      exact Nat.zero_add _
    intro fs
    induction fs with
    | nil => intro st _ _; rfl
    | cons f fs ih =>
      intro st hn hm
      rw [List.map_cons, List.nodup_cons] at hn
      have hf := hm f (by simp)
      rw [List.foldl_cons, ih _ hn.2, processFile_new o req st f hf, List.map_cons, List.sum_cons]
      · simp only; omega
      · intro g hg
        rw [processFile_new o req st f hf]
        simp only [List.mem_append, List.mem_singleton, not_or]
        exact ⟨hm g (by simp [hg]), fun h => hn.1 (h ▸ List.mem_map_of_mem hg)⟩
  rw [key fs hn, key gs ((hp.map _).nodup_iff.mp hn)]
  exact (hp.map _).sum_nat

/-- Beside C80: two files in both orders.  The text for the second differs in the number. -/
example :
    let a := Sample.file t!"a.cc" Sample.cpp
    let b := Sample.file t!"b.c" Sample.c
    b.preludeOff.getD 0 ≤ b.src.length ∧ (∀ g ∈ [a], g.name ≠ b.name) ∧
    (runTool Sample.opts true [a]).nextId = 25 ∧ (runTool Sample.opts true [a, b]).nextId = 50 ∧
    (runTool Sample.opts true [b, a]).nextId = 50 ∧ ([a, b].map (·.name)).Nodup := by
  decide +kernel

end Dredd
