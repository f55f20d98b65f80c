/-
C08: the flat tree in the mutation information is a well-formed encoding of the
mutation tree.
-/
import Verif.Proofs.Run
import Verif.Spec.Samples

namespace Dredd

theorem kidIdx_bounds {α} (ts : List (MTree α)) (b : Nat) : ∀ c ∈ kidIdx b ts,
    b ≤ c ∧ c < b + MTree.sizeL ts := by
  induction ts generalizing b with
  | nil => simp [kidIdx]
  | cons t ts ih =>
    intro c hc
    have hpos : 0 < t.size := by cases t; simp [MTree.size]
    simp only [kidIdx, List.mem_cons] at hc
    rcases hc with rfl | hc
    · simp [MTree.sizeL]; omega
    · have := ih _ c hc
      simp [MTree.sizeL]; omega

mutual
theorem flat_children : (t : MTree Group) → (b : Nat) → ∀ i n, (flat b t)[i]? = some n →
    ∀ c ∈ n.children, b + i < c ∧ c < b + t.size
  | .node gs ks, b, i, n, h, c, hc => by
    cases i with
    | zero =>
      simp only [flat, List.getElem?_cons_zero, Option.some.injEq] at h
      subst h
      have := kidIdx_bounds ks (b + 1) c hc
      simp [MTree.size]; omega
    | succ i =>
      simp only [flat, List.getElem?_cons_succ] at h
      have := flatL_children ks (b + 1) i n h c hc
      simp [MTree.size]; omega
theorem flatL_children : (ts : List (MTree Group)) → (b : Nat) → ∀ i n,
    (flatL b ts)[i]? = some n → ∀ c ∈ n.children, b + i < c ∧ c < b + MTree.sizeL ts
  | [], b, i, n, h, c, hc => by simp [flatL] at h
  | t :: ts, b, i, n, h, c, hc => by
    simp only [flatL] at h
    by_cases hi : i < t.size
    · rw [List.getElem?_append_left (by rw [flat_length]; exact hi)] at h
      have := flat_children t b i n h c hc
      simp [MTree.sizeL]; omega
    · rw [List.getElem?_append_right (by rw [flat_length]; omega), flat_length] at h
      have := flatL_children ts (b + t.size) (i - t.size) n h c hc
      simp [MTree.sizeL]; omega
end

mutual
theorem flat_children_perm : (t : MTree Group) → (b : Nat) →
    (b :: (flat b t).flatMap (·.children)).Perm (List.range' b t.size)
  | .node gs ks, b => by
    simp only [flat, List.flatMap_cons, MTree.size, List.range'_succ]
    exact (flatL_children_perm ks (b + 1)).cons b
theorem flatL_children_perm : (ts : List (MTree Group)) → (b : Nat) →
    (kidIdx b ts ++ (flatL b ts).flatMap (·.children)).Perm (List.range' b (MTree.sizeL ts))
  | [], b => by simp [flatL, kidIdx, MTree.sizeL]
  | t :: ts, b => by
    simp only [flatL, kidIdx, MTree.sizeL, List.flatMap_append, ← List.range'_append_1]
    refine List.Perm.trans ?_ ((flat_children_perm t b).append (flatL_children_perm ts (b + t.size)))
    simp only [List.cons_append]
    refine List.Perm.cons b ?_
    rw [← List.append_assoc, ← List.append_assoc]
    exact List.perm_append_comm.append_right _
end

mutual
/-- Numbering of the mutations of a tree. -/
def numTree (l : Lang) (opt : Bool) : Nat → MTree Mutation → MTree (Nat × Mutation)
  | id, .node ms ks =>
    .node (numbered l opt (id + countAll l opt (MTree.postL ks)) ms) (numTreeL l opt id ks)
def numTreeL (l : Lang) (opt : Bool) : Nat → List (MTree Mutation) → List (MTree (Nat × Mutation))
  | _, [] => []
  | id, k :: ks => numTree l opt id k :: numTreeL l opt (id + countAll l opt k.post) ks
end

mutual
theorem numTree_snd (l opt) : (t : MTree Mutation) → (id : Nat) →
    (numTree l opt id t).mapNodes (fun ps => ps.map (·.2)) = t
  | .node ms ks, id => by
    simp only [numTree, MTree.mapNodes, numbered_snd]
    rw [numTreeL_snd l opt ks id]
theorem numTreeL_snd (l opt) : (ts : List (MTree Mutation)) → (id : Nat) →
    MTree.mapNodesL (fun ps => ps.map (·.2)) (numTreeL l opt id ts) = ts
  | [], id => rfl
  | t :: ts, id => by
    simp only [numTreeL, MTree.mapNodesL]
    rw [numTree_snd l opt t id, numTreeL_snd l opt ts]
end

mutual
theorem numTree_groups (l o first) : (t : MTree Mutation) → (id : Nat) →
    (numTree l o.optimise id t).mapNodes (fun ps =>
      (ps.map fun p => (p.2.apply l o first p.1).group).filter (fun g => g.ids ≠ []))
      = grpTree l o.optimise true id t
  | .node ms ks, id => by
    simp only [numTree, MTree.mapNodes, grpTree]
    rw [numTreeL_groups l o first ks id, ← groupsFrom_numbered]
theorem numTreeL_groups (l o first) : (ts : List (MTree Mutation)) → (id : Nat) →
    MTree.mapNodesL (fun ps =>
      (ps.map fun p => (p.2.apply l o first p.1).group).filter (fun g => g.ids ≠ []))
      (numTreeL l o.optimise id ts) = grpTreeL l o.optimise true id ts
  | [], id => rfl
  | t :: ts, id => by
    simp only [numTreeL, MTree.mapNodesL, grpTreeL]
    rw [numTree_groups l o first t id, numTreeL_groups l o first ts]
end

theorem numbered_app (l opt id ms ns) : numbered l opt id (ms ++ ns)
    = numbered l opt id ms ++ numbered l opt (id + countAll l opt ms) ns := by
  induction ms generalizing id with
  | nil => simp [numbered]
  | cons m ms ih => simp [numbered, ih, Nat.add_assoc]

mutual
theorem numTree_post (l opt) : (t : MTree Mutation) → (id : Nat) →
    (numTree l opt id t).post = numbered l opt id t.post
  | .node ms ks, id => by
    simp only [numTree, MTree.post, numbered_app]
    rw [numTreeL_post l opt ks id]
theorem numTreeL_post (l opt) : (ts : List (MTree Mutation)) → (id : Nat) →
    MTree.postL (numTreeL l opt id ts) = numbered l opt id (MTree.postL ts)
  | [], id => rfl
  | t :: ts, id => by
    simp only [numTreeL, MTree.postL, numbered_app]
    rw [numTree_post l opt t id, numTreeL_post l opt ts]
end

theorem numbered_ids (l : Lang) (o : Options) (first id : Nat) (ms : List Mutation) :
    (numbered l o.optimise id ms).flatMap (fun p => (p.2.apply l o first p.1).group.ids)
      = List.range' id (countAll l o.optimise ms) := by
  induction ms generalizing id with
  | nil => rfl
  | cons m ms ih =>
    simp only [numbered, List.flatMap_cons, ih, countAll_cons]
    rw [Mutation.apply_group, Mutation.groupAt_ids, ← List.range'_append_1]

/-- In every entry: child indices are in range and larger than the index of
their parent; every index except 0 is the child of exactly one node, once; and
the list encodes a tree with as many nodes. -/
theorem C08_well_formed (o : Options) (fs : List SourceFile) :
    ∀ e ∈ (runTool o true fs).info,
      (∀ i n, e.nodes[i]? = some n → ∀ c ∈ n.children, i < c ∧ c < e.nodes.length) ∧
      (e.nodes.flatMap (·.children)).Perm (List.range' 1 (e.nodes.length - 1)) ∧
      ∃ t, Encodes e.nodes 0 t ∧ t.size = e.nodes.length := by
  have key : ∀ e ∈ (runTool o true fs).info, ∃ t, e.nodes = flat 0 t := by
    apply foldl_inv o true (fun st => ∀ e ∈ st.info, ∃ t, e.nodes = flat 0 t)
    · intro st f h hm
      rw [processFile_new _ _ _ _ hm]
      intro e he
      simp only [List.mem_append] at he
      rcases he with he | he
      · exact h e he
      · split at he
        · simp only [List.mem_singleton] at he
          subst he
          exact ⟨_, rfl⟩
        · simp at he
    · simp
  intro e he
  obtain ⟨t, ht⟩ := key e he
  rw [ht, flat_length]
  refine ⟨?_, ?_, t, flat_encodes_zero t, rfl⟩
  · intro i n hi c hc
    have := flat_children t 0 i n hi c hc
    omega
  · have := flat_children_perm t 0
    have hs : t.size = (t.size - 1) + 1 := by cases t; simp [MTree.size]
    rw [hs, List.range'_succ] at this
    exact (List.perm_cons _).mp this

/-- The entry of a mutated file reads back as the simplified mutation tree of
the file: same shape, and at each node the groups of its mutations (those that
have any mutant).  The ids are given out in the order in which the mutations are
applied, children first. -/
theorem C08_decodes (o : Options) (pre suf : List SourceFile) (f : SourceFile)
    (hnew : ∀ g ∈ pre, g.name ≠ f.name)
    (hmut : (runTool o true (pre ++ [f])).nextId ≠ (runTool o true pre).nextId) :
    ∃ (nodes : List PNode) (nt : MTree (Nat × Mutation)),
      (runTool o true (pre ++ f :: suf)).info[(runTool o true pre).info.length]?
        = some ⟨f.name, nodes⟩ ∧
      nt.mapNodes (fun ps => ps.map (·.2)) = f.tree.tidyUp ∧
      nt.post.flatMap
          (fun p => (p.2.apply f.lang o (runTool o true pre).nextId p.1).group.ids)
        = List.range' (runTool o true pre).nextId
            ((runTool o true (pre ++ [f])).nextId - (runTool o true pre).nextId) ∧
      Encodes nodes 0 (nt.mapNodes fun ps =>
        (ps.map fun p => (p.2.apply f.lang o (runTool o true pre).nextId p.1).group).filter
          (fun g => g.ids ≠ [])) := by
  have hm : f.name ∉ (runTool o true pre).processed := by
    rw [runTool_processed]
    intro h
    obtain ⟨g, hg, he⟩ := List.mem_map.mp h
    exact hnew g hg he
  have h1 : runTool o true (pre ++ [f]) = processFile o true (runTool o true pre) f := by
    simp [runTool_append]
  rw [processFile_new _ _ _ _ hm] at h1
  have h0 : fileCount o.optimise f ≠ 0 := by
    intro h0; apply hmut; rw [h1]; simp [h0]
  refine ⟨flat 0 (fileTree o.optimise (runTool o true pre).nextId f),
    numTree f.lang o.optimise (runTool o true pre).nextId f.tree.tidyUp, ?_, numTree_snd _ _ _ _,
    ?_, ?_⟩
  · have hp := foldl_info_prefix o true suf (processFile o true (runTool o true pre) f)
    rw [← List.foldl_cons, ← runTool_append, processFile_new _ _ _ _ hm] at hp
    simp only [h0, ne_eq, not_false_eq_true, and_self, if_true] at hp
    obtain ⟨t, ht⟩ := hp
    rw [← ht]
    simp
  · rw [numTree_post, numbered_ids, h1, MTree.tidyUp_post]
    have he : f.hasErrors = false := by
      cases he : f.hasErrors
      · rfl
      · exact absurd (by simp [fileCount, he]) h0
    simp [fileCount, he]
  · rw [numTree_groups]
    exact flat_encodes_zero _

/-- The entry for the sample file: 4 nodes in a two-level tree. -/
example : ((runTool Sample.opts true [Sample.file t!"a.cc" Sample.cpp]).info.map
    fun e => e.nodes.map (·.children)) = [[[1], [2, 3], [], []]] := by decide +kernel

end Dredd
