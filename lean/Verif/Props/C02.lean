/-
C02: each mutated file owns one contiguous block of ids, and its generated code
uses file-local ids that map back to it.
-/
import Verif.Proofs.Run
import Verif.Spec.Samples

namespace Dredd


/-- Consider any run and any file `f` in it that is processed (its name does not
occur earlier).  With `first` the id counter when `f` is reached: if the run
advances the counter at `f` by `n > 0`, then the next entry of the mutation
information is for `f` and encodes a tree whose ids are
`first, …, first + n - 1`; the next file written is `f`; the edits made to it
are those of the instrumented points followed by edits that carry no id, among
them the prelude with `first` and `n`; the points that carry mutants are the
groups of the tree, in order; and every local id `k` written at a point
satisfies: the ids of the point's group are `first + k, first + k + 1, …`, and
lie in the block. -/
theorem C02_block (o : Options) (pre suf : List SourceFile) (f : SourceFile)
    (hnew : ∀ g ∈ pre, g.name ≠ f.name)
    (hmut : (runTool o true (pre ++ [f])).nextId ≠ (runTool o true pre).nextId) :
    let first := (runTool o true pre).nextId
    let n := (runTool o true (pre ++ [f])).nextId - first
    let st := runTool o true (pre ++ f :: suf)
    ∃ (nodes : List PNode) (tree : MTree Group) (edits rest : List Edit)
      (pts : List (Nat × Mutation)),
      0 < n ∧
      st.info[(runTool o true pre).info.length]? = some ⟨f.name, nodes⟩ ∧
      Encodes nodes 0 tree ∧
      treeIds tree = List.range' first n ∧
      st.written[(runTool o true pre).written.length]? = some (f.name, rewrite f.src edits) ∧
      edits = pts.flatMap (fun p => (p.2.apply f.lang o first p.1).edits) ++ rest ∧
      pts.map (·.2) = f.tree.post ∧
      (∀ e ∈ rest, e.ids = []) ∧
      .before (f.preludeOff.getD 0) [.txt (preludeText f.lang o first n)] ∈ rest ∧
      tree.post = (pts.map fun p => (p.2.apply f.lang o first p.1).group).filter
        (fun g => g.ids ≠ []) ∧
      ∀ p ∈ pts,
        let a := p.2.apply f.lang o first p.1
        a.localIds ≠ [] ∧
        ∀ k ∈ a.localIds,
          a.group.ids = List.range' (first + k) a.group.ids.length ∧
          k + a.group.ids.length ≤ n ∧ (a.group.ids ≠ [] → k < n) := by
  intro first n st
  have hm : f.name ∉ (runTool o true pre).processed := by
    rw [runTool_processed]
    intro h
    obtain ⟨g, hg, he⟩ := List.mem_map.mp h
    exact hnew g hg he
  have h1 : runTool o true (pre ++ [f]) = processFile o true (runTool o true pre) f := by
    simp [runTool_append]
  have h2 : st = suf.foldl (processFile o true) (processFile o true (runTool o true pre) f) := by
    simp [st, runTool_append]
  rw [processFile_new _ _ _ _ hm] at h1 h2
  have hn : n = fileCount o.optimise f := by simp [n, first, h1]
  have h0 : fileCount o.optimise f ≠ 0 := by
    intro h0; apply hmut; rw [h1]; simp [h0]
  have he : f.hasErrors = false := by
    cases h : f.hasErrors
    · rfl
    · simp [fileCount, h] at h0
  have hcount : fileCount o.optimise f = countAll f.lang o.optimise f.tree.post := by
    simp [fileCount, he]
  refine ⟨flat 0 (fileTree o.optimise first f), fileTree o.optimise first f, fileEdits o first f,
    (fileEdits o first f).drop (editsFrom f.lang o first first f.tree.post).length,
    numbered f.lang o.optimise first f.tree.post, ?_, ?_, flat_encodes_zero _, ?_, ?_, ?_,
    numbered_snd _ _ _ _, ?_, ?_, ?_, ?_⟩
  · omega
  · have hp := foldl_info_prefix o true suf
      (processFile o true (runTool o true pre) f)
    rw [processFile_new _ _ _ _ hm, ← h2] at hp
    simp only [h0, ne_eq, not_false_eq_true, and_self, if_true] at hp
    obtain ⟨t, ht⟩ := hp
    rw [← ht]
    simp [first]
  · rw [hn]; exact fileTree_ids _ _ _ he
  · have hp := foldl_written_prefix o true suf
      (processFile o true (runTool o true pre) f)
    rw [processFile_new _ _ _ _ hm, ← h2] at hp
    simp only [h0, ne_eq, not_false_eq_true, if_true] at hp
    obtain ⟨t, ht⟩ := hp
    rw [← ht]
    simp [first]
  · rw [← editsFrom_numbered]
    simp [fileEdits, finishEdits]
  · intro e he
    simp only [fileEdits, finishEdits, List.append_assoc, List.drop_left] at he
    simp only [List.mem_append, List.mem_map, List.mem_singleton] at he
    rcases he with ⟨_, _, rfl⟩ | ⟨_, _, rfl⟩ | rfl <;> simp [Edit.ids]
  · simp only [fileEdits, finishEdits, List.append_assoc, List.drop_left]
    simp [hn]
  · rw [← groupsFrom_numbered, fileTree, grpTree_post, MTree.tidyUp_post]
  · intro p hp
    have hb := numbered_bounds f.lang o.optimise first f.tree.post p hp
    have hl := apply_localIds f.lang o first p.1 p.2
    refine ⟨hl.1, ?_⟩
    intro k hk
    have hk' := hl.2 k hk
    subst hk'
    simp only [apply_ids, List.length_range']
    refine ⟨by congr 1; omega, by omega, ?_⟩
    intro hne
    have : p.2.count f.lang o.optimise ≠ 0 := by
      intro hz; apply hne; simp [hz]
    omega

/-- Blocks follow one another in processing order: what is processed later gets
larger ids, whatever the files in between. -/
theorem C02_blocks_in_order (o : Options) (pre mid : List SourceFile) (f : SourceFile) :
    (runTool o true (pre ++ [f])).nextId ≤ (runTool o true (pre ++ f :: mid)).nextId := by
  have h1 : pre ++ f :: mid = (pre ++ [f]) ++ mid := by simp
  rw [h1, runTool_append (gs := mid)]
  exact foldl_nextId_le o true _ _

/-- The second file of the sample run meets the hypotheses: its block is
`[25, 50)`. -/
example : (runTool Sample.opts true [Sample.file t!"a.cc" Sample.cpp, Sample.badFile]).nextId = 25 ∧
    (runTool Sample.opts true ([Sample.file t!"a.cc" Sample.cpp, Sample.badFile]
      ++ [Sample.file t!"b.c" Sample.c])).nextId = 50 ∧
    ∀ g ∈ [Sample.file t!"a.cc" Sample.cpp, Sample.badFile],
      g.name ≠ (Sample.file t!"b.c" Sample.c).name := by
  refine ⟨by decide +kernel, by decide +kernel, by decide +kernel⟩

end Dredd
