/-
C90: the tree of the mutation information is nested like the code.
-/
import Verif.Proofs.Nesting

namespace Dredd

/-- C90: let a file be parsed, visited and processed, and suppose it has mutants.  The nodes of the
mutation information encode a tree of points, each with its place in the syntax tree, in which groups without
mutants are left out.  The order of the points is that of C48.  A point is below another in that tree exactly if it is inside it in the code, and
two points share a node exactly if they are mutations of the same expression. -/
theorem C90 (o : Options) (f : ParsedFile) (first : Nat) (info : FileInfo)
    (h : (handleTU o true first (analyse o.optimise f)).info = some info) :
    ∃ T : MTree (Nat × List Nat × Mutation),
      Encodes info.nodes 0 (T.groups f.lang o first) ∧
      (T.post.Pairwise fun x y => Before x.2 y.2) ∧
      (∀ x ∈ T.post, ∃ above s ks, Place f.ast x.2.1 above (.stmt s ks) ∧ s.range = some x.2.2.span) ∧
      ∀ x ∈ T.post, ∀ y ∈ T.post,
        (T.Beneath x y ↔ Inside x.2 y.2) ∧ (T.Together x y ↔ SameTarget x.2 y.2) := by
  have hn : Nests (·.2) (placedTree f.lang o.optimise first (visitTU f.lang o.optimise f.ast).cur.tidyUp) :=
    placedTree_nests _ _ _ _ (tidyUp_nests _ _ (visitTU_nests f.lang o.optimise f.ast))
  refine ⟨_, ?_, ?_, ?_, fun x hx y hy => ⟨⟨fun h => Beneath.inside h hn, ?_⟩, ⟨fun h => Together.same h hn, ?_⟩⟩⟩
  · rw [groups_placedTree, ← tidyUp_dropPos]
    rw [handleTU_eq] at h
    split at h
    · cases h
    · simp at h
      rw [← h]
      exact flat_encodes_zero _
  · have := (visitTU_good f.lang o.optimise f.ast).2
    rw [← MTree.tidyUp_post, ← placedTree_post f.lang o.optimise first, List.pairwise_map] at this
    exact this
  · intro x hx
    have hx' := snd_mem (placedTree_post f.lang o.optimise first _) hx
    rw [MTree.tidyUp_post] at hx'
    exact visitTU_place _ _ _ hx'
  · exact (beneath_of _ _ hn x hx y hy).1
  · exact (beneath_of _ _ hn x hx y hy).2

theorem info_from (o : Options) (fs : List SourceFile) (st : RunState) :
    ∀ e ∈ (fs.foldl (processFile o true) st).info, e ∈ st.info ∨
      ∃ f ∈ fs, ∃ first, (handleTU o true first f).info = some e := by
  induction fs generalizing st with
  | nil => exact fun e he => .inl he
  | cons f fs ih =>
    intro e he
    rw [List.foldl_cons] at he
    rcases ih _ e he with he | ⟨g, hg, h⟩
    · by_cases hm : f.name ∈ st.processed
      · rw [processFile_skip _ _ _ _ hm] at he
        exact .inl he
      · rw [processFile_new _ _ _ _ hm] at he
        rcases List.mem_append.1 he with he | he
        · exact .inl he
        · split at he
          · refine .inr ⟨f, List.mem_cons_self, st.nextId, ?_⟩
            rename_i hc
            rw [handleTU_eq, if_neg hc.2, List.mem_singleton.1 he]
            rfl
          · cases he
    · exact .inr ⟨g, List.mem_cons_of_mem _ hg, h⟩

/-- An entry of a run comes from one of the files and has its name. -/
theorem info_file (o : Options) (fs : List ParsedFile) (e : FileInfo)
    (he : e ∈ (runTool o true (fs.map (analyse o.optimise))).info) :
    ∃ f ∈ fs, e.filename = f.name ∧ ∃ first, (handleTU o true first (analyse o.optimise f)).info = some e := by
  rcases info_from o _ _ e he with he | ⟨g, hg, first, h⟩
  · cases he
  · obtain ⟨f, hf, rfl⟩ := List.mem_map.1 hg
    refine ⟨f, hf, ?_, first, h⟩
    rw [handleTU_eq] at h
    split at h
    · cases h
    · simp at h
      rw [← h]
      rfl

/-- C90 for a whole run: every entry of the mutation information is such a tree, for one of the files. -/
theorem C90_run (o : Options) (fs : List ParsedFile) (e : FileInfo)
    (he : e ∈ (runTool o true (fs.map (analyse o.optimise))).info) :
    ∃ f ∈ fs, e.filename = f.name ∧ ∃ (first : Nat) (T : MTree (Nat × List Nat × Mutation)),
      Encodes e.nodes 0 (T.groups f.lang o first) ∧
      (T.post.Pairwise fun x y => Before x.2 y.2) ∧
      (∀ x ∈ T.post, ∃ above s ks, Place f.ast x.2.1 above (.stmt s ks) ∧ s.range = some x.2.2.span) ∧
      ∀ x ∈ T.post, ∀ y ∈ T.post,
        (T.Beneath x y ↔ Inside x.2 y.2) ∧ (T.Together x y ↔ SameTarget x.2 y.2) := by
  obtain ⟨f, hf, hn, first, h⟩ := info_file o fs e he
  exact ⟨f, hf, hn, first, C90 o f first e h⟩

/-- The sample has a file entry. -/
example : ((handleTU Sample.opts true 7 (analyse true
    ⟨t!"a.cc", Sample.cpp, t!"", false, SampleAst.two⟩)).info).isSome = true := by decide +kernel

/-- In the sample some mutations are inside others, some are not, and some are of the same expression. -/
example : ∃ a b c d, [a, b, c, d] ⊆ (visitTU Sample.cpp true SampleAst.two).cur.post ∧
    Inside a b ∧ ¬ Inside c b ∧ Inside c d ∧ SameTarget a a := by
  have e : (visitTU Sample.cpp true SampleAst.two).cur.post.map (·.1) =
    [[1, 0, 0, 0, 0, 0], [1, 0, 0, 0, 0], [1, 0, 0, 0, 1, 0], [1, 0, 0, 0, 1], [1, 0, 0, 0], [1, 0, 0, 0],
      [1, 0, 0]] := by decide +kernel
  generalize (visitTU Sample.cpp true SampleAst.two).cur.post = l at e
  obtain ⟨a, l, rfl, h1, e⟩ := List.map_eq_cons_iff.1 e
  obtain ⟨b, l, rfl, h2, e⟩ := List.map_eq_cons_iff.1 e
  obtain ⟨c, l, rfl, h3, e⟩ := List.map_eq_cons_iff.1 e
  obtain ⟨d, l, rfl, h4, e⟩ := List.map_eq_cons_iff.1 e
  obtain ⟨x, l, rfl, h5, e⟩ := List.map_eq_cons_iff.1 e
  refine ⟨a, b, c, x, by simp, .inl ⟨0, [], by rw [h1, h2]; rfl⟩, ?_, .inl ⟨1, [0], by rw [h3, h5]; rfl⟩, rfl, rfl⟩
  rintro (⟨i, r, h⟩ | ⟨h, -⟩)
  · rw [h3, h2] at h; simp at h
  · rw [h3, h2] at h; simp at h

end Dredd
