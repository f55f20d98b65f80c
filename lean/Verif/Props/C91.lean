/-
C91: the mutants in an expression or statement have consecutive ids.
-/
import Verif.Proofs.Nesting
import Verif.Props.C08
import Verif.Props.C90

namespace Dredd

/-- What is chosen from an ordered list by a property without gaps is a part of the list. -/
theorem filter_segment {α : Type} {R : α → α → Prop} {q : α → Bool} {l : List α} (h : l.Pairwise R)
    (hq : ∀ x y z, R x y → R y z → q x = true → q z = true → q y = true) :
    ∃ l1 l3, l = l1 ++ l.filter q ++ l3 ∧ ∀ y ∈ l1, q y = false := by
  induction h with
  | nil => exact ⟨[], [], rfl, by simp⟩
  | @cons x xs h1 h2 ih =>
    obtain ⟨l1, l3, e, h3⟩ := ih
    cases hx : q x
    · refine ⟨x :: l1, l3, ?_, ?_⟩
      · rw [List.filter_cons_of_neg (by simp [hx])]
        simp only [List.cons_append, List.cons.injEq, true_and]
        exact e
      · intro y hy
        rcases List.mem_cons.1 hy with rfl | hy
        · exact hx
        · exact h3 y hy
    · refine ⟨[], ?_⟩
      rw [List.filter_cons_of_pos hx]
      cases hf : xs.filter q with
      | nil => exact ⟨xs, by simp, by simp⟩
      | cons z zs =>
        have hl : l1 = [] := by
          cases l1 with
          | nil => rfl
          | cons y ys =>
            have hz : z ∈ xs.filter q := by rw [hf]; simp
            have hyz : R y z := by
              rw [e, hf] at h2
              exact (List.pairwise_append.1 (List.pairwise_append.1 h2).1).2.2 y (by simp) z (by simp)
            have := hq x y z (h1 y (by rw [e]; simp)) hyz hx (List.mem_filter.1 hz).2
            rw [h3 y (by simp)] at this
            cases this
        refine ⟨l3, ?_, by simp⟩
        rw [hl, hf] at e
        simp only [List.nil_append, List.cons_append, List.cons.injEq, true_and] at e ⊢
        exact e

theorem prefix_or_diverge : (p q : List Nat) → p <+: q ∨ (∃ i r, p = q ++ i :: r) ∨
    ∃ s i j r r', i ≠ j ∧ p = s ++ i :: r ∧ q = s ++ j :: r'
  | [], q => .inl (List.nil_prefix)
  | i :: p, [] => .inr (.inl ⟨i, p, rfl⟩)
  | i :: p, j :: q => by
    by_cases h : i = j
    · subst h
      rcases prefix_or_diverge p q with h | ⟨k, r, h⟩ | ⟨s, k, m, r, r', hk, h, h'⟩
      · exact .inl (List.cons_prefix_cons.2 ⟨rfl, h⟩)
      · exact .inr (.inl ⟨k, r, by rw [h]; rfl⟩)
      · exact .inr (.inr ⟨i :: s, k, m, r, r', hk, by rw [h]; rfl, by rw [h']; rfl⟩)
    · exact .inr (.inr ⟨[], i, j, p, q, h, rfl, rfl⟩)

/-- The places below a given one have no gaps. -/
theorem under_convex {p : List Nat} {x y z : List Nat × Mutation} (h1 : Before x y) (h2 : Before y z)
    (hx : p <+: x.1) (hz : p <+: z.1) : p <+: y.1 := by
  obtain ⟨rx, hx⟩ := hx
  obtain ⟨rz, hz⟩ := hz
  rcases prefix_or_diverge p y.1 with h | ⟨i, r, h⟩ | ⟨s, i, j, r, r', hij, h, h'⟩
  · exact h
  · refine absurd h2 (Before.asymm (.inl ⟨i, r ++ rz, ?_⟩))
    rw [← hz, h]; simp
  · rcases Nat.lt_or_gt_of_ne hij with hlt | hgt
    · refine absurd h2 (Before.asymm (.inr (.inl ⟨s, i, j, r ++ rz, r', hlt, ?_, h'⟩)))
      rw [← hz, h]; simp
    · refine absurd h1 (Before.asymm (.inr (.inl ⟨s, j, i, r', r ++ rx, hgt, h', ?_⟩)))
      rw [← hx, h]; simp

theorem numberedAt_append (l : Lang) (opt : Bool) (id : Nat) (ms ns : List (List Nat × Mutation)) :
    numberedAt l opt id (ms ++ ns) =
      numberedAt l opt id ms ++ numberedAt l opt (id + countAll l opt (ms.map (·.2))) ns := by
  induction ms generalizing id with
  | nil => simp [numberedAt]
  | cons m ms ih => simp [numberedAt, ih, Nat.add_assoc]

theorem numberedAt_ids (l : Lang) (o : Options) (first id : Nat) (ms : List (List Nat × Mutation)) :
    ((numberedAt l o.optimise id ms).flatMap fun x => (x.2.2.apply l o first x.1).group.ids) =
      List.range' id (countAll l o.optimise (ms.map (·.2))) := by
  rw [← numbered_ids l o first, ← numberedAt_drop, List.flatMap_map]

theorem numberedAt_segment (l : Lang) (o : Options) (first id : Nat)
    (evs : List (List Nat × Mutation)) (l1 l2 l3 : List (Nat × List Nat × Mutation))
    (h : numberedAt l o.optimise id evs = l1 ++ l2 ++ l3) :
    (l2.flatMap fun x => (x.2.2.apply l o first x.1).group.ids) =
      List.range' (id + countAll l o.optimise (l1.map (·.2.2))) (countAll l o.optimise (l2.map (·.2.2))) := by
  have e := numberedAt_snd l o.optimise id evs
  rw [h] at e
  simp only [List.map_append] at e
  have len : ∀ id (ms : List (Nat × List Nat × Mutation)),
      ms.length = (numberedAt l o.optimise id (ms.map (·.2))).length := by
    intro id ms
    have := congrArg List.length (numberedAt_snd l o.optimise id (ms.map (·.2)))
    simpa using this.symm
  rw [← e, List.append_assoc, List.append_assoc, numberedAt_append, numberedAt_append] at h
  obtain ⟨-, h⟩ := List.append_inj h (len _ _).symm
  obtain ⟨h, -⟩ := List.append_inj h (len _ _).symm
  have := numberedAt_ids l o first (id + countAll l o.optimise ((l1.map (·.2)).map (·.2))) (l2.map (·.2))
  rw [h] at this
  simpa [Function.comp_def] using this

/-- C91: let a file be parsed, visited and processed, and suppose it has mutants.  The points of the file and
their groups are those of the mutation information (as in C48).  For every place in the syntax tree, the ids
of the mutants of what is at that place or inside it, in order, are consecutive numbers. -/
theorem C91 (o : Options) (f : ParsedFile) (first : Nat) (info : FileInfo)
    (h : (handleTU o true first (analyse o.optimise f)).info = some info) :
    ∃ (tree : MTree Group) (pts : List (Nat × List Nat × Mutation)),
      Encodes info.nodes 0 tree ∧
      tree.post = (pts.map fun x => (x.2.2.apply f.lang o first x.1).group).filter (·.ids ≠ []) ∧
      (∀ x ∈ pts, ∃ above s ks, Place f.ast x.2.1 above (.stmt s ks) ∧ s.range = some x.2.2.span) ∧
      ∀ place : List Nat, ∃ a n,
        ((pts.filter fun x => place.isPrefixOf x.2.1).flatMap fun x =>
          (x.2.2.apply f.lang o first x.1).group.ids) = List.range' a n := by
  have hg := visitTU_good f.lang o.optimise f.ast
  have hpost : (analyse o.optimise f).tree.post = (visitTU f.lang o.optimise f.ast).cur.post.map (·.2) :=
    dropPos_post _
  refine ⟨fileTree o.optimise first (analyse o.optimise f),
    numberedAt f.lang o.optimise first (visitTU f.lang o.optimise f.ast).cur.post, ?_, ?_, ?_, ?_⟩
  · rw [handleTU_eq] at h
    split at h
    · cases h
    · simp at h
      rw [← h]
      exact flat_encodes_zero _
  · rw [fileTree, grpTree_post, MTree.tidyUp_post, hpost, groups_numbered]
    rfl
  · intro x hx
    exact visitTU_place _ _ _ (snd_mem (numberedAt_snd _ _ _ _) hx)
  · intro p
    have hp := hg.2
    rw [← numberedAt_snd f.lang o.optimise first (visitTU f.lang o.optimise f.ast).cur.post, List.pairwise_map] at hp
    obtain ⟨l1, l3, e, -⟩ := filter_segment (q := fun x => p.isPrefixOf x.2.1) hp (by
      intro x y z h1 h2 hx hz
      simp only [List.isPrefixOf_iff_prefix] at hx hz ⊢
      exact under_convex h1 h2 hx hz)
    exact ⟨_, _, numberedAt_segment f.lang o first _ _ _ _ _ e⟩

/-- C91 for a whole run: every entry of the mutation information is like that, for one of the files. -/
theorem C91_run (o : Options) (fs : List ParsedFile) (e : FileInfo)
    (he : e ∈ (runTool o true (fs.map (analyse o.optimise))).info) :
    ∃ f ∈ fs, e.filename = f.name ∧
    ∃ (first : Nat) (tree : MTree Group) (pts : List (Nat × List Nat × Mutation)),
      Encodes e.nodes 0 tree ∧
      tree.post = (pts.map fun x => (x.2.2.apply f.lang o first x.1).group).filter (·.ids ≠ []) ∧
      (∀ x ∈ pts, ∃ above s ks, Place f.ast x.2.1 above (.stmt s ks) ∧ s.range = some x.2.2.span) ∧
      ∀ place : List Nat, ∃ a n,
        ((pts.filter fun x => place.isPrefixOf x.2.1).flatMap fun x =>
          (x.2.2.apply f.lang o first x.1).group.ids) = List.range' a n := by
  obtain ⟨f, hf, hn, first, h⟩ := info_file o fs e he
  exact ⟨f, hf, hn, first, C91 o f first e h⟩

/-- The sample has a file entry. -/
example : ((handleTU Sample.opts true 7 (analyse true
    ⟨t!"a.cc", Sample.cpp, t!"", false, SampleAst.two⟩)).info).isSome = true := by decide +kernel

/-- In the sample the right operand has mutants 15 to 22, which are neither the first nor the last. -/
example : ((numberedAt Sample.cpp true 7 (visitTU Sample.cpp true SampleAst.two).cur.post).filter fun x =>
    [1, 0, 0, 0, 1].isPrefixOf x.2.1).flatMap (fun x => (x.2.2.apply Sample.cpp Sample.opts 7 x.1).group.ids)
      = [15, 16, 17, 18, 19, 20, 21, 22] := by decide +kernel

end Dredd
