/-
C48: children before parents.
-/
import Verif.Proofs.Places
import Verif.Proofs.Before
import Verif.Proofs.Run
import Verif.Spec.SampleAst

namespace Dredd

mutual
theorem dropPos_post {α β} : (t : MTree (α × β)) → t.dropPos.post = t.post.map (·.2)
  | .node ms ks => by
    simp only [MTree.dropPos, MTree.post, dropPosL_post ks, List.map_append]
theorem dropPosL_post {α β} : (ts : List (MTree (α × β))) →
    MTree.postL (MTree.dropPosL ts) = (MTree.postL ts).map (·.2)
  | [] => rfl
  | t :: ts => by
    simp only [MTree.dropPosL, MTree.postL, dropPos_post t, dropPosL_post ts, List.map_append]
end

/-- Mutations with positions, numbered. -/
def numberedAt (l : Lang) (opt : Bool) : Nat → List (List Nat × Mutation) →
    List (Nat × List Nat × Mutation)
  | _, [] => []
  | id, (p, m) :: ms => (id, p, m) :: numberedAt l opt (id + m.count l opt) ms

theorem numberedAt_drop (l : Lang) (opt : Bool) (id : Nat) (ms : List (List Nat × Mutation)) :
    (numberedAt l opt id ms).map (fun x => (x.1, x.2.2)) = numbered l opt id (ms.map (·.2)) := by
  induction ms generalizing id with
  | nil => rfl
  | cons m ms ih => simp [numberedAt, numbered, ih]

theorem numberedAt_snd (l : Lang) (opt : Bool) (id : Nat) (ms : List (List Nat × Mutation)) :
    (numberedAt l opt id ms).map (·.2) = ms := by
  induction ms generalizing id with
  | nil => rfl
  | cons m ms ih => simp [numberedAt, ih]

theorem numberedAt_le (l : Lang) (opt : Bool) (id : Nat) (ms : List (List Nat × Mutation)) :
    (∀ x ∈ numberedAt l opt id ms, id ≤ x.1) ∧
    (numberedAt l opt id ms).Pairwise fun x y => x.1 + x.2.2.count l opt ≤ y.1 := by
  induction ms generalizing id with
  | nil => simp [numberedAt]
  | cons m ms ih =>
    obtain ⟨p, m⟩ := m
    obtain ⟨h1, h2⟩ := ih (id + m.count l opt)
    constructor
    · intro x hx
      rcases List.mem_cons.mp hx with rfl | hx
      · exact Nat.le_refl _
      · have := h1 x hx
        omega
    · exact List.pairwise_cons.mpr ⟨h1, h2⟩

/-- C48: let a file be parsed, visited and processed, and suppose it has mutants.
The instrumented points can be listed, each with the place in the syntax tree it
belongs to, so that the groups of the mutation information (a tree in the order
of application) are those of the points that have mutants, and for any two points
of which the first is inside the second, or to the left of it, or at the same
place but an operator where the other is an expression, or an expression where
the other is the removal of a statement: all ids of the first are smaller than
all ids of the second. -/
theorem C48_order (o : Options) (f : ParsedFile) (first : Nat) (info : FileInfo)
    (h : (handleTU o true first (analyse o.optimise f)).info = some info) :
    ∃ (tree : MTree Group) (pts : List (Nat × List Nat × Mutation)),
      Encodes info.nodes 0 tree ∧
      tree.post = (pts.map fun x => (x.2.2.apply f.lang o first x.1).group).filter (·.ids ≠ []) ∧
      (∀ x ∈ pts, ∃ above s ks, Place f.ast x.2.1 above (.stmt s ks) ∧
        s.range = some x.2.2.span ∧ (x.2.2.isRemoval = false → ∃ e, s.kind = .expr e)) ∧
      ∀ x ∈ pts, ∀ y ∈ pts, Before x.2 y.2 →
        ∀ i ∈ (x.2.2.apply f.lang o first x.1).group.ids,
        ∀ j ∈ (y.2.2.apply f.lang o first y.1).group.ids, i < j := by
  let evs := (visitTU f.lang o.optimise f.ast).cur.post
  have hg := visitTU_good f.lang o.optimise f.ast
  have hpost : (analyse o.optimise f).tree.post = evs.map (·.2) := dropPos_post _
  let pts := numberedAt f.lang o.optimise first evs
  refine ⟨fileTree o.optimise first (analyse o.optimise f), pts, ?_, ?_, ?_, ?_⟩
  · rw [handleTU_eq] at h
    split at h
    · cases h
    · simp at h
      rw [← h]
      exact flat_encodes_zero _
  · rw [fileTree, grpTree_post, MTree.tidyUp_post, hpost]
    have e : pts.map (fun x => (x.2.2.apply f.lang o first x.1).group)
        = (numbered f.lang o.optimise first (evs.map (·.2))).map
          fun p => (p.2.apply f.lang o first p.1).group := by
      rw [← numberedAt_drop, List.map_map]
      rfl
    rw [e]
    exact groupsFrom_numbered f.lang o first first _
  · intro x hx
    have hx' : x.2 ∈ evs := by
      rw [← numberedAt_snd f.lang o.optimise first evs]
      exact List.mem_map_of_mem hx
    obtain ⟨c, above, s, ks, hf, hp, _, ho⟩ := (hg.1 _ hx').fine
    refine ⟨above, s, ks, hp ▸ hf.place, ?_⟩
    rcases ho with ⟨hs, e, locs, hk, hm⟩ | ⟨hi, hm⟩
    · obtain ⟨sp, t, _, _, hin, _, hr, _, ht, _, _, hv⟩ := mem_visitExpr hm
      rw [hv] at hm
      refine ⟨?_, fun _ => ⟨e, hk⟩⟩
      rw [hr]
      rcases List.mem_append.mp hm with hm | hm
      · rcases mem_handleOp hm with ⟨op, hc, hm⟩ | ⟨op, hc, hm⟩
        · obtain ⟨_, _, _, _, _, _, _, _, _, _, h2⟩ := mem_handleUnary hm
          rw [h2]; rfl
        · obtain ⟨_, _, _, _, _, _, _, _, _, _, _, _, _, _, _, _, _, h2⟩ := mem_handleBinary hm
          rw [h2]; rfl
      · obtain ⟨_, _, _, _, _, _, _, _, h2⟩ := mem_handleExpr hm
        rw [h2]; rfl
    · obtain ⟨sp, hr, hm⟩ := removal_span hm
      rw [hm]
      exact ⟨hr, nofun⟩
  · intro x hx y hy hb i hi j hj
    rw [apply_ids, List.mem_range'_1] at hi hj
    have hord : pts.Pairwise fun x y => Before x.2 y.2 ∧ x.1 + x.2.2.count f.lang o.optimise ≤ y.1 := by
      refine List.pairwise_and_iff.mpr ⟨?_, (numberedAt_le f.lang o.optimise first evs).2⟩
      have := hg.2
      rw [show (visitTU f.lang o.optimise f.ast).cur.post = pts.map (·.2) from
        (numberedAt_snd f.lang o.optimise first evs).symm, List.pairwise_map] at this
      exact this
    have key : ∀ {l : List (Nat × List Nat × Mutation)}, l.Pairwise (fun x y =>
        Before x.2 y.2 ∧ x.1 + x.2.2.count f.lang o.optimise ≤ y.1) → x ∈ l → y ∈ l →
        x.1 + x.2.2.count f.lang o.optimise ≤ y.1 := by
      intro l hl
      induction hl with
      | nil => intro hx; cases hx
      | @cons a l h1 _ ih =>
        intro hx hy
        rcases List.mem_cons.mp hx with rfl | hx'
        · rcases List.mem_cons.mp hy with rfl | hy
          · exact absurd hb hb.asymm
          · exact (h1 y hy).2
        · rcases List.mem_cons.mp hy with rfl | hy
          · exact absurd (h1 x hx').1 hb.asymm
          · exact ih hx' hy
    have := key hord hx hy
    omega

/-- The order is what it should be: a place inside another comes first. -/
theorem C48_inside (p r : List Nat) (i : Nat) (m m' : Mutation) :
    Before (p ++ i :: r, m) (p, m') := .inl ⟨i, r, rfl⟩

/-- Of two items of the same block, everything in the first comes before
everything in the second. -/
theorem C48_left (p r r' : List Nat) (i j : Nat) (h : i < j) (m m' : Mutation) :
    Before (p ++ i :: r, m) (p ++ j :: r', m') := .inr (.inl ⟨p, i, j, r, r', h, rfl, rfl⟩)

/-- The mutations of an expression statement come before its removal. -/
theorem C48_removal (p : List Nat) (m m' : Mutation) (h : m.isRemoval = false)
    (h' : m'.isRemoval = true) : Before (p, m) (p, m') := by
  refine .inr (.inr ⟨rfl, ?_⟩)
  cases m <;> cases m' <;> simp [Mutation.isRemoval] at h h' <;> simp [Mutation.rank]

/-- No two mutations are unordered, and none come in both orders. -/
theorem C48_linear (l : Lang) (opt : Bool) (root : Node) :
    (visitTU l opt root).cur.post.Nodup ∧
    ∀ a ∈ (visitTU l opt root).cur.post, ∀ b ∈ (visitTU l opt root).cur.post,
      a = b ∨ (Before a b ∧ ¬ Before b a) ∨ (Before b a ∧ ¬ Before a b) := by
  have hp := (visitTU_good l opt root).2
  have hirr : ∀ a, ¬ Before a a := fun a h => h.asymm h
  refine ⟨hp.imp fun {a b} h => by rintro rfl; exact hirr _ h, ?_⟩
  generalize (visitTU l opt root).cur.post = evs at hp
  induction hp with
  | nil => intro a ha; cases ha
  | @cons x evs h1 _ ih =>
    intro a ha b hb
    rcases List.mem_cons.mp ha with rfl | ha'
    · rcases List.mem_cons.mp hb with rfl | hb'
      · exact .inl rfl
      · exact .inr (.inl ⟨h1 b hb', (h1 b hb').asymm⟩)
    · rcases List.mem_cons.mp hb with rfl | hb'
      · exact .inr (.inr ⟨h1 a ha', (h1 a ha').asymm⟩)
      · exact ih a ha' b hb'

/-- The sample has a file entry. -/
example : ((handleTU Sample.opts true 7 (analyse true
    ⟨t!"a.cc", Sample.cpp, t!"", false, SampleAst.two⟩)).info).isSome = true := by decide +kernel

end Dredd
