/-
C92: the ranges of mutations are disjoint or nested, and ids follow the text.
-/
import Verif.Props.C54
import Verif.Props.C91
import Verif.Proofs.Ranges

namespace Dredd

/-- The first range is to the left of the second, or inside it. -/
def Span.LeftOrIn (a b : Span) : Prop := a.e ≤ b.b ∨ (b.b ≤ a.b ∧ a.e ≤ b.e)

theorem around {ms : List Mutation} {m : Mutation} (h : ms.Pairwise fun x y => x.span.LeftOrIn y.span)
    (h' : ∀ x ∈ ms, m.span.b ≤ x.span.b ∧ x.span.e ≤ m.span.e) :
    (ms ++ [m]).Pairwise fun x y => x.span.LeftOrIn y.span := by
  refine List.pairwise_append.2 ⟨h, List.pairwise_singleton _ _, ?_⟩
  intro x hx y hy
  rw [List.mem_singleton.1 hy]
  exact .inr (h' x hx)

mutual
theorem Lay.muts_nest : (x : Lay) → (off : Nat) → x.Fits off →
    (x.muts.Pairwise fun x y => x.span.LeftOrIn y.span) ∧
    ∀ m ∈ x.muts, off ≤ m.span.b ∧ m.span.e ≤ off + x.src.length
  | .text _, _, _ => by simp [Lay.muts]
  | .const _ _, _, _ => by simp [Lay.muts]
  | .expr s body, off, ⟨hs, hb⟩ => by
    obtain ⟨h1, h2⟩ := Lay.mutsL_nest body off hb
    have e : (Mutation.expr s).span = s.span := rfl
    refine ⟨around h1 fun x hx => ?_, fun m hm => ?_⟩
    · have := h2 x hx
      rw [e, hs]; exact this
    · rcases List.mem_append.1 hm with hm | hm
      · exact h2 m hm
      · rw [List.mem_singleton.1 hm, e, hs]; simp [Lay.src]
  | .bin s lhs g1 g2 rhs, off, h => by
    obtain ⟨-, -, -, hs, ha, hb⟩ := h
    obtain ⟨h1, h2⟩ := Lay.mutsL_nest lhs off ha
    obtain ⟨h3, h4⟩ := Lay.mutsL_nest rhs _ hb
    have e : (Mutation.bin s).span = s.span := rfl
    have hall : ∀ x ∈ Lay.mutsL lhs ++ Lay.mutsL rhs, (Mutation.bin s).span.b ≤ x.span.b ∧
        x.span.e ≤ (Mutation.bin s).span.e := by
      intro x hx
      rw [e, hs]
      rcases List.mem_append.1 hx with hx | hx
      · have := h2 x hx
        exact ⟨this.1, by simp only; omega⟩
      · have := h4 x hx
        exact ⟨by simp only; omega, this.2⟩
    refine ⟨around (List.pairwise_append.2 ⟨h1, h3, fun x hx y hy => ?_⟩) hall, fun m hm => ?_⟩
    · have h5 := h2 x hx
      have h6 := h4 y hy
      exact .inl (by omega)
    · rcases List.mem_append.1 hm with hm | hm
      · have := hall m hm
        rw [e, hs] at this
        simp only [Lay.src, List.length_append] at this ⊢
        omega
      · rw [List.mem_singleton.1 hm, e, hs]
        simp only [Lay.src, List.length_append]
        omega
  | .pre s body, off, ⟨_, hs, hb⟩ => by
    obtain ⟨h1, h2⟩ := Lay.mutsL_nest body _ hb
    have e : (Mutation.un s).span = s.span := rfl
    refine ⟨around h1 fun x hx => ?_, fun m hm => ?_⟩
    · have := h2 x hx
      rw [e, hs]; exact ⟨by simp only; omega, this.2⟩
    · rcases List.mem_append.1 hm with hm | hm
      · have := h2 m hm
        simp only [Lay.src, List.length_append]
        omega
      · rw [List.mem_singleton.1 hm, e, hs]
        simp only [Lay.src, List.length_append]
        omega
  | .post s body, off, ⟨_, hs, hb⟩ => by
    obtain ⟨h1, h2⟩ := Lay.mutsL_nest body _ hb
    have e : (Mutation.un s).span = s.span := rfl
    refine ⟨around h1 fun x hx => ?_, fun m hm => ?_⟩
    · have := h2 x hx
      rw [e, hs]; exact ⟨this.1, by simp only; omega⟩
    · rcases List.mem_append.1 hm with hm | hm
      · have := h2 m hm
        simp only [Lay.src, List.length_append]
        omega
      · rw [List.mem_singleton.1 hm, e, hs]
        simp only [Lay.src, List.length_append]
        omega
  | .stmt s body ext, off, ⟨hs, _, hb⟩ => by
    obtain ⟨h1, h2⟩ := Lay.mutsL_nest body _ hb
    have e : (Mutation.stmt s).span = s.span := rfl
    refine ⟨around h1 fun x hx => ?_, fun m hm => ?_⟩
    · have := h2 x hx
      rw [e, hs]; exact this
    · rcases List.mem_append.1 hm with hm | hm
      · have := h2 m hm
        simp only [Lay.src, List.length_append]
        omega
      · rw [List.mem_singleton.1 hm, e, hs]
        simp only [Lay.src, List.length_append]
        omega
theorem Lay.mutsL_nest : (xs : List Lay) → (off : Nat) → Lay.FitsL off xs →
    ((Lay.mutsL xs).Pairwise fun x y => x.span.LeftOrIn y.span) ∧
    ∀ m ∈ Lay.mutsL xs, off ≤ m.span.b ∧ m.span.e ≤ off + (Lay.srcL xs).length
  | [], _, _ => by simp [Lay.mutsL]
  | x :: xs, off, ⟨hx, hxs⟩ => by
    obtain ⟨h1, h2⟩ := Lay.muts_nest x off hx
    obtain ⟨h3, h4⟩ := Lay.mutsL_nest xs _ hxs
    refine ⟨List.pairwise_append.2 ⟨h1, h3, fun a ha b hb => ?_⟩, fun m hm => ?_⟩
    · have h5 := h2 a ha
      have h6 := h4 b hb
      exact .inl (by omega)
    · simp only [Lay.srcL, List.length_append]
      rcases List.mem_append.1 hm with hm | hm
      · have := h2 m hm
        omega
      · have := h4 m hm
        omega
end

/-- C92: let a file whose syntax tree lies over its text be visited and processed, and suppose it has mutants.
The points of the file and their groups are those of the mutation information (as in C48 and C91).  Of two points,
one has smaller ids than the other, and its range is to the left of that of the other or inside it: ranges
never overlap in part, and the order of the ids can be read off the text. -/
theorem C92 (o : Options) (f : ParsedFile) (first : Nat) (info : FileInfo) (p : Src)
    (h : (handleTU o true first (analyse o.optimise f)).info = some info)
    (hast : p.nodes = [f.ast]) (hsrc : p.str = f.src) (hl : p.Laid 0) :
    ∃ (tree : MTree Group) (pts : List (Nat × List Nat × Mutation)),
      Encodes info.nodes 0 tree ∧
      tree.post = (pts.map fun x => (x.2.2.apply f.lang o first x.1).group).filter (·.ids ≠ []) ∧
      (∀ x ∈ pts, (∃ above s ks, Place f.ast x.2.1 above (.stmt s ks) ∧ s.range = some x.2.2.span) ∧
        x.2.2.span.e ≤ f.src.length) ∧
      pts.Pairwise fun x y => x.2.2.span.LeftOrIn y.2.2.span ∧
        ∀ i ∈ (x.2.2.apply f.lang o first x.1).group.ids,
        ∀ j ∈ (y.2.2.apply f.lang o first y.1).group.ids, i < j := by
  have hpost : (analyse o.optimise f).tree.post = (visitTU f.lang o.optimise f.ast).cur.post.map (·.2) :=
    dropPos_post _
  obtain ⟨ls, e1, e2, -, hf, -⟩ := source_layout o.optimise f p hast hsrc hl
  obtain ⟨h1, h2⟩ := Lay.mutsL_nest ls 0 hf
  rw [← e1, hpost] at h1 h2
  refine ⟨fileTree o.optimise first (analyse o.optimise f),
    numberedAt f.lang o.optimise first (visitTU f.lang o.optimise f.ast).cur.post, ?_, ?_, ?_, ?_⟩
  · rw [handleTU_eq] at h
    split at h
    · cases h
    · simp at h
      rw [← h]
      exact flat_encodes_zero _
  · rw [fileTree, grpTree_post, MTree.tidyUp_post, hpost, groups_numbered]
    rfl
  · intro x hx
    have hx' := snd_mem (numberedAt_snd _ _ _ _) hx
    refine ⟨visitTU_place _ _ _ hx', ?_⟩
    have := (h2 _ (List.mem_map_of_mem hx')).2
    rw [← e2, Nat.zero_add] at this
    exact this
  · rw [List.pairwise_map, ← numberedAt_snd f.lang o.optimise first (visitTU f.lang o.optimise f.ast).cur.post,
      List.pairwise_map] at h1
    refine List.Pairwise.imp ?_ (List.pairwise_and_iff.2 ⟨h1, (numberedAt_le f.lang o.optimise first _).2⟩)
    rintro x y ⟨h3, h4⟩
    refine ⟨h3, fun i hi j hj => ?_⟩
    rw [apply_ids, List.mem_range'_1] at hi hj
    omega

theorem related {x y : List Nat × Mutation} (h1 : ¬ Inside x y) (h2 : ¬ Inside y x) (h3 : ¬ SameTarget x y) :
    ∃ s i j r r', i ≠ j ∧ x.1 = s ++ i :: r ∧ y.1 = s ++ j :: r' := by
  rcases prefix_or_diverge x.1 y.1 with ⟨r, h⟩ | ⟨i, r, h⟩ | h
  · cases r with
    | nil =>
      rw [List.append_nil] at h
      exfalso
      cases hx : x.2.isRemoval <;> cases hy : y.2.isRemoval
      · exact h3 ⟨h, by rw [hx, hy]⟩
      · exact h1 (.inr ⟨h, hx, hy⟩)
      · exact h2 (.inr ⟨h.symm, hy, hx⟩)
      · exact h3 ⟨h, by rw [hx, hy]⟩
    | cons i r => exact absurd (.inl ⟨i, r, h.symm⟩) h2
  · exact absurd (.inl ⟨i, r, h⟩) h1
  · exact h

/-- C92, the tree: the mutation information encodes a tree of points (as in C90).  What is below a point in the
tree is inside its range; what shares a node has the same range; the ranges of any other two points are disjoint. -/
theorem C92_tree (o : Options) (f : ParsedFile) (first : Nat) (info : FileInfo) (p : Src)
    (h : (handleTU o true first (analyse o.optimise f)).info = some info)
    (hast : p.nodes = [f.ast]) (hl : p.Laid 0) :
    ∃ T : MTree (Nat × List Nat × Mutation),
      Encodes info.nodes 0 (T.groups f.lang o first) ∧
      (∀ x ∈ T.post, (∃ above s ks, Place f.ast x.2.1 above (.stmt s ks) ∧ s.range = some x.2.2.span) ∧
        x.2.2.span.b < x.2.2.span.e) ∧
      ∀ x ∈ T.post, ∀ y ∈ T.post,
        (T.Beneath x y → y.2.2.span.b ≤ x.2.2.span.b ∧ x.2.2.span.e ≤ y.2.2.span.e) ∧
        (T.Together x y → x.2.2.span = y.2.2.span) ∧
        (¬ T.Beneath x y → ¬ T.Beneath y x → ¬ T.Together x y →
          x.2.2.span.e ≤ y.2.2.span.b ∨ y.2.2.span.e ≤ x.2.2.span.b) := by
  have hn : Nests (·.2) (placedTree f.lang o.optimise first (visitTU f.lang o.optimise f.ast).cur.tidyUp) :=
    placedTree_nests _ _ _ _ (tidyUp_nests _ _ (visitTU_nests f.lang o.optimise f.ast))
  have hev : ∀ x ∈ (placedTree f.lang o.optimise first (visitTU f.lang o.optimise f.ast).cur.tidyUp).post,
      x.2 ∈ (visitTU f.lang o.optimise f.ast).cur.post := by
    intro x hx
    have hx' := snd_mem (placedTree_post f.lang o.optimise first _) hx
    rwa [MTree.tidyUp_post] at hx'
  have hst : ∀ x ∈ (placedTree f.lang o.optimise first (visitTU f.lang o.optimise f.ast).cur.tidyUp).post,
      ∃ q, p.start x.2.1 0 = some (x.2.2.span.b, q) ∧ x.2.2.span.e = x.2.2.span.b + q.str.length ∧
        x.2.2.span.b < x.2.2.span.e := by
    intro x hx
    obtain ⟨above, s, ks, h1, h2⟩ := visitTU_place _ _ _ (hev x hx)
    exact visitTU_start _ _ _ p hast hl (hev x hx) h1 h2
  refine ⟨placedTree f.lang o.optimise first (visitTU f.lang o.optimise f.ast).cur.tidyUp, ?_, ?_,
    fun x hx y hy => ⟨fun hb => ?_, fun ht => ?_, fun h1 h2 h3 => ?_⟩⟩
  · rw [groups_placedTree, ← tidyUp_dropPos]
    rw [handleTU_eq] at h
    split at h
    · cases h
    · simp at h
      rw [← h]
      exact flat_encodes_zero _
  · intro x hx
    obtain ⟨_, _, _, hlt⟩ := hst x hx
    exact ⟨visitTU_place _ _ _ (hev x hx), hlt⟩
  · obtain ⟨q, h1, h2, -⟩ := hst x hx
    obtain ⟨q', h3, h4, -⟩ := hst y hy
    have : ∃ r, x.2.1 = y.2.1 ++ r := by
      rcases Beneath.inside hb hn with ⟨i, r, h⟩ | ⟨h, -⟩
      · exact ⟨_, h⟩
      · exact ⟨[], by simpa using h⟩
    obtain ⟨r, e⟩ := this
    rw [e] at h1
    have := start_inside h3 h1
    omega
  · obtain ⟨q, h1, h2, -⟩ := hst x hx
    obtain ⟨q', h3, h4, -⟩ := hst y hy
    rw [(Together.same ht hn).1, h3] at h1
    simp only [Option.some.injEq, Prod.mk.injEq] at h1
    obtain ⟨h5, rfl⟩ := h1
    have h6 : x.2.2.span.e = y.2.2.span.e := by rw [h2, h4, h5]
    revert h5 h6
    generalize x.2.2.span = a
    generalize y.2.2.span = b
    cases a
    cases b
    simp only [Span.mk.injEq]
    exact fun h h' => ⟨h.symm, h'⟩
  · have hb := beneath_of _ _ hn x hx y hy
    have hb' := beneath_of _ _ hn y hy x hx
    obtain ⟨s, i, j, r, r', hij, e1, e2⟩ := related (fun h => h1 (hb.1 h)) (fun h => h2 (hb'.1 h)) (fun h => h3 (hb.2 h))
    obtain ⟨q, g1, g2, -⟩ := hst x hx
    obtain ⟨q', g3, g4, -⟩ := hst y hy
    rw [e1] at g1
    rw [e2] at g3
    rcases Nat.lt_or_gt_of_ne hij with hlt | hgt
    · have := start_left hlt g1 g3
      exact .inl (by omega)
    · have := start_left hgt g3 g1
      exact .inr (by omega)

theorem pairwise_either {α : Type} {R : α → α → Prop} {l : List α} (h : l.Pairwise R) (hr : ∀ x, R x x) {x y : α}
    (hx : x ∈ l) (hy : y ∈ l) : R x y ∨ R y x := by
  induction h with
  | nil => cases hx
  | @cons a l g1 _ ih =>
    rcases List.mem_cons.1 hx with e | g2 <;> rcases List.mem_cons.1 hy with e' | g3
    · rw [e, e']; exact .inl (hr a)
    · rw [e]; exact .inl (g1 _ g3)
    · rw [e']; exact .inr (g1 _ g2)
    · exact ih g2 g3

/-- The range is inside the other. -/
def Span.within (a b : Span) : Bool := decide (b.b ≤ a.b) && decide (a.e ≤ b.e)

/-- C92, ids: the points of the file and their groups are those of the mutation information.  For each point, the
ids of the mutants with ranges inside its range are, in order, consecutive numbers. -/
theorem C92_consecutive (o : Options) (f : ParsedFile) (first : Nat) (info : FileInfo) (p : Src)
    (h : (handleTU o true first (analyse o.optimise f)).info = some info)
    (hast : p.nodes = [f.ast]) (hsrc : p.str = f.src) (hl : p.Laid 0) :
    ∃ (tree : MTree Group) (pts : List (Nat × List Nat × Mutation)),
      Encodes info.nodes 0 tree ∧
      tree.post = (pts.map fun x => (x.2.2.apply f.lang o first x.1).group).filter (·.ids ≠ []) ∧
      (∀ x ∈ pts, ∃ above s ks, Place f.ast x.2.1 above (.stmt s ks) ∧ s.range = some x.2.2.span) ∧
      ∀ w ∈ pts, ∃ a n,
        ((pts.filter fun x => x.2.2.span.within w.2.2.span).flatMap fun x =>
          (x.2.2.apply f.lang o first x.1).group.ids) = List.range' a n := by
  have hpost : (analyse o.optimise f).tree.post = (visitTU f.lang o.optimise f.ast).cur.post.map (·.2) :=
    dropPos_post _
  obtain ⟨ls, e1, e2, -, hf, -⟩ := source_layout o.optimise f p hast hsrc hl
  obtain ⟨h1, -⟩ := Lay.mutsL_nest ls 0 hf
  rw [← e1, hpost, List.pairwise_map, ← numberedAt_snd f.lang o.optimise first (visitTU f.lang o.optimise f.ast).cur.post,
    List.pairwise_map] at h1
  have hst : ∀ x ∈ numberedAt f.lang o.optimise first (visitTU f.lang o.optimise f.ast).cur.post,
      x.2.2.span.b < x.2.2.span.e := by
    intro x hx
    have hx' := snd_mem (numberedAt_snd _ _ _ _) hx
    obtain ⟨above, s, ks, h1, h2⟩ := visitTU_place _ _ _ hx'
    obtain ⟨_, _, _, h3⟩ := visitTU_start _ _ _ p hast hl hx' h1 h2
    exact h3
  refine ⟨fileTree o.optimise first (analyse o.optimise f),
    numberedAt f.lang o.optimise first (visitTU f.lang o.optimise f.ast).cur.post, ?_, ?_, ?_, ?_⟩
  · rw [handleTU_eq] at h
    split at h
    · cases h
    · simp at h
      rw [← h]
      exact flat_encodes_zero _
  · rw [fileTree, grpTree_post, MTree.tidyUp_post, hpost, groups_numbered]
    rfl
  · intro x hx
    exact visitTU_place _ _ _ (snd_mem (numberedAt_snd _ _ _ _) hx)
  · intro w hw
    have hrel : ∀ x ∈ numberedAt f.lang o.optimise first (visitTU f.lang o.optimise f.ast).cur.post,
        x.2.2.span.LeftOrIn w.2.2.span ∨ w.2.2.span.LeftOrIn x.2.2.span := by
      intro x hx
      exact pairwise_either (R := fun x y : Nat × List Nat × Mutation => x.2.2.span.LeftOrIn y.2.2.span) h1
        (fun x => .inr ⟨Nat.le_refl _, Nat.le_refl _⟩) hx hw
    have h2 := List.Pairwise.imp_of_mem (S := fun x y : Nat × List Nat × Mutation =>
      x.2.2.span.LeftOrIn y.2.2.span ∧ x.2.2.span.b < x.2.2.span.e ∧ y.2.2.span.b < y.2.2.span.e ∧
        (x.2.2.span.LeftOrIn w.2.2.span ∨ w.2.2.span.LeftOrIn x.2.2.span)) (fun {x y} hx hy h =>
        ⟨h, hst x hx, hst y hy, hrel x hx⟩) h1
    obtain ⟨l1, l3, e, -⟩ := filter_segment (q := fun x => x.2.2.span.within w.2.2.span) h2 (by
      rintro x y z ⟨g1, g2, g3, -⟩ ⟨g4, -, g5, g6⟩ hx hz
      simp only [Span.within, Bool.and_eq_true, decide_eq_true_eq] at hx hz ⊢
      simp only [Span.LeftOrIn] at g1 g4 g6
      omega)
    exact ⟨_, _, numberedAt_segment f.lang o first _ _ _ _ _ e⟩

/-- C92 for a whole run, where the syntax tree of each file lies over its text. -/
theorem C92_run (o : Options) (fs : List ParsedFile) (e : FileInfo)
    (hs : ∀ f ∈ fs, ∃ p : Src, p.nodes = [f.ast] ∧ p.str = f.src ∧ p.Laid 0)
    (he : e ∈ (runTool o true (fs.map (analyse o.optimise))).info) :
    ∃ f ∈ fs, e.filename = f.name ∧
    ∃ (first : Nat) (tree : MTree Group) (pts : List (Nat × List Nat × Mutation)),
      Encodes e.nodes 0 tree ∧
      tree.post = (pts.map fun x => (x.2.2.apply f.lang o first x.1).group).filter (·.ids ≠ []) ∧
      (∀ x ∈ pts, (∃ above s ks, Place f.ast x.2.1 above (.stmt s ks) ∧ s.range = some x.2.2.span) ∧
        x.2.2.span.e ≤ f.src.length) ∧
      pts.Pairwise fun x y => x.2.2.span.LeftOrIn y.2.2.span ∧
        ∀ i ∈ (x.2.2.apply f.lang o first x.1).group.ids,
        ∀ j ∈ (y.2.2.apply f.lang o first y.1).group.ids, i < j := by
  obtain ⟨f, hf, hn, first, h⟩ := info_file o fs e he
  obtain ⟨p, h1, h2, h3⟩ := hs f hf
  exact ⟨f, hf, hn, first, C92 o f first e p h h1 h2 h3⟩

/-- A sample with eight points. -/
example :
    SampleSrc.parsed.src = t!"void g(){x = -b; case 1: y++;}\nint a[N];" ∧
    ((handleTU Sample.opts true 0 (analyse Sample.opts.optimise SampleSrc.parsed)).info).isSome = true ∧
    SampleSrc.file.nodes = [SampleSrc.parsed.ast] ∧ SampleSrc.file.str = SampleSrc.parsed.src ∧
    SampleSrc.file.Laid 0 ∧
    (analyse Sample.opts.optimise SampleSrc.parsed).tree.post.map (·.span) =
      [⟨14, 15⟩, ⟨14, 15⟩, ⟨13, 15⟩, ⟨13, 15⟩, ⟨9, 15⟩, ⟨9, 15⟩, ⟨25, 28⟩, ⟨25, 28⟩] :=
  ⟨by decide, by decide +kernel, rfl, rfl, SampleSrc.file_laid, by decide +kernel⟩

end Dredd
