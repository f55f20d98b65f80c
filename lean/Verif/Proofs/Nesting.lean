/-
How the mutations of a file are nested (C90).
-/
import Verif.Spec.Nesting
import Verif.Props.C48

namespace Dredd

theorem Inside.not_same {a b} (h : Inside a b) : ¬ SameTarget a b := by
  rintro ⟨h1, h2⟩
  rcases h with ⟨i, r, h⟩ | ⟨-, h, h'⟩
  · rw [h1] at h
    have := congrArg List.length h
    simp at this
  · rw [h, h'] at h2; cases h2

theorem SameTarget.symm {a b} (h : SameTarget a b) : SameTarget b a := ⟨h.1.symm, h.2.symm⟩

theorem Inside.asymm {a b} (h : Inside a b) : ¬ Inside b a := by
  intro h'
  rcases h with ⟨i, r, h⟩ | ⟨h, h2, h3⟩ <;> rcases h' with ⟨j, r', h'⟩ | ⟨h', h2', h3'⟩
  · have h1 := congrArg List.length h
    have h2 := congrArg List.length h'
    simp at h1 h2
    omega
  · rw [h'] at h
    have := congrArg List.length h
    simp at this
  · rw [h] at h'
    have := congrArg List.length h'
    simp at this
  · rw [h2] at h3'; cases h3'

/-- Neither is inside the other, and they belong to different things. -/
def Apart (a b : List Nat × Mutation) : Prop := ¬ Inside a b ∧ ¬ Inside b a ∧ ¬ SameTarget a b

theorem Apart.symm {a b} (h : Apart a b) : Apart b a := ⟨h.2.1, h.1, fun h' => h.2.2 h'.symm⟩

variable {α : Type}

/-- Two trees with nothing in common. -/
def TreesApart (g : α → List Nat × Mutation) (k k' : MTree α) : Prop :=
  ∀ a ∈ k.post, ∀ b ∈ k'.post, Apart (g a) (g b)

mutual
/-- The nesting of a tree is that of the places. -/
def Nests (g : α → List Nat × Mutation) : MTree α → Prop
  | .node ms ks => (∀ m ∈ ms, ∀ a ∈ MTree.postL ks, Inside (g a) (g m)) ∧
      (∀ m ∈ ms, ∀ m' ∈ ms, SameTarget (g m) (g m')) ∧ ks.Pairwise (TreesApart g) ∧ NestsL g ks
def NestsL (g : α → List Nat × Mutation) : List (MTree α) → Prop
  | [] => True
  | k :: ks => Nests g k ∧ NestsL g ks
end

theorem NestsL_mem {g : α → List Nat × Mutation} {ks : List (MTree α)} (h : NestsL g ks) {k} (hk : k ∈ ks) :
    Nests g k := by
  induction ks with
  | nil => cases hk
  | cons k' ks ih =>
    rcases List.mem_cons.1 hk with rfl | hk
    · exact h.1
    · exact ih h.2 hk

theorem NestsL_append {g : α → List Nat × Mutation} {ks ks' : List (MTree α)} (h : NestsL g ks)
    (h' : NestsL g ks') : NestsL g (ks ++ ks') := by
  induction ks with
  | nil => exact h'
  | cons k ks ih => exact ⟨h.1, ih h.2⟩

theorem mem_postL {ks : List (MTree α)} {a : α} : a ∈ MTree.postL ks ↔ ∃ k ∈ ks, a ∈ k.post := by
  induction ks with
  | nil => simp [MTree.postL]
  | cons k ks ih => simp [MTree.postL, ih]

theorem mem_post {ms : List α} {ks : List (MTree α)} {a : α} :
    a ∈ (MTree.node ms ks).post ↔ a ∈ MTree.postL ks ∨ a ∈ ms := by
  simp [MTree.post]

theorem postL_append' (ks ks' : List (MTree α)) :
    MTree.postL (ks ++ ks') = MTree.postL ks ++ MTree.postL ks' := by
  induction ks with
  | nil => rfl
  | cons k ks ih => simp [MTree.postL, ih]

theorem pairwise_apart {R : MTree α → MTree α → Prop} (hs : ∀ k k', R k k' → R k' k) {ks : List (MTree α)}
    (h : ks.Pairwise R) {k k'} (hk : k ∈ ks) (hk' : k' ∈ ks) : k = k' ∨ R k k' := by
  induction h with
  | nil => cases hk
  | @cons x xs h1 _ ih =>
    rcases List.mem_cons.1 hk with e | g1 <;> rcases List.mem_cons.1 hk' with e' | g2
    · exact .inl (e.trans e'.symm)
    · exact .inr (e ▸ h1 _ g2)
    · exact .inr (e' ▸ hs _ _ (h1 _ g1))
    · exact ih g1 g2

theorem TreesApart.symm {g : α → List Nat × Mutation} {k k' : MTree α} (h : TreesApart g k k') :
    TreesApart g k' k := fun a ha b hb => (h b hb a ha).symm

/-! ### Nesting as a relation -/

theorem Beneath.mem {t : MTree α} {a b : α} (h : t.Beneath a b) : a ∈ t.post ∧ b ∈ t.post := by
  induction h with
  | here hb ha => exact ⟨mem_post.2 (.inl ha), mem_post.2 (.inr hb)⟩
  | deep hk _ ih =>
    exact ⟨mem_post.2 (.inl (mem_postL.2 ⟨_, hk, ih.1⟩)), mem_post.2 (.inl (mem_postL.2 ⟨_, hk, ih.2⟩))⟩

theorem Beneath.inside {g : α → List Nat × Mutation} {t : MTree α} {a b : α} (h : t.Beneath a b)
    (hn : Nests g t) : Inside (g a) (g b) := by
  induction h with
  | here hb ha => exact hn.1 _ hb _ ha
  | deep hk _ ih => exact ih (NestsL_mem hn.2.2.2 hk)

theorem Together.same {g : α → List Nat × Mutation} {t : MTree α} {a b : α} (h : t.Together a b)
    (hn : Nests g t) : SameTarget (g a) (g b) := by
  induction h with
  | here ha hb => exact hn.2.1 _ ha _ hb
  | deep hk _ ih => exact ih (NestsL_mem hn.2.2.2 hk)

mutual
theorem beneath_of (g : α → List Nat × Mutation) : (t : MTree α) → Nests g t → ∀ a ∈ t.post, ∀ b ∈ t.post,
    (Inside (g a) (g b) → t.Beneath a b) ∧ (SameTarget (g a) (g b) → t.Together a b)
  | .node ms ks, hn => fun a ha b hb => by
    rcases mem_post.1 ha with ha | ha <;> rcases mem_post.1 hb with hb | hb
    · obtain ⟨k, hk, hak⟩ := mem_postL.1 ha
      obtain ⟨k', hk', hbk⟩ := mem_postL.1 hb
      rcases pairwise_apart (fun _ _ => TreesApart.symm) hn.2.2.1 hk hk' with rfl | h
      · obtain ⟨h1, h2⟩ := beneathL_of g ks hn.2.2.2 k hk a hak b hbk
        exact ⟨fun h => .deep hk (h1 h), fun h => .deep hk (h2 h)⟩
      · have := h a hak b hbk
        exact ⟨fun h' => absurd h' this.1, fun h' => absurd h' this.2.2⟩
    · exact ⟨fun _ => .here hb ha, fun h => absurd h (hn.1 b hb a ha).not_same⟩
    · have := hn.1 a ha b hb
      exact ⟨fun h => absurd h this.asymm, fun h => absurd h.symm this.not_same⟩
    · exact ⟨fun h => absurd (hn.2.1 a ha b hb) h.not_same, fun _ => .here ha hb⟩
termination_by structural t => t
theorem beneathL_of (g : α → List Nat × Mutation) : (ks : List (MTree α)) → NestsL g ks → ∀ k ∈ ks,
    ∀ a ∈ k.post, ∀ b ∈ k.post,
    (Inside (g a) (g b) → k.Beneath a b) ∧ (SameTarget (g a) (g b) → k.Together a b)
  | [], _ => fun k hk => by cases hk
  | k' :: ks, hn => fun k hk => by
    rcases List.mem_cons.1 hk with e | hk
    · rw [e]; exact beneath_of g k' hn.1
    · exact beneathL_of g ks hn.2 k hk
termination_by structural ks => ks
end

/-! ### Tidying up -/

open MTree in
mutual
theorem prune_nests (g : α → List Nat × Mutation) : (t : MTree α) → Nests g t → Nests g t.prune
  | node ms ks, h => by
    obtain ⟨h1, h2, h3, h4⟩ := h
    obtain ⟨h5, h6⟩ := pruneList_nests g ks h3 h4
    exact ⟨by rw [pruneList_post]; exact h1, h2, h5, h6⟩
theorem pruneList_nests (g : α → List Nat × Mutation) : (ks : List (MTree α)) → ks.Pairwise (TreesApart g) →
    NestsL g ks → (pruneList ks).Pairwise (TreesApart g) ∧ NestsL g (pruneList ks)
  | [], _, _ => by simp [pruneList, NestsL]
  | k :: ks, hp, h => by
    obtain ⟨h1, h2⟩ := List.pairwise_cons.1 hp
    obtain ⟨h3, h4⟩ := pruneList_nests g ks h2 h.2
    simp only [pruneList]
    split
    · exact ⟨h3, h4⟩
    · refine ⟨List.pairwise_cons.2 ⟨?_, h3⟩, prune_nests g k h.1, h4⟩
      intro k' hk' a ha b hb
      rw [prune_post] at ha
      have : b ∈ postL (pruneList ks) := mem_postL.2 ⟨k', hk', hb⟩
      rw [pruneList_post] at this
      obtain ⟨k'', hk'', hb⟩ := mem_postL.1 this
      exact h1 k'' hk'' a ha b hb
end

open MTree in
mutual
theorem compress_nests (g : α → List Nat × Mutation) : (t : MTree α) → Nests g t → Nests g t.compress
  | node [] [k], h => by
    rw [compress]
    exact compress_nests g k h.2.2.2.1
  | node [] [], h => by simpa [compress, compressList] using h
  | node [] (k :: k' :: ks), h => by
    obtain ⟨h1, h2, h3, h4⟩ := h
    obtain ⟨h5, h6⟩ := compressList_nests g (k :: k' :: ks) h3 h4
    rw [compress]
    · exact ⟨by simp, by simp, h5, h6⟩
    · simp
  | node (m :: ms) ks, h => by
    obtain ⟨h1, h2, h3, h4⟩ := h
    obtain ⟨h5, h6⟩ := compressList_nests g ks h3 h4
    rw [compress]
    · exact ⟨by rw [compressList_post]; exact h1, h2, h5, h6⟩
    · simp
theorem compressList_nests (g : α → List Nat × Mutation) : (ks : List (MTree α)) → ks.Pairwise (TreesApart g) →
    NestsL g ks → (compressList ks).Pairwise (TreesApart g) ∧ NestsL g (compressList ks)
  | [], _, _ => by simp [compressList, NestsL]
  | k :: ks, hp, h => by
    obtain ⟨h1, h2⟩ := List.pairwise_cons.1 hp
    obtain ⟨h3, h4⟩ := compressList_nests g ks h2 h.2
    rw [compressList]
    refine ⟨List.pairwise_cons.2 ⟨?_, h3⟩, compress_nests g k h.1, h4⟩
    intro k' hk' a ha b hb
    rw [compress_post] at ha
    have : b ∈ postL (compressList ks) := mem_postL.2 ⟨k', hk', hb⟩
    rw [compressList_post] at this
    obtain ⟨k'', hk'', hb⟩ := mem_postL.1 this
    exact h1 k'' hk'' a ha b hb
end

theorem tidyUp_nests (g : α → List Nat × Mutation) (t : MTree α) (h : Nests g t) : Nests g t.tidyUp :=
  compress_nests g _ (prune_nests g t h)

/-! ### The visitor -/

/-- A step of the visitor adds trees to the current node. -/
def Plants (P : List Nat × Mutation → Prop) (f : VState → VState) : Prop :=
  ∀ st : VState, ∃ new, (f st).cur = .node st.cur.muts (st.cur.kids ++ new) ∧ NestsL id new ∧
    (∀ a ∈ MTree.postL new, P a) ∧ new.Pairwise (TreesApart id)

theorem Plants.skip {P} {f : VState → VState} (h : ∀ st, (f st).cur = st.cur) : Plants P f := by
  intro st
  refine ⟨[], ?_, trivial, by simp [MTree.postL], .nil⟩
  rw [h, List.append_nil]
  cases st.cur
  rfl

theorem Plants.weaken {P P'} {f : VState → VState} (h : ∀ ev, P ev → P' ev) (hf : Plants P f) : Plants P' f := by
  intro st
  obtain ⟨new, h1, h2, h3, h4⟩ := hf st
  exact ⟨new, h1, h2, fun a ha => h a (h3 a ha), h4⟩

theorem Plants.congr {P} {f g : VState → VState} (h : ∀ st, f st = g st) (hf : Plants P f) : Plants P g := by
  have : f = g := funext h
  rw [← this]; exact hf

theorem Plants.seq {P P'} {f g : VState → VState} (hf : Plants P f) (hg : Plants P' g)
    (h : ∀ a b, P a → P' b → Apart a b) : Plants (fun a => P a ∨ P' a) (fun st => g (f st)) := by
  intro st
  obtain ⟨n1, h1, h2, h3, h4⟩ := hf st
  obtain ⟨n2, h5, h6, h7, h8⟩ := hg (f st)
  refine ⟨n1 ++ n2, ?_, NestsL_append h2 h6, ?_, List.pairwise_append.2 ⟨h4, h8, ?_⟩⟩
  · rw [h5, h1]; simp [MTree.muts, MTree.kids]
  · intro a ha
    rw [postL_append', List.mem_append] at ha
    rcases ha with ha | ha
    · exact .inl (h3 a ha)
    · exact .inr (h7 a ha)
  · intro k hk k' hk' a ha b hb
    exact h a b (h3 a (mem_postL.2 ⟨k, hk, ha⟩)) (h7 b (mem_postL.2 ⟨k', hk', hb⟩))

theorem Plants.inChild {P} {f : VState → VState} (hf : Plants P f) (p : List Nat)
    (ms : VState → List Mutation) (h : ∀ st, ∀ a, P a → ∀ m ∈ ms st, Inside a (p, m))
    (hs : ∀ st, ∀ m ∈ ms st, ∀ m' ∈ ms st, m.isRemoval = m'.isRemoval) :
    Plants (fun ev => P ev ∨ ∃ st, ∃ m ∈ ms st, ev = (p, m))
      (fun st => st.inChild fun st => (f st).add p (ms (f st))) := by
  intro st
  obtain ⟨new, h1, h2, h3, h4⟩ := hf { st with cur := .node [] [] }
  refine ⟨[.node ((ms (f { st with cur := .node [] [] })).map fun m => (p, m)) new], ?_, ⟨⟨?_, ?_, h4, h2⟩, trivial⟩,
    ?_, List.pairwise_singleton _ _⟩
  · simp only [VState.inChild, add_cur, MTree.addChild, h1]
    simp [MTree.muts, MTree.kids]
  · intro m hm a ha
    obtain ⟨m', hm', rfl⟩ := List.mem_map.1 hm
    exact h _ a (h3 a ha) m' hm'
  · intro m hm m' hm'
    obtain ⟨n, hn, rfl⟩ := List.mem_map.1 hm
    obtain ⟨n', hn', rfl⟩ := List.mem_map.1 hm'
    exact ⟨rfl, hs _ n hn n' hn'⟩
  · intro a ha
    simp only [MTree.postL, List.append_nil] at ha
    rcases mem_post.1 ha with ha | ha
    · exact .inl (h3 a ha)
    · obtain ⟨m, hm, rfl⟩ := List.mem_map.1 ha
      exact .inr ⟨_, m, hm, rfl⟩

theorem apart_sibling {p i a b} (ha : Under (p ++ [i]) a) (hb : UnderFrom p (i + 1) b) : Apart a b := by
  obtain ⟨r, ha⟩ := ha
  obtain ⟨j, r', hj, hb⟩ := hb
  have key : ∀ (r s t : List Nat) (x y : Nat), x ≠ y → p ++ [x] ++ r ++ s ≠ p ++ y :: t := by
    intro r s t x y hxy h
    simp only [List.append_assoc, List.append_cancel_left_eq, List.cons_append, List.nil_append,
      List.cons.injEq] at h
    exact hxy h.1
  refine ⟨?_, ?_, ?_⟩
  · rintro (⟨k, s, h⟩ | ⟨h, -⟩)
    · rw [ha, hb] at h
      refine key r [] (r' ++ k :: s) i j (by omega) ?_
      simpa using h
    · rw [ha, hb] at h
      exact key r [] r' i j (by omega) (by simpa using h)
  · rintro (⟨k, s, h⟩ | ⟨h, -⟩)
    · rw [ha, hb] at h
      exact key r (k :: s) r' i j (by omega) (by simpa using h.symm)
    · rw [ha, hb] at h
      exact key r [] r' i j (by omega) (by simpa using h.symm)
  · rintro ⟨h, -⟩
    rw [ha, hb] at h
    exact key r [] r' i j (by omega) (by simpa using h)

theorem Plants.cons {p i} {f g : VState → VState} (hf : Plants (Under (p ++ [i])) f)
    (hg : Plants (UnderFrom p (i + 1)) g) : Plants (UnderFrom p i) (fun st => g (f st)) := by
  refine Plants.weaken ?_ (Plants.seq hf hg fun a b ha hb => apart_sibling ha hb)
  rintro ev (h | h)
  · exact h.kid
  · exact h.mono (by omega)

theorem removal_of_rank {m : Mutation} : m.isRemoval = true ↔ ¬ m.rank < 2 := by
  cases m <;> simp [Mutation.isRemoval, Mutation.rank]

theorem stmtStep_plants (opt : Bool) (c : Ctx) (s : AStmt) (ks : List Node)
    (kids last block : Ctx → VState → VState) (hk : Plants (UnderFrom c.pos 0) (kids c))
    (hl : Plants (UnderFrom c.pos 0) (last c)) (hb : Plants (UnderFrom c.pos 0) (block c)) :
    Plants (UnderLow c.pos) (stmtStep opt c s ks kids last block) := by
  by_cases hs : skipStmt c.above s = true
  · refine Plants.skip fun st => ?_
    simp [stmtStep, hs]
  · have hs : skipStmt c.above s = false := by simpa using hs
    have none_ : ∀ f : VState → VState, Plants (UnderFrom c.pos 0) f →
        Plants (UnderLow c.pos) (fun st => st.inChild f) := by
      intro f hf
      refine Plants.weaken (P := fun ev => UnderFrom c.pos 0 ev ∨ ∃ st : VState, ∃ m ∈ ([] : List Mutation), ev = (c.pos, m)) ?_ ?_
      · rintro ev (h | ⟨_, m, hm, _⟩)
        · exact .inl h
        · simp at hm
      · refine Plants.congr (fun st => inChild_none st f c.pos) ?_
        exact Plants.inChild hf c.pos (fun _ => []) (by simp) (by simp)
    have hst : ∀ st, stmtStep opt c s ks kids last block st = st.inChild (fun st =>
        match s.kind with
        | .compound => block c st
        | .case_ => last c st
        | .expr e => (kids c st).add c.pos (visitExpr opt c (kids c st).locs s e ks)
        | _ => kids c st) := by
      intro st
      simp only [stmtStep, hs]
      rfl
    cases hkind : s.kind
    case compound =>
      refine Plants.congr (fun st => ?_) (none_ _ hb)
      rw [hst, hkind]
    case case_ =>
      refine Plants.congr (fun st => ?_) (none_ _ hl)
      rw [hst, hkind]
    case expr e =>
      refine Plants.congr (fun st => by rw [hst, hkind]) ?_
      have hrk := fun st : VState => (rank_visitExpr opt c st.locs s e ks).2
      refine Plants.weaken ?_ (Plants.inChild hk c.pos (fun st => visitExpr opt c st.locs s e ks) ?_ ?_)
      · rintro ev (h | ⟨st, m, hm, rfl⟩)
        · exact .inl h
        · exact .inr ⟨rfl, hrk st m hm⟩
      · rintro st a ⟨j, r, -, ha⟩ m hm
        exact .inl ⟨j, r, ha⟩
      · intro st m hm m' hm'
        have h1 := hrk st m hm
        have h2 := hrk st m' hm'
        cases h3 : m.isRemoval <;> cases h4 : m'.isRemoval <;> first | rfl | skip
        · exact absurd h2 (removal_of_rank.1 h4)
        · exact absurd h1 (removal_of_rank.1 h3)
    all_goals
      refine Plants.congr (fun st => ?_) (none_ _ hk)
      rw [hst, hkind]

theorem item_plants (opt : Bool) (c : Ctx) (s : AStmt) (f : VState → VState)
    (hf : Plants (UnderLow c.pos) f) :
    Plants (Under c.pos) (fun st => st.inChild fun st => (f st).add c.pos (removal opt s)) := by
  have hrk := (rank_removal opt s).2
  have hrm : ∀ m ∈ removal opt s, m.isRemoval = true := fun m hm =>
    removal_of_rank.2 (by rw [hrk m hm]; omega)
  refine Plants.weaken ?_ (Plants.inChild hf c.pos (fun _ => removal opt s) ?_ ?_)
  · rintro ev (h | ⟨_, m, _, rfl⟩)
    · exact h.under
    · exact ⟨[], by simp⟩
  · rintro st a (⟨j, r, -, ha⟩ | ⟨ha, hr⟩) m hm
    · exact .inl ⟨j, r, ha⟩
    · refine .inr ⟨ha, ?_, hrm m hm⟩
      cases h : a.2.isRemoval
      · rfl
      · exact absurd hr (removal_of_rank.1 h)
  · intro st m hm m' hm'
    rw [hrm m hm, hrm m' hm']

theorem declStep_plants {P} (l : Lang) (c : Ctx) (d : Decl) (kids : Ctx → VState → VState)
    (h : ∀ c', declCtx l c d = some c' → Plants P (kids c')) : Plants P (declStep l c d kids) := by
  unfold declStep
  split
  · exact Plants.skip (noteDecl_cur l d)
  · intro st
    obtain ⟨new, h1, h2⟩ := h _ ‹_› (noteDecl l d st)
    refine ⟨new, ?_, h2⟩
    rw [visitDecl_cur, h1, noteDecl_cur]

mutual
theorem traverse_plants (l : Lang) (opt : Bool) (c : Ctx) : (n : Node) →
    Plants (Under c.pos) (traverse l opt c n)
  | .decl d ks => by
    by_cases hd : (!d.isTU && !d.range.isSome) = true
    · refine Plants.skip fun st => ?_
      simp only [traverse, hd, if_true]
    · have e : ∀ st, declStep l c d (fun c st => traverseL l opt c (.decl d) 0 ks st) st
          = traverse l opt c (.decl d ks) st := by
        intro st
        rw [traverse, if_neg hd]
      refine Plants.congr e (declStep_plants l c d _ fun c' hc' => ?_)
      rw [← (declCtx_pos hc').1]
      exact Plants.weaken (fun _ h => h.under) (traverseL_plants l opt c' (.decl d) 0 ks)
  | .stmt s ks => by
    have e : ∀ st, stmtStep opt c s ks (fun c st => traverseL l opt c (.stmt s) 0 ks st)
      (fun c st => traverseLast l opt c (.stmt s) 0 ks st)
      (fun c st => blockItems l opt c (.stmt s) 0 ks st) st = traverse l opt c (.stmt s ks) st := by
      intro st; rw [traverse]
    exact Plants.congr e (Plants.weaken (fun _ h => h.under) (stmtStep_plants opt c s ks _ _ _
      (traverseL_plants l opt c (.stmt s) 0 ks) (traverseLast_plants l opt c (.stmt s) 0 ks)
      (blockItems_plants l opt c (.stmt s) 0 ks)))
  | .other k ks => by
    by_cases hs : skipOther l k = true
    · refine Plants.skip fun st => ?_
      simp only [traverse, hs, if_true]
    · have e : ∀ st, traverseL l opt c (.other k) 0 ks st = traverse l opt c (.other k ks) st := by
        intro st; rw [traverse, if_neg hs]
      exact Plants.congr e (Plants.weaken (fun _ h => h.under) (traverseL_plants l opt c (.other k) 0 ks))

theorem traverseL_plants (l : Lang) (opt : Bool) (c : Ctx) (n : NodeInfo) (i : Nat) :
    (ks : List Node) → Plants (UnderFrom c.pos i) (traverseL l opt c n i ks)
  | [] => Plants.skip fun st => by rw [traverseL]
  | k :: ks => Plants.congr (fun st => by rw [traverseL]) (Plants.cons (f := traverse l opt (c.enter n i) k)
      (traverse_plants l opt (c.enter n i) k) (traverseL_plants l opt c n (i + 1) ks))

theorem traverseLast_plants (l : Lang) (opt : Bool) (c : Ctx) (n : NodeInfo) (i : Nat) :
    (ks : List Node) → Plants (UnderFrom c.pos i) (traverseLast l opt c n i ks)
  | [] => Plants.skip fun st => by rw [traverseLast]
  | [k] => Plants.congr (f := traverse l opt (c.enter n i) k) (fun st => by rw [traverseLast])
      (Plants.weaken (fun _ h => Under.kid h) (traverse_plants l opt (c.enter n i) k))
  | k :: k' :: ks => Plants.congr (f := traverseLast l opt c n (i + 1) (k' :: ks))
      (fun st => by simp [traverseLast]) (Plants.weaken (fun _ h => h.mono (by omega))
        (traverseLast_plants l opt c n (i + 1) (k' :: ks)))

theorem blockItems_plants (l : Lang) (opt : Bool) (c : Ctx) (n : NodeInfo) (i : Nat) :
    (ks : List Node) → Plants (UnderFrom c.pos i) (blockItems l opt c n i ks)
  | [] => Plants.skip fun st => by rw [blockItems]
  | k :: ks => Plants.congr (fun st => by rw [blockItems]) (Plants.cons (f := blockItem l opt (c.enter n i) k)
      (blockItem_plants l opt (c.enter n i) k) (blockItems_plants l opt c n (i + 1) ks))

theorem blockItem_plants (l : Lang) (opt : Bool) (c : Ctx) : (n : Node) →
    Plants (Under c.pos) (blockItem l opt c n)
  | .decl d ks => Plants.skip fun st => by rw [blockItem]; simp
  | .other k ks => Plants.skip fun st => by rw [blockItem]; simp
  | .stmt s ks => by
    by_cases hk : s.kind = .case_ ∨ s.kind = .default_
    · refine Plants.congr (f := blockLast l opt c (.stmt s) 0 ks) (fun st => ?_) ?_
      · rw [blockItem]; rcases hk with hk | hk <;> simp [hk]
      · exact Plants.weaken (fun _ h => h.under) (blockLast_plants l opt c (.stmt s) 0 ks)
    · have hk1 : s.kind ≠ .case_ := fun h => hk (.inl h)
      have hk2 : s.kind ≠ .default_ := fun h => hk (.inr h)
      by_cases hp : pointless opt s = true
      · refine Plants.skip fun st => ?_
        rw [blockItem]
        split
        · contradiction
        · contradiction
        · rw [if_pos hp]
      · refine Plants.congr (f := fun st => st.inChild fun st =>
          (stmtStep opt c s ks (fun c st => traverseL l opt c (.stmt s) 0 ks st)
            (fun c st => traverseLast l opt c (.stmt s) 0 ks st)
            (fun c st => blockItems l opt c (.stmt s) 0 ks st) st).add c.pos (removal opt s)) (fun st => ?_) ?_
        · rw [blockItem]
          split
          · contradiction
          · contradiction
          · rw [if_neg hp]
        · exact item_plants opt c s _ (stmtStep_plants opt c s ks _ _ _
            (traverseL_plants l opt c (.stmt s) 0 ks) (traverseLast_plants l opt c (.stmt s) 0 ks)
            (blockItems_plants l opt c (.stmt s) 0 ks))

theorem blockLast_plants (l : Lang) (opt : Bool) (c : Ctx) (n : NodeInfo) (i : Nat) :
    (ks : List Node) → Plants (UnderFrom c.pos i) (blockLast l opt c n i ks)
  | [] => Plants.skip fun st => by rw [blockLast]
  | [k] => Plants.congr (f := blockItem l opt (c.enter n i) k) (fun st => by rw [blockLast])
      (Plants.weaken (fun _ h => Under.kid h) (blockItem_plants l opt (c.enter n i) k))
  | k :: k' :: ks => Plants.congr (f := blockLast l opt c n (i + 1) (k' :: ks))
      (fun st => by simp [blockLast]) (Plants.weaken (fun _ h => h.mono (by omega))
        (blockLast_plants l opt c n (i + 1) (k' :: ks)))
end

theorem visitTU_nests (l : Lang) (opt : Bool) (root : Node) : Nests id (visitTU l opt root).cur := by
  obtain ⟨new, h1, h2, h3, h4⟩ := traverse_plants l opt ⟨[], [], []⟩ root VState.start
  have : (visitTU l opt root).cur = .node [] new := h1
  rw [this]
  exact ⟨by simp, by simp, h4, h2⟩

/-- Each mutation belongs to the statement or expression at its place. -/
theorem visitTU_place (l : Lang) (opt : Bool) (root : Node) {ev} (h : ev ∈ (visitTU l opt root).cur.post) :
    ∃ above s ks, Place root ev.1 above (.stmt s ks) ∧ s.range = some ev.2.span := by
  obtain ⟨c, above, s, ks, hf, hp, _, ho⟩ := ((visitTU_good l opt root).1 _ h).fine
  refine ⟨above, s, ks, hp ▸ hf.place, ?_⟩
  rcases ho with ⟨hs, e, locs, hk, hm⟩ | ⟨hi, hm⟩
  · obtain ⟨sp, t, _, _, hin, _, hr, _, ht, _, _, hv⟩ := mem_visitExpr hm
    rw [hv] at hm
    rw [hr]
    rcases List.mem_append.mp hm with hm | hm
    · rcases mem_handleOp hm with ⟨op, hc, hm⟩ | ⟨op, hc, hm⟩
      · obtain ⟨_, _, _, _, _, _, _, _, _, _, h2⟩ := mem_handleUnary hm
        rw [h2]; rfl
      · obtain ⟨_, _, _, _, _, _, _, _, _, _, _, _, _, _, _, _, _, h2⟩ := mem_handleBinary hm
        rw [h2]; rfl
    · obtain ⟨_, _, _, _, _, _, _, _, h2⟩ := mem_handleExpr hm
      rw [h2]; rfl
  · obtain ⟨sp, hr, hm⟩ := removal_span hm
    rw [hm]
    exact hr

/-! ### Numbered trees -/

mutual
/-- The tree with the id of the first mutant of each point. -/
def placedTree (l : Lang) (opt : Bool) : Nat → MTree (List Nat × Mutation) → MTree (Nat × List Nat × Mutation)
  | id, .node ms ks =>
    .node (numberedAt l opt (id + countAll l opt ((MTree.postL ks).map (·.2))) ms) (placedTreeL l opt id ks)
def placedTreeL (l : Lang) (opt : Bool) : Nat → List (MTree (List Nat × Mutation)) →
    List (MTree (Nat × List Nat × Mutation))
  | _, [] => []
  | id, k :: ks => placedTree l opt id k :: placedTreeL l opt (id + countAll l opt (k.post.map (·.2))) ks
end

mutual
theorem placedTree_post (l : Lang) (opt : Bool) : (id : Nat) → (t : MTree (List Nat × Mutation)) →
    (placedTree l opt id t).post.map (·.2) = t.post
  | id, .node ms ks => by
    simp only [placedTree, MTree.post, List.map_append, placedTreeL_post l opt id ks, numberedAt_snd]
theorem placedTreeL_post (l : Lang) (opt : Bool) : (id : Nat) → (ks : List (MTree (List Nat × Mutation))) →
    (MTree.postL (placedTreeL l opt id ks)).map (·.2) = MTree.postL ks
  | _, [] => rfl
  | id, k :: ks => by
    simp only [placedTreeL, MTree.postL, List.map_append, placedTree_post l opt id k, placedTreeL_post l opt _ ks]
end

theorem snd_mem {l : List (Nat × List Nat × Mutation)} {l' : List (List Nat × Mutation)}
    (h : l.map (·.2) = l') {x} (hx : x ∈ l) : x.2 ∈ l' := h ▸ List.mem_map_of_mem hx

mutual
theorem placedTree_nests (l : Lang) (opt : Bool) : (id : Nat) → (t : MTree (List Nat × Mutation)) →
    Nests (fun x => x) t → Nests (·.2) (placedTree l opt id t)
  | id, .node ms ks, h => by
    obtain ⟨h1, h2, h3, h4⟩ := h
    obtain ⟨h5, h6⟩ := placedTreeL_nests l opt id ks h3 h4
    refine ⟨fun m hm a ha => h1 _ (snd_mem (numberedAt_snd _ _ _ _) hm) _ (snd_mem (placedTreeL_post l opt id ks) ha),
      fun m hm m' hm' => h2 _ (snd_mem (numberedAt_snd _ _ _ _) hm) _ (snd_mem (numberedAt_snd _ _ _ _) hm'), h5, h6⟩
theorem placedTreeL_nests (l : Lang) (opt : Bool) : (id : Nat) → (ks : List (MTree (List Nat × Mutation))) →
    ks.Pairwise (TreesApart fun x => x) → NestsL (fun x => x) ks →
    (placedTreeL l opt id ks).Pairwise (TreesApart (·.2)) ∧ NestsL (·.2) (placedTreeL l opt id ks)
  | _, [], _, _ => ⟨.nil, trivial⟩
  | id, k :: ks, hp, h => by
    obtain ⟨h1, h2⟩ := List.pairwise_cons.1 hp
    obtain ⟨h3, h4⟩ := placedTreeL_nests l opt (id + countAll l opt (k.post.map (·.2))) ks h2 h.2
    refine ⟨List.pairwise_cons.2 ⟨?_, h3⟩, placedTree_nests l opt id k h.1, h4⟩
    intro k' hk' a ha b hb
    have hb := snd_mem (placedTreeL_post l opt _ ks) (mem_postL.2 ⟨k', hk', hb⟩)
    obtain ⟨k'', hk'', hb⟩ := mem_postL.1 hb
    exact h1 k'' hk'' _ (snd_mem (placedTree_post l opt id k) ha) _ hb
end

theorem groups_numbered (l : Lang) (o : Options) (first id : Nat) (ms : List (List Nat × Mutation)) :
    ((numberedAt l o.optimise id ms).map fun x => (x.2.2.apply l o first x.1).group).filter (·.ids ≠ []) =
      groupsFrom l o.optimise true id (ms.map (·.2)) := by
  rw [groupsFrom_numbered l o first id, ← numberedAt_drop, List.map_map]
  rfl

mutual
theorem groups_placedTree (l : Lang) (o : Options) (first : Nat) : (id : Nat) → (t : MTree (List Nat × Mutation)) →
    (placedTree l o.optimise id t).groups l o first = grpTree l o.optimise true id t.dropPos
  | id, .node ms ks => by
    simp only [placedTree, MTree.groups, grpTree, MTree.dropPos, groups_numbered, dropPosL_post,
      groups_placedTreeL l o first id ks]
theorem groups_placedTreeL (l : Lang) (o : Options) (first : Nat) : (id : Nat) →
    (ks : List (MTree (List Nat × Mutation))) →
    MTree.groupsL l o first (placedTreeL l o.optimise id ks) = grpTreeL l o.optimise true id (MTree.dropPosL ks)
  | _, [] => rfl
  | id, k :: ks => by
    simp only [placedTreeL, MTree.groupsL, grpTreeL, MTree.dropPosL, dropPos_post, groups_placedTree l o first id k,
      groups_placedTreeL l o first _ ks]
end

/-! ### Tidying up and positions -/

open MTree

mutual
theorem isEmpty_dropPos {α β} : (t : MTree (α × β)) → t.dropPos.isEmpty = t.isEmpty
  | node ms ks => by simp [dropPos, isEmpty, allEmpty_dropPos ks]
theorem allEmpty_dropPos {α β} : (ks : List (MTree (α × β))) → allEmpty (dropPosL ks) = allEmpty ks
  | [] => rfl
  | k :: ks => by simp [dropPosL, allEmpty, isEmpty_dropPos k, allEmpty_dropPos ks]
end

mutual
theorem prune_dropPos {α β} : (t : MTree (α × β)) → t.dropPos.prune = t.prune.dropPos
  | node ms ks => by simp [dropPos, prune, pruneList_dropPos ks]
theorem pruneList_dropPos {α β} : (ks : List (MTree (α × β))) → pruneList (dropPosL ks) = dropPosL (pruneList ks)
  | [] => rfl
  | k :: ks => by
    simp only [dropPosL, pruneList, isEmpty_dropPos k]
    split
    · exact pruneList_dropPos ks
    · simp [dropPosL, prune_dropPos k, pruneList_dropPos ks]
end

mutual
theorem compress_dropPos {α β} : (t : MTree (α × β)) → t.dropPos.compress = t.compress.dropPos
  | node [] [k] => by simp [dropPos, dropPosL, compress, compress_dropPos k]
  | node [] [] => by simp [dropPos, dropPosL, compress, compressList]
  | node [] (k :: k' :: ks) => by
    simp [dropPos, dropPosL, compress, compressList, compress_dropPos k, compress_dropPos k', compressList_dropPos ks]
  | node (m :: ms) ks => by simp [dropPos, compress, compressList_dropPos ks]
theorem compressList_dropPos {α β} : (ks : List (MTree (α × β))) →
    compressList (dropPosL ks) = dropPosL (compressList ks)
  | [] => rfl
  | k :: ks => by simp [dropPosL, compressList, compress_dropPos k, compressList_dropPos ks]
end

theorem tidyUp_dropPos {α β} (t : MTree (α × β)) : t.dropPos.tidyUp = t.tidyUp.dropPos := by
  rw [tidyUp, prune_dropPos, compress_dropPos, tidyUp]

end Dredd
