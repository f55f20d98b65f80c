/-
Helper lemmas: what the visitor does at the nodes that it gets to is found in
the mutation tree.
-/
import Verif.Proofs.Places
import Verif.Spec.Eligible

namespace Dredd

/-- Locations of a declaration that is a variable. -/
def ownLocs (d : Decl) : List Nat :=
  match d.kind with
  | .var v => [v.loc]
  | .varLike loc => [loc]
  | _ => []

mutual
/-- Locations of all variables. -/
def locsOf : Node → List Nat
  | .decl d ks => ownLocs d ++ locsOfL ks
  | .stmt _ ks => locsOfL ks
  | .other _ ks => locsOfL ks
def locsOfL : List Node → List Nat
  | [] => []
  | k :: ks => locsOf k ++ locsOfL ks
end

theorem locsOfL_mem {ks : List Node} {x : Nat} : x ∈ locsOfL ks ↔
    ∃ (j : Nat) (k : Node), ks[j]? = some k ∧ x ∈ locsOf k := by
  induction ks with
  | nil => simp [locsOfL]
  | cons k ks ih =>
    simp only [locsOfL, List.mem_append, ih]
    constructor
    · rintro (h | ⟨j, k', h1, h2⟩)
      · exact ⟨0, k, rfl, h⟩
      · exact ⟨j + 1, k', h1, h2⟩
    · rintro ⟨j, k', h1, h2⟩
      cases j with
      | zero => simp at h1; subst h1; exact .inl h2
      | succ j => exact .inr ⟨j, k', by simpa using h1, h2⟩

theorem locsOf_kid {n k : Node} {j x : Nat} (h : n.kids[j]? = some k) (hx : x ∈ locsOf k) :
    x ∈ locsOf n := by
  have := locsOfL_mem.mpr ⟨j, k, h, hx⟩
  cases n
  · exact List.mem_append_right _ this
  · exact this
  · exact this

/-- A step keeps what is there, and records only locations of a list. -/
def Grows (L : List Nat) (f : VState → VState) : Prop :=
  ∀ st : VState, st.cur.muts = [] → (f st).cur.muts = [] ∧
    (∃ evs, (f st).cur.post = st.cur.post ++ evs) ∧ ∀ x ∈ (f st).locs, x ∈ st.locs ∨ x ∈ L

theorem Grows.skip {L} {f : VState → VState} (h : ∀ st, (f st).cur = st.cur)
    (hl : ∀ st, ∀ x ∈ (f st).locs, x ∈ st.locs ∨ x ∈ L) : Grows L f :=
  fun st hm => ⟨by rw [h, hm], ⟨[], by rw [h, List.append_nil]⟩, hl st⟩

theorem Grows.id {L} {f : VState → VState} (h : ∀ st, f st = st) : Grows L f :=
  .skip (fun st => by rw [h]) fun st x hx => .inl (by rwa [h] at hx)

theorem Grows.mono {L L'} {f : VState → VState} (hf : Grows L f) (h : ∀ x ∈ L, x ∈ L') : Grows L' f :=
  fun st hm => ⟨(hf st hm).1, (hf st hm).2.1, fun x hx => ((hf st hm).2.2 x hx).imp_right (h x)⟩

theorem Grows.seq {L L'} {f g : VState → VState} (hf : Grows L f) (hg : Grows L' g) :
    Grows (L ++ L') (fun st => g (f st)) := by
  intro st hm
  obtain ⟨h1, ⟨evs, h2⟩, h3⟩ := hf st hm
  obtain ⟨h1', ⟨evs', h2'⟩, h3'⟩ := hg (f st) h1
  refine ⟨h1', ⟨evs ++ evs', by rw [h2', h2, List.append_assoc]⟩, ?_⟩
  intro x hx
  rcases h3' x hx with hx | hx
  · exact (h3 x hx).imp_right (List.mem_append_left _)
  · exact .inr (List.mem_append_right _ hx)

theorem Grows.inChild {L} {f : VState → VState} (hf : Grows L f) (p : List Nat)
    (ms : VState → List Mutation) :
    Grows L (fun st => st.inChild fun st => (f st).add p (ms (f st))) := by
  intro st hm
  obtain ⟨h1, ⟨evs, h2⟩, h3⟩ := hf { st with cur := .node [] [] } rfl
  refine ⟨(post_addChild _ _ hm).2, ⟨_, (post_addChild _ _ hm).1⟩, h3⟩

theorem Grows.child {L} {f : VState → VState} (hf : Grows L f) : Grows L (fun st => st.inChild f) := by
  intro st hm
  obtain ⟨h1, ⟨evs, h2⟩, h3⟩ := hf { st with cur := .node [] [] } rfl
  refine ⟨(post_addChild _ _ hm).2, ⟨_, (post_addChild _ _ hm).1⟩, h3⟩

theorem Grows.congr {L} {f g : VState → VState} (hf : Grows L f) (h : ∀ st, f st = g st) : Grows L g := by
  rw [← funext h]; exact hf

theorem noteDecl_locs (l : Lang) (d : Decl) (st : VState) : (noteDecl l d st).locs = st.locs := by
  unfold noteDecl
  split <;> rfl

theorem visitDecl_locs (d : Decl) (st : VState) (x : Nat) (h : x ∈ (visitDecl d st).locs) :
    x ∈ st.locs ∨ x ∈ ownLocs d := by
  unfold visitDecl at h
  unfold ownLocs
  split at h
  · rename_i v hd
    simp only [hd]
    rcases List.mem_cons.mp h with h | h
    · exact .inr (by simp [h])
    · exact .inl h
  · rename_i loc hd
    simp only [hd]
    rcases List.mem_cons.mp h with h | h
    · exact .inr (by simp [h])
    · exact .inl h
  · exact .inl h

theorem stmtStep_grows (opt : Bool) (c : Ctx) (s : AStmt) (ks : List Node)
    (kids last block : Ctx → VState → VState) (L : List Nat) (hk : Grows L (kids c))
    (hl : Grows L (last c)) (hb : Grows L (block c)) :
    Grows L (stmtStep opt c s ks kids last block) := by
  unfold stmtStep
  split
  · exact .skip (fun _ => rfl) fun _ _ h => .inl h
  · cases hkind : s.kind
    case expr e => exact Grows.inChild hk c.pos fun st => visitExpr opt c st.locs s e ks
    case compound => exact hb.child
    case case_ => exact hl.child
    all_goals exact hk.child

mutual
theorem traverse_grows (l : Lang) (opt : Bool) (c : Ctx) : (n : Node) →
    Grows (locsOf n) (traverse l opt c n)
  | .decl d ks => by
    have ih := fun c' => traverseL_grows l opt c' (.decl d) 0 ks
    refine Grows.congr (f := fun st => if !d.isTU && !d.range.isSome then st
      else declStep l c d (fun c st => traverseL l opt c (.decl d) 0 ks st) st) ?_
      (fun st => by rw [traverse])
    split
    · exact .id fun _ => rfl
    · unfold declStep
      split
      · exact .skip (noteDecl_cur l d) fun st x hx => .inl (by rwa [noteDecl_locs] at hx)
      · rename_i c' _
        refine Grows.mono (Grows.seq (f := fun st => traverseL l opt c' (.decl d) 0 ks (noteDecl l d st))
          (L := locsOfL ks) (L' := ownLocs d) ?_ (.skip (visitDecl_cur d) (visitDecl_locs d))) ?_
        · intro st hm
          have := ih c' (noteDecl l d st) (by rw [noteDecl_cur, hm])
          rwa [noteDecl_cur, noteDecl_locs] at this
        · intro x hx
          rw [locsOf]
          rcases List.mem_append.mp hx with hx | hx
          · exact List.mem_append_right _ hx
          · exact List.mem_append_left _ hx
  | .stmt s ks => by
    have h1 := traverseL_grows l opt c (.stmt s) 0 ks
    have h2 := traverseLast_grows l opt c (.stmt s) 0 ks
    have h3 := blockItems_grows l opt c (.stmt s) 0 ks
    exact Grows.congr (stmtStep_grows opt c s ks (fun c st => traverseL l opt c (.stmt s) 0 ks st)
      (fun c st => traverseLast l opt c (.stmt s) 0 ks st)
      (fun c st => blockItems l opt c (.stmt s) 0 ks st) _ h1 h2 h3) (fun st => by rw [traverse])
  | .other k ks => by
    have ih := traverseL_grows l opt c (.other k) 0 ks
    refine Grows.congr (f := fun st => if skipOther l k then st else traverseL l opt c (.other k) 0 ks st)
      ?_ (fun st => by rw [traverse])
    split
    · exact .id fun _ => rfl
    · exact ih

theorem traverseL_grows (l : Lang) (opt : Bool) (c : Ctx) (n : NodeInfo) (i : Nat) :
    (ks : List Node) → Grows (locsOfL ks) (traverseL l opt c n i ks)
  | [] => .id fun st => by rw [traverseL]
  | k :: ks => Grows.congr ((traverse_grows l opt (c.enter n i) k).seq
      (traverseL_grows l opt c n (i + 1) ks)) fun st => by rw [traverseL]

theorem traverseLast_grows (l : Lang) (opt : Bool) (c : Ctx) (n : NodeInfo) (i : Nat) :
    (ks : List Node) → Grows (locsOfL ks) (traverseLast l opt c n i ks)
  | [] => .id fun st => by rw [traverseLast]
  | [k] => by
    refine Grows.mono (Grows.congr (traverse_grows l opt (c.enter n i) k) fun st => by rw [traverseLast]) ?_
    intro x hx
    exact List.mem_append_left _ hx
  | k :: k' :: ks => by
    refine Grows.mono (Grows.congr (traverseLast_grows l opt c n (i + 1) (k' :: ks))
      fun st => by simp [traverseLast]) ?_
    intro x hx
    rw [locsOfL]
    exact List.mem_append_right _ hx

theorem blockItems_grows (l : Lang) (opt : Bool) (c : Ctx) (n : NodeInfo) (i : Nat) :
    (ks : List Node) → Grows (locsOfL ks) (blockItems l opt c n i ks)
  | [] => .id fun st => by rw [blockItems]
  | k :: ks => Grows.congr ((blockItem_grows l opt (c.enter n i) k).seq
      (blockItems_grows l opt c n (i + 1) ks)) fun st => by rw [blockItems]

theorem blockItem_grows (l : Lang) (opt : Bool) (c : Ctx) : (n : Node) →
    Grows (locsOf n) (blockItem l opt c n)
  | .decl d ks => .id fun st => by rw [blockItem]; simp
  | .other k ks => .id fun st => by rw [blockItem]; simp
  | .stmt s ks => by
    have h0 := blockLast_grows l opt c (.stmt s) 0 ks
    have h1 := traverseL_grows l opt c (.stmt s) 0 ks
    have h2 := traverseLast_grows l opt c (.stmt s) 0 ks
    have h3 := blockItems_grows l opt c (.stmt s) 0 ks
    have h4 := Grows.inChild (stmtStep_grows opt c s ks (fun c st => traverseL l opt c (.stmt s) 0 ks st)
      (fun c st => traverseLast l opt c (.stmt s) 0 ks st)
      (fun c st => blockItems l opt c (.stmt s) 0 ks st) _ h1 h2 h3) c.pos fun _ => removal opt s
    refine Grows.congr (f := fun st => match s.kind with
      | .case_ | .default_ => blockLast l opt c (.stmt s) 0 ks st
      | _ => if pointless opt s then st
        else st.inChild fun st =>
          (stmtStep opt c s ks (fun c st => traverseL l opt c (.stmt s) 0 ks st)
            (fun c st => traverseLast l opt c (.stmt s) 0 ks st)
            (fun c st => blockItems l opt c (.stmt s) 0 ks st) st).add c.pos (removal opt s)) ?_
      (fun st => by rw [blockItem]; cases s.kind <;> rfl)
    have h5 : Grows (locsOf (.stmt s ks)) (fun st => if pointless opt s then st
        else st.inChild fun st =>
          (stmtStep opt c s ks (fun c st => traverseL l opt c (.stmt s) 0 ks st)
            (fun c st => traverseLast l opt c (.stmt s) 0 ks st)
            (fun c st => blockItems l opt c (.stmt s) 0 ks st) st).add c.pos (removal opt s)) := by
      split
      · exact .id fun _ => rfl
      · exact h4
    cases hkind : s.kind
    case case_ => exact h0
    case default_ => exact h0
    all_goals exact h5

theorem blockLast_grows (l : Lang) (opt : Bool) (c : Ctx) (n : NodeInfo) (i : Nat) :
    (ks : List Node) → Grows (locsOfL ks) (blockLast l opt c n i ks)
  | [] => .id fun st => by rw [blockLast]
  | [k] => by
    refine Grows.mono (Grows.congr (blockItem_grows l opt (c.enter n i) k) fun st => by rw [blockLast]) ?_
    intro x hx
    exact List.mem_append_left _ hx
  | k :: k' :: ks => by
    refine Grows.mono (Grows.congr (blockLast_grows l opt c n (i + 1) (k' :: ks))
      fun st => by simp [blockLast]) ?_
    intro x hx
    rw [locsOfL]
    exact List.mem_append_right _ hx
end

/-- Whatever the first step adds, the second adds as well. -/
def PartOf (L : List Nat) (g f : VState → VState) : Prop :=
  ∀ st : VState, st.cur.muts = [] → ∃ st' : VState, st'.cur.muts = [] ∧
    (∀ x ∈ st'.locs, x ∈ st.locs ∨ x ∈ L) ∧ ∀ ev ∈ (g st').cur.post, ev ∈ (f st).cur.post

theorem PartOf.refl {L} {f : VState → VState} : PartOf L f f :=
  fun st hm => ⟨st, hm, fun _ h => .inl h, fun _ h => h⟩

theorem PartOf.trans {L} {f g h : VState → VState} (hg : PartOf L h g) (hf : PartOf L g f) :
    PartOf L h f := by
  intro st hm
  obtain ⟨st', h1, h2, h3⟩ := hf st hm
  obtain ⟨st'', h1', h2', h3'⟩ := hg st' h1
  refine ⟨st'', h1', ?_, fun ev he => h3 ev (h3' ev he)⟩
  intro x hx
  rcases h2' x hx with hx | hx
  · exact h2 x hx
  · exact .inr hx

theorem PartOf.mono {L L'} {f g : VState → VState} (h : PartOf L g f) (hl : ∀ x ∈ L, x ∈ L') :
    PartOf L' g f := by
  intro st hm
  obtain ⟨st', h1, h2, h3⟩ := h st hm
  exact ⟨st', h1, fun x hx => (h2 x hx).imp_right (hl x), h3⟩

theorem PartOf.congr {L} {f f' g : VState → VState} (h : PartOf L g f) (he : ∀ st, f st = f' st) :
    PartOf L g f' := by
  rw [← funext he]; exact h

/-- The first of two steps. -/
theorem PartOf.first {L L'} {f g : VState → VState} (hf : Grows L f) (hg : Grows L' g) :
    PartOf L' f (fun st => g (f st)) := by
  intro st hm
  refine ⟨st, hm, fun _ h => .inl h, fun ev he => ?_⟩
  obtain ⟨_, ⟨evs, h⟩, _⟩ := hg (f st) (hf st hm).1
  simp only [h]
  exact List.mem_append_left _ he

/-- The second of two steps. -/
theorem PartOf.second {L} {f g : VState → VState} (hf : Grows L f) :
    PartOf L g (fun st => g (f st)) :=
  fun st hm => ⟨f st, (hf st hm).1, (hf st hm).2.2, fun _ h => h⟩

/-- A step inside a new node of the tree. -/
theorem PartOf.inChild {L L'} {f : VState → VState} (hf : Grows L' f) (p : List Nat)
    (ms : VState → List Mutation) :
    PartOf L f (fun st => st.inChild fun st => (f st).add p (ms (f st))) := by
  intro st hm
  refine ⟨{ st with cur := .node [] [] }, rfl, fun _ h => .inl h, fun ev he => ?_⟩
  show ev ∈ (st.cur.addChild _).post
  rw [(post_addChild _ _ hm).1, add_cur]
  refine List.mem_append_right _ ?_
  rw [(hf { st with cur := .node [] [] } rfl).1]
  rw [post_eq] at he
  rw [(hf { st with cur := .node [] [] } rfl).1, List.append_nil] at he
  simp only [MTree.post]
  exact List.mem_append_left _ he

theorem PartOf.child {L} {f : VState → VState} : PartOf L f (fun st => st.inChild f) := by
  intro st hm
  refine ⟨{ st with cur := .node [] [] }, rfl, fun _ h => .inl h, fun ev he => ?_⟩
  show ev ∈ (st.cur.addChild _).post
  rw [(post_addChild _ _ hm).1]
  exact List.mem_append_right _ he

/-- What is added after a step inside a new node. -/
theorem inChild_added {L} {f : VState → VState} (hf : Grows L f) (p : List Nat)
    (ms : VState → List Mutation) (st : VState) (hm : st.cur.muts = []) :
    ∃ st' : VState, (∀ x ∈ st'.locs, x ∈ st.locs ∨ x ∈ L) ∧ ∀ m ∈ ms st',
      (p, m) ∈ (st.inChild fun st => (f st).add p (ms (f st))).cur.post := by
  refine ⟨f { st with cur := .node [] [] }, (hf _ rfl).2.2, fun m hmm => ?_⟩
  show _ ∈ (st.cur.addChild _).post
  rw [(post_addChild _ _ hm).1, add_cur]
  refine List.mem_append_right _ ?_
  simp only [MTree.post]
  exact List.mem_append_right _ (List.mem_append_right _ (List.mem_map.mpr ⟨m, hmm, rfl⟩))

theorem traverseL_at (l : Lang) (opt : Bool) (c : Ctx) (n : NodeInfo) : (ks : List Node) → (i j : Nat) →
    (k : Node) → ks[j]? = some k →
    PartOf (locsOfL ks) (traverse l opt (c.enter n (i + j)) k) (traverseL l opt c n i ks)
  | [], _, _, _, h => by simp at h
  | k :: ks, i, 0, _, h => by
    simp at h
    subst h
    refine PartOf.mono (PartOf.congr (PartOf.first (traverse_grows l opt (c.enter n i) k)
      (traverseL_grows l opt c n (i + 1) ks)) fun st => by rw [traverseL]; rfl) ?_
    intro x hx
    exact List.mem_append_right _ hx
  | k :: ks, i, j + 1, k', h => by
    have ih := traverseL_at l opt c n ks (i + 1) j k' (by simpa using h)
    rw [show i + 1 + j = i + (j + 1) by omega] at ih
    refine PartOf.trans (g := traverseL l opt c n (i + 1) ks)
      (ih.mono fun x hx => List.mem_append_right _ hx) ?_
    refine PartOf.mono (PartOf.congr (PartOf.second (traverse_grows l opt (c.enter n i) k))
      fun st => by rw [traverseL]) ?_
    intro x hx
    exact List.mem_append_left _ hx

theorem blockItems_at (l : Lang) (opt : Bool) (c : Ctx) (n : NodeInfo) : (ks : List Node) → (i j : Nat) →
    (k : Node) → ks[j]? = some k →
    PartOf (locsOfL ks) (blockItem l opt (c.enter n (i + j)) k) (blockItems l opt c n i ks)
  | [], _, _, _, h => by simp at h
  | k :: ks, i, 0, _, h => by
    simp at h
    subst h
    refine PartOf.mono (PartOf.congr (PartOf.first (blockItem_grows l opt (c.enter n i) k)
      (blockItems_grows l opt c n (i + 1) ks)) fun st => by rw [blockItems]; rfl) ?_
    intro x hx
    exact List.mem_append_right _ hx
  | k :: ks, i, j + 1, k', h => by
    have ih := blockItems_at l opt c n ks (i + 1) j k' (by simpa using h)
    rw [show i + 1 + j = i + (j + 1) by omega] at ih
    refine PartOf.trans (g := blockItems l opt c n (i + 1) ks)
      (ih.mono fun x hx => List.mem_append_right _ hx) ?_
    refine PartOf.mono (PartOf.congr (PartOf.second (blockItem_grows l opt (c.enter n i) k))
      fun st => by rw [blockItems]) ?_
    intro x hx
    exact List.mem_append_left _ hx

theorem traverseLast_at (l : Lang) (opt : Bool) (c : Ctx) (n : NodeInfo) : (ks : List Node) →
    (i j : Nat) → (k : Node) → ks[j]? = some k → j + 1 = ks.length →
    traverseLast l opt c n i ks = traverse l opt (c.enter n (i + j)) k
  | [], _, _, _, h, _ => by simp at h
  | [k], i, j, k', h, hl => by
    simp at hl
    subst hl
    simp at h
    subst h
    funext st
    rw [traverseLast]
    rfl
  | k :: k' :: ks, i, j, k'', h, hl => by
    cases j with
    | zero => simp at hl
    | succ j =>
      have ih := traverseLast_at l opt c n (k' :: ks) (i + 1) j k'' (by simpa using h) (by simpa using hl)
      rw [show i + 1 + j = i + (j + 1) by omega] at ih
      rw [← ih]
      funext st
      simp [traverseLast]

theorem blockLast_at (l : Lang) (opt : Bool) (c : Ctx) (n : NodeInfo) : (ks : List Node) →
    (i j : Nat) → (k : Node) → ks[j]? = some k → j + 1 = ks.length →
    blockLast l opt c n i ks = blockItem l opt (c.enter n (i + j)) k
  | [], _, _, _, h, _ => by simp at h
  | [k], i, j, k', h, hl => by
    simp at hl
    subst hl
    simp at h
    subst h
    funext st
    rw [blockLast]
    rfl
  | k :: k' :: ks, i, j, k'', h, hl => by
    cases j with
    | zero => simp at hl
    | succ j =>
      have ih := blockLast_at l opt c n (k' :: ks) (i + 1) j k'' (by simpa using h) (by simpa using hl)
      rw [show i + 1 + j = i + (j + 1) by omega] at ih
      rw [← ih]
      funext st
      simp [blockLast]

/-- The step for a node. -/
def runNode (l : Lang) (opt : Bool) (c : Ctx) (n : Node) : VState → VState :=
  if isItem c.above then blockItem l opt c n else traverse l opt c n

/-- `stmtStep` as it is used. -/
def stmtRun (l : Lang) (opt : Bool) (c : Ctx) (s : AStmt) (ks : List Node) : VState → VState :=
  stmtStep opt c s ks (fun c st => traverseL l opt c (.stmt s) 0 ks st)
    (fun c st => traverseLast l opt c (.stmt s) 0 ks st)
    (fun c st => blockItems l opt c (.stmt s) 0 ks st)

theorem stmtRun_grows (l : Lang) (opt : Bool) (c : Ctx) (s : AStmt) (ks : List Node) :
    Grows (locsOfL ks) (stmtRun l opt c s ks) :=
  stmtStep_grows opt c s ks _ _ _ _ (traverseL_grows l opt c (.stmt s) 0 ks)
    (traverseLast_grows l opt c (.stmt s) 0 ks) (blockItems_grows l opt c (.stmt s) 0 ks)

theorem blockItem_eq (l : Lang) (opt : Bool) (c : Ctx) (s : AStmt) (ks : List Node)
    (h1 : s.kind ≠ .case_) (h2 : s.kind ≠ .default_) (h3 : pointless opt s = false) :
    blockItem l opt c (.stmt s ks) =
      fun st => st.inChild fun st => (stmtRun l opt c s ks st).add c.pos (removal opt s) := by
  funext st
  rw [blockItem]
  split
  · contradiction
  · contradiction
  · rw [if_neg (by simp [h3])]
    rfl

theorem blockItem_label (l : Lang) (opt : Bool) (c : Ctx) (s : AStmt) (ks : List Node)
    (h : s.kind = .case_ ∨ s.kind = .default_) :
    blockItem l opt c (.stmt s ks) = blockLast l opt c (.stmt s) 0 ks := by
  funext st
  rw [blockItem]
  rcases h with h | h <;> simp [h]

/-- The step inside the step for a node. -/
theorem runNode_step (l : Lang) (opt : Bool) (c : Ctx) (s : AStmt) (ks : List Node)
    (h : isItem c.above = true → s.kind ≠ .case_ ∧ s.kind ≠ .default_ ∧ pointless opt s = false) :
    PartOf (locsOfL ks) (stmtRun l opt c s ks) (runNode l opt c (.stmt s ks)) := by
  unfold runNode
  split
  · rename_i hi
    obtain ⟨h1, h2, h3⟩ := h hi
    rw [blockItem_eq l opt c s ks h1 h2 h3]
    exact PartOf.inChild (stmtRun_grows l opt c s ks) c.pos fun _ => removal opt s
  · exact PartOf.congr (f := stmtRun l opt c s ks) PartOf.refl fun st => by rw [traverse]; rfl

theorem stmtRun_eq (l : Lang) (opt : Bool) (c : Ctx) (s : AStmt) (ks : List Node)
    (h : skipStmt c.above s = false) :
    stmtRun l opt c s ks = fun st => st.inChild fun st =>
      match s.kind with
      | .compound => blockItems l opt c (.stmt s) 0 ks st
      | .case_ => traverseLast l opt c (.stmt s) 0 ks st
      | .expr e => (traverseL l opt c (.stmt s) 0 ks st).add c.pos
          (visitExpr opt c (traverseL l opt c (.stmt s) 0 ks st).locs s e ks)
      | _ => traverseL l opt c (.stmt s) 0 ks st := by
  funext st
  simp only [stmtRun, stmtStep, h]
  rfl

/-- The step for a child of a statement. -/
theorem stmtRun_kid (l : Lang) (opt : Bool) (c : Ctx) (s : AStmt) (ks : List Node) (j : Nat) (k : Node)
    (h : skipStmt c.above s = false) (hk : ks[j]? = some k) (hc : s.kind = .case_ → j + 1 = ks.length)
    (hi : isItem c.above = true → s.kind ≠ .case_ ∧ s.kind ≠ .default_) :
    PartOf (locsOfL ks) (runNode l opt (c.enter (.stmt s) j) k) (stmtRun l opt c s ks) := by
  rw [stmtRun_eq l opt c s ks h]
  have hitem : isItem (c.enter (.stmt s) j).above = (s.kind == .compound) := by
    rw [enter_above]
    simp only [isItem, NodeInfo.kind?]
    cases hkind : s.kind
    case compound => rfl
    case case_ => 
      cases ha : isItem c.above
      · rfl
      · exact absurd hkind (hi ha).1
    case default_ => 
      cases ha : isItem c.above
      · rfl
      · exact absurd hkind (hi ha).2
    all_goals rfl
  have hL := traverseL_at l opt c (.stmt s) ks 0 j k hk
  rw [Nat.zero_add] at hL
  unfold runNode
  rw [hitem]
  cases hkind : s.kind
  case compound =>
    have := blockItems_at l opt c (.stmt s) ks 0 j k hk
    rw [Nat.zero_add] at this
    exact this.trans PartOf.child
  case case_ =>
    have := traverseLast_at l opt c (.stmt s) ks 0 j k hk (hc hkind)
    rw [Nat.zero_add] at this
    simp only [this]
    exact PartOf.child
  case expr e =>
    exact hL.trans (PartOf.inChild (traverseL_grows l opt c (.stmt s) 0 ks) c.pos
      fun st => visitExpr opt c st.locs s e ks)
  all_goals exact hL.trans PartOf.child

/-- The nodes that the visitor gets to, exactly. -/
inductive Path (l : Lang) (opt : Bool) (root : Node) : Ctx → Node → Prop
  | root : Path l opt root ⟨[], [], []⟩ root
  | decl {c c' d ks i k} : Path l opt root c (.decl d ks) → isItem c.above = false →
      (d.isTU = true ∨ d.range.isSome = true) → declCtx l c d = some c' → ks[i]? = some k →
      Path l opt root (c'.enter (.decl d) i) k
  | stmt {c s ks i k} : Path l opt root c (.stmt s ks) → skipStmt c.above s = false →
      (s.kind = .case_ → i + 1 = ks.length) →
      (isItem c.above = true → s.kind ≠ .case_ ∧ s.kind ≠ .default_ ∧ pointless opt s = false) →
      ks[i]? = some k → Path l opt root (c.enter (.stmt s) i) k
  | label {c s ks i k} : Path l opt root c (.stmt s ks) → (s.kind = .case_ ∨ s.kind = .default_) →
      isItem c.above = true → ks[i]? = some k → i + 1 = ks.length →
      Path l opt root (c.enter (.stmt s) i) k
  | other {c o ks i k} : Path l opt root c (.other o ks) → isItem c.above = false →
      skipOther l o = false → ks[i]? = some k → Path l opt root (c.enter (.other o) i) k

/-- What the visitor does at a node that it gets to is part of what it does for
the translation unit. -/
theorem Path.partOf {l : Lang} {opt : Bool} {root : Node} {c : Ctx} {n : Node}
    (h : Path l opt root c n) :
    PartOf (locsOf root) (runNode l opt c n) (traverse l opt ⟨[], [], []⟩ root) ∧
      ∀ x ∈ locsOf n, x ∈ locsOf root := by
  induction h with
  | root => exact ⟨PartOf.refl, fun _ h => h⟩
  | @decl c c' d ks i k _ hi hr hc hk ih =>
    obtain ⟨ih, hl⟩ := ih
    refine ⟨PartOf.trans ?_ ih, fun x hx => hl x (locsOf_kid (n := .decl d ks) hk hx)⟩
    have e1 : runNode l opt (c'.enter (.decl d) i) k = traverse l opt (c'.enter (.decl d) i) k := rfl
    have e2 : runNode l opt c (.decl d ks) = traverse l opt c (.decl d ks) := by
      unfold runNode; rw [hi]; rfl
    rw [e1, e2]
    refine PartOf.mono (L := locsOf (.decl d ks)) ?_ hl
    have hL := traverseL_at l opt c' (.decl d) ks 0 i k hk
    rw [Nat.zero_add] at hL
    refine PartOf.trans (hL.mono fun x hx => by rw [locsOf]; exact List.mem_append_right _ hx) ?_
    intro st hm
    refine ⟨noteDecl l d st, by rw [noteDecl_cur, hm], fun x hx => .inl (by rwa [noteDecl_locs] at hx), ?_⟩
    intro ev he
    rw [traverse, if_neg (by rcases hr with hr | hr <;> simp [hr]), declStep, hc]
    simp only [visitDecl_cur]
    exact he
  | @stmt c s ks i k _ hs hc hi hk ih =>
    obtain ⟨ih, hl⟩ := ih
    refine ⟨PartOf.trans (PartOf.mono ((stmtRun_kid l opt c s ks i k hs hk hc
      fun h => ⟨(hi h).1, (hi h).2.1⟩).trans (runNode_step l opt c s ks hi)) hl) ih,
      fun x hx => hl x (locsOf_kid (n := .stmt s ks) hk hx)⟩
  | @label c s ks i k _ hkind hi hk hlast ih =>
    obtain ⟨ih, hl⟩ := ih
    refine ⟨PartOf.trans ?_ ih, fun x hx => hl x (locsOf_kid (n := .stmt s ks) hk hx)⟩
    have h1 : isItem (c.enter (.stmt s) i).above = true := by
      rw [enter_above]
      simp only [isItem, NodeInfo.kind?]
      rcases hkind with h | h <;> simp [h, hi]
    have h2 := blockLast_at l opt c (.stmt s) ks 0 i k hk hlast
    rw [Nat.zero_add] at h2
    unfold runNode
    rw [h1, hi, if_pos rfl, if_pos rfl, blockItem_label l opt c s ks hkind, h2]
    exact PartOf.refl
  | @other c o ks i k _ hi ho hk ih =>
    obtain ⟨ih, hl⟩ := ih
    refine ⟨PartOf.trans ?_ ih, fun x hx => hl x (locsOf_kid (n := .other o ks) hk hx)⟩
    have e1 : runNode l opt (c.enter (.other o) i) k = traverse l opt (c.enter (.other o) i) k := rfl
    have e2 : runNode l opt c (.other o ks) = traverseL l opt c (.other o) 0 ks := by
      unfold runNode; rw [hi]
      funext st
      simp only [Bool.false_eq_true, if_false]
      rw [traverse, if_neg (by simp [ho])]
    rw [e1, e2]
    have hL := traverseL_at l opt c (.other o) ks 0 i k hk
    rw [Nat.zero_add] at hL
    exact hL.mono hl

/-- The mutations of an expression that the visitor gets to. -/
theorem Path.expr {l : Lang} {opt : Bool} {root : Node} {c : Ctx} {s : AStmt} {ks : List Node}
    {e : ExprFacts} (h : Path l opt root c (.stmt s ks)) (hs : skipStmt c.above s = false)
    (hk : s.kind = .expr e) (hp : isItem c.above = true → pointless opt s = false) :
    ∃ locs : List Nat, (∀ x ∈ locs, x ∈ locsOf root) ∧ ∀ m ∈ visitExpr opt c locs s e ks,
      (c.pos, m) ∈ (visitTU l opt root).cur.post := by
  obtain ⟨hw, hl⟩ := h.partOf
  have hw' := ((runNode_step l opt c s ks fun h => ⟨by simp [hk], by simp [hk], hp h⟩).mono hl).trans hw
  obtain ⟨st, hm, h1, h2⟩ := hw' VState.start rfl
  have hstep : stmtRun l opt c s ks = fun st => st.inChild fun st =>
      (traverseL l opt c (.stmt s) 0 ks st).add c.pos
          (visitExpr opt c (traverseL l opt c (.stmt s) 0 ks st).locs s e ks) := by
    rw [stmtRun_eq l opt c s ks hs]
    simp only [hk]
  obtain ⟨st', h3, h4⟩ := inChild_added (traverseL_grows l opt c (.stmt s) 0 ks) c.pos
    (fun st => visitExpr opt c st.locs s e ks) st hm
  refine ⟨st'.locs, ?_, ?_⟩
  · intro x hx
    rcases h3 x hx with hx | hx
    · rcases h1 x hx with hx | hx
      · simp [VState.start] at hx
      · exact hx
    · exact hl x hx
  · intro m hmm
    refine h2 _ ?_
    rw [hstep]
    exact h4 m hmm

/-- The removal of a statement that the visitor gets to. -/
theorem Path.removal {l : Lang} {opt : Bool} {root : Node} {c : Ctx} {s : AStmt} {ks : List Node}
    (h : Path l opt root c (.stmt s ks)) (hi : isItem c.above = true)
    (h1 : s.kind ≠ .case_) (h2 : s.kind ≠ .default_) (h3 : pointless opt s = false) :
    ∀ m ∈ removal opt s, (c.pos, m) ∈ (visitTU l opt root).cur.post := by
  intro m hm
  obtain ⟨hw, _⟩ := h.partOf
  obtain ⟨st, hst, _, h5⟩ := hw VState.start rfl
  refine h5 _ ?_
  unfold runNode
  rw [hi, if_pos rfl, blockItem_eq l opt c s ks h1 h2 h3]
  obtain ⟨_, _, h⟩ := inChild_added (stmtRun_grows l opt c s ks) c.pos (fun _ => Dredd.removal opt s) st hst
  exact h m hm

end Dredd
