/-
Helper lemmas: the mutations that the visitor finds in parsed source text make up a
tree of pieces.
-/
import Verif.Spec.Source
import Verif.Proofs.Visitor
import Verif.Proofs.Layout

namespace Dredd

/-! ### Lists of pieces -/

theorem Lay.srcL_append (xs ys : List Lay) : Lay.srcL (xs ++ ys) = Lay.srcL xs ++ Lay.srcL ys := by
  induction xs with
  | nil => rfl
  | cons x xs ih => simp [Lay.srcL, ih]

theorem Lay.mutsL_append (xs ys : List Lay) :
    Lay.mutsL (xs ++ ys) = Lay.mutsL xs ++ Lay.mutsL ys := by
  induction xs with
  | nil => rfl
  | cons x xs ih => simp [Lay.mutsL, ih]

theorem Lay.constsL_append (xs ys : List Lay) (off : Nat) :
    Lay.constsL off (xs ++ ys) = Lay.constsL off xs ++ Lay.constsL (off + (Lay.srcL xs).length) ys := by
  induction xs generalizing off with
  | nil => simp [Lay.constsL, Lay.srcL]
  | cons x xs ih => simp [Lay.constsL, Lay.srcL, ih, Nat.add_assoc]

theorem Lay.fitsL_append (xs ys : List Lay) (off : Nat) :
    Lay.FitsL off (xs ++ ys) ↔ Lay.FitsL off xs ∧ Lay.FitsL (off + (Lay.srcL xs).length) ys := by
  induction xs generalizing off with
  | nil => simp [Lay.FitsL, Lay.srcL]
  | cons x xs ih => simp [Lay.FitsL, Lay.srcL, ih, Nat.add_assoc, and_assoc]

theorem Lay.apartL_append (xs ys : List Lay) :
    Lay.ApartL (xs ++ ys) ↔ Lay.ApartL xs ∧ Lay.ApartL ys := by
  induction xs with
  | nil => simp [Lay.ApartL]
  | cons x xs ih => simp [Lay.ApartL, ih, and_assoc]

/-- The list does not begin with an instrumented piece. -/
def Lay.bare : List Lay → Bool
  | [] => true
  | x :: _ => !x.isNode

theorem Lay.spaced_cons (x : Lay) (xs : List Lay) (h : Lay.spaced xs = true)
    (hb : x.isNode = false ∨ Lay.bare xs = true) : Lay.spaced (x :: xs) = true := by
  cases xs with
  | nil => rfl
  | cons y ys =>
    simp only [Lay.spaced, Bool.and_eq_true, Bool.not_eq_true', h, and_true]
    simp only [Lay.bare] at hb
    rcases hb with hb | hb
    · simp [hb]
    · simp at hb; simp [hb]

theorem Lay.spaced_append (xs ys : List Lay) (hx : Lay.spaced xs = true)
    (hy : Lay.spaced ys = true) (hb : Lay.bare ys = true) : Lay.spaced (xs ++ ys) = true := by
  induction xs with
  | nil => exact hy
  | cons x xs ih =>
    cases xs with
    | nil => exact Lay.spaced_cons x ys hy (.inr hb)
    | cons z zs =>
      simp only [Lay.spaced, Bool.and_eq_true] at hx
      simp only [List.cons_append, Lay.spaced, Bool.and_eq_true]
      exact ⟨hx.1, ih hx.2⟩

/-- Pieces for a text with constants. -/
structure Lay.Cov (off : Nat) (t : Text) (cs : List ConstRewrite) (ls : List Lay) : Prop where
  src : Lay.srcL ls = t
  consts : Lay.constsL off ls = cs
  fits : Lay.FitsL off ls
  spaced : Lay.spaced ls = true
  apart : Lay.ApartL ls

theorem Lay.Cov.nil (off : Nat) : Lay.Cov off [] [] [] := ⟨rfl, rfl, trivial, rfl, trivial⟩

theorem Lay.Cov.append {off off' t t' cs cs' ls ls'} (h : Lay.Cov off t cs ls)
    (h' : Lay.Cov off' t' cs' ls') (ho : off' = off + t.length) (hb : Lay.bare ls' = true) :
    Lay.Cov off (t ++ t') (cs ++ cs') (ls ++ ls') := by
  subst ho
  refine ⟨?_, ?_, ?_, Lay.spaced_append _ _ h.spaced h'.spaced hb,
    (Lay.apartL_append _ _).2 ⟨h.apart, h'.apart⟩⟩
  · rw [Lay.srcL_append, h.src, h'.src]
  · rw [Lay.constsL_append, h.src, h.consts, h'.consts]
  · rw [Lay.fitsL_append, h.src]; exact ⟨h.fits, h'.fits⟩

theorem Lay.Cov.text {off off' t t' cs ls} (h : Lay.Cov off' t' cs ls)
    (ho : off' = off + t.length) (hn : t ≠ []) :
    Lay.Cov off (t ++ t') cs (.text t :: ls) := by
  subst ho
  refine ⟨?_, ?_, ?_, Lay.spaced_cons _ _ h.spaced (.inl rfl), ⟨hn, h.apart⟩⟩
  · simp [Lay.srcL, Lay.src, h.src]
  · simp [Lay.constsL, Lay.src, Lay.consts, h.consts]
  · exact ⟨trivial, h.fits⟩

theorem Lay.Cov.const {off off' t t' cs ls} (v : Nat) (h : Lay.Cov off' t' cs ls)
    (ho : off' = off + t.length) (hn : t ≠ []) :
    Lay.Cov off (t ++ t') (⟨⟨off, off + t.length⟩, v⟩ :: cs) (.const t v :: ls) := by
  subst ho
  refine ⟨?_, ?_, ?_, Lay.spaced_cons _ _ h.spaced (.inl rfl), ⟨hn, h.apart⟩⟩
  · simp [Lay.srcL, Lay.src, h.src]
  · simp [Lay.constsL, Lay.src, Lay.consts, h.consts]
  · exact ⟨trivial, h.fits⟩

theorem Lay.Cov.ne {off t cs ls} (h : Lay.Cov off t cs ls) (ht : t ≠ []) : ls ≠ [] := by
  rintro rfl
  exact ht h.src.symm

/-! ### Text without mutations -/

/-- The stretches as pieces. -/
def leafLay : List (Text × Option Nat) → List Lay
  | [] => []
  | (t, some v) :: ls => .const t v :: leafLay ls
  | (t, none) :: ls => .text t :: leafLay ls

theorem leafLay_bare (ls : List (Text × Option Nat)) : Lay.bare (leafLay ls) = true := by
  match ls with
  | [] => rfl
  | (_, some _) :: _ => rfl
  | (_, none) :: _ => rfl

theorem leafLay_muts (ls : List (Text × Option Nat)) : Lay.mutsL (leafLay ls) = [] := by
  induction ls with
  | nil => rfl
  | cons x ls ih =>
    obtain ⟨t, _ | v⟩ := x <;> simp [leafLay, Lay.mutsL, Lay.muts, ih]

theorem leafLay_cov (ls : List (Text × Option Nat)) (off : Nat) (h : ∀ x ∈ ls, x.1 ≠ []) :
    Lay.Cov off (leafText ls) (leafConsts off ls) (leafLay ls) := by
  induction ls generalizing off with
  | nil => exact Lay.Cov.nil off
  | cons x ls ih =>
    have ih := fun off => ih off fun y hy => h y (List.mem_cons_of_mem _ hy)
    have hx := h x List.mem_cons_self
    obtain ⟨t, _ | v⟩ := x
    · exact (ih _).text rfl hx
    · exact (ih _).const v rfl hx

mutual
/-- The pieces of a text if nothing in it is mutated. -/
def Src.plain : Src → List Lay
  | .tok t => [.text t]
  | .quiet _ ls => leafLay ls
  | .node _ ps => Src.plainL ps

def Src.plainL : List Src → List Lay
  | [] => []
  | p :: ps => p.plain ++ Src.plainL ps
end

mutual
theorem Src.plain_bare : (p : Src) → ∀ x ∈ p.plain, x.isNode = false ∧ x.muts = []
  | .tok t => by simp [Src.plain, Lay.isNode, Lay.muts]
  | .quiet _ ls => by
    simp only [Src.plain]
    induction ls with
    | nil => simp [leafLay]
    | cons x ls ih =>
      obtain ⟨t, _ | v⟩ := x
      · simp only [leafLay, List.mem_cons, forall_eq_or_imp]; exact ⟨⟨rfl, rfl⟩, ih⟩
      · simp only [leafLay, List.mem_cons, forall_eq_or_imp]; exact ⟨⟨rfl, rfl⟩, ih⟩
  | .node _ ps => Src.plainL_bare ps

theorem Src.plainL_bare : (ps : List Src) → ∀ x ∈ Src.plainL ps, x.isNode = false ∧ x.muts = []
  | [] => by simp [Src.plainL]
  | p :: ps => by
    intro x hx
    rcases List.mem_append.1 hx with hx | hx
    · exact Src.plain_bare p x hx
    · exact Src.plainL_bare ps x hx
end

theorem bare_of_all {ls : List Lay} (h : ∀ x ∈ ls, x.isNode = false ∧ x.muts = []) :
    Lay.bare ls = true ∧ Lay.mutsL ls = [] := by
  cases ls with
  | nil => exact ⟨rfl, rfl⟩
  | cons x xs =>
    refine ⟨by simp [Lay.bare, (h x List.mem_cons_self).1], ?_⟩
    induction xs generalizing x with
    | nil => simp [Lay.mutsL, (h x List.mem_cons_self).2]
    | cons y ys ih =>
      have := ih y fun z hz => h z (List.mem_cons_of_mem _ hz)
      rw [Lay.mutsL, this, (h x List.mem_cons_self).2]
      rfl

mutual
theorem Src.plain_cov : (p : Src) → (off : Nat) → p.Laid off →
    Lay.Cov off p.str (p.consts off) p.plain
  | .tok t, off, h => by
    have h : t ≠ [] := h
    have := (Lay.Cov.nil (off + t.length)).text rfl h
    rw [List.append_nil] at this
    exact this
  | .quiet _ ls, off, h => leafLay_cov ls off h.2
  | .node _ ps, off, h => by
    rcases h.2 with ⟨-, h⟩ | ⟨-, h⟩
    · exact Src.plainL_cov ps off _ h
    · exact Src.plainB_cov ps off _ _ h

theorem Src.plainL_cov : (ps : List Src) → (off : Nat) → (near : Bool) → Src.LaidL off near ps →
    Lay.Cov off (Src.strL ps) (Src.constsL off ps) (Src.plainL ps)
  | [], off, _, _ => Lay.Cov.nil off
  | .tok t :: ps, off, _, h => by
    exact (Src.plain_cov (.tok t) off h.1).append (Src.plainL_cov ps _ _ h.2) rfl
      (bare_of_all (Src.plainL_bare ps)).1
  | .quiet n ls :: ps, off, _, h => by
    exact (Src.plain_cov (.quiet n ls) off h.1).append (Src.plainL_cov ps _ _ h.2) rfl
      (bare_of_all (Src.plainL_bare ps)).1
  | .node i qs :: ps, off, _, h => by
    exact (Src.plain_cov (.node i qs) off h.2.1).append (Src.plainL_cov ps _ _ h.2.2) rfl
      (bare_of_all (Src.plainL_bare ps)).1

theorem Src.plainB_cov : (ps : List Src) → (off : Nat) → (near : Bool) → (ext : Nat) →
    Src.LaidB off near ext ps → Lay.Cov off (Src.strL ps) (Src.constsL off ps) (Src.plainL ps)
  | [], off, _, _, _ => Lay.Cov.nil off
  | .tok t :: ps, off, _, _, h => by
    exact (Src.plain_cov (.tok t) off h.1).append (Src.plainB_cov ps _ _ _ h.2.2) rfl
      (bare_of_all (Src.plainL_bare ps)).1
  | .quiet n ls :: ps, off, _, _, h => by
    exact (Src.plain_cov (.quiet n ls) off h.2.1).append (Src.plainB_cov ps _ _ _ h.2.2.2) rfl
      (bare_of_all (Src.plainL_bare ps)).1
  | .node i qs :: ps, off, _, _, h => by
    exact (Src.plain_cov (.node i qs) off h.2.2.1).append (Src.plainB_cov ps _ _ _ h.2.2.2) rfl
      (bare_of_all (Src.plainL_bare ps)).1
end

/-! ### Steps of the visitor -/

/-- A step adds mutations to a node that has none itself. -/
def Adds (f : VState → VState) (st : VState) (ms : List Mutation) : Prop :=
  (f st).cur.muts = [] ∧ (f st).cur.post.map (·.2) = st.cur.post.map (·.2) ++ ms

/-- The visitor adds nothing. -/
def Silent (f : VState → VState) : Prop := ∀ st : VState, st.cur.muts = [] → Adds f st []

theorem Silent.skip {f : VState → VState} (h : ∀ st, (f st).cur = st.cur) : Silent f := by
  intro st hm
  exact ⟨by rw [h, hm], by rw [h, List.append_nil]⟩

theorem Adds.seq {f g : VState → VState} {st ms ms'} (hf : Adds f st ms) (hg : Adds g (f st) ms') :
    Adds (fun st => g (f st)) st (ms ++ ms') := by
  refine ⟨hg.1, ?_⟩
  rw [hg.2, hf.2, List.append_assoc]

theorem Silent.seq {f g : VState → VState} (hf : Silent f) (hg : Silent g) :
    Silent (fun st => g (f st)) := fun st hm => (hf st hm).seq (hg (f st) (hf st hm).1)

theorem Adds.inChild {f : VState → VState} {st : VState} {ms} (hm : st.cur.muts = [])
    (p : List Nat) (new : List Mutation)
    (hf : Adds f { st with cur := .node [] [] } ms) :
    Adds (fun st => st.inChild fun st => (f st).add p new) st (ms ++ new) := by
  let r := f { st with cur := .node [] [] }
  have e : (st.inChild fun st => (f st).add p new).cur = st.cur.addChild ((r.add p new).cur) := rfl
  have h1 : r.cur.muts = [] := hf.1
  have h2 : r.cur.post.map (·.2) = ms := by
    have := hf.2
    simpa [MTree.post, MTree.postL] using this
  have ep : ((r.add p new).cur).post.map (·.2) = ms ++ new := by
    rw [add_cur, h1]
    have := post_eq r.cur
    rw [h1, List.append_nil] at this
    rw [this] at h2
    simp only [MTree.post, List.nil_append, List.map_append, h2, List.map_map]
    congr 1
    have : ∀ xs : List Mutation, xs.map ((·.2) ∘ fun m => (p, m)) = xs := by
      intro xs
      induction xs with
      | nil => rfl
      | cons x xs ih => rw [List.map_cons, ih]; rfl
    exact this new
  refine ⟨?_, ?_⟩
  · show (st.inChild _).cur.muts = []
    rw [e]; exact (post_addChild _ _ hm).2
  · show (st.inChild _).cur.post.map _ = _
    rw [e, (post_addChild _ _ hm).1, List.map_append, ep]

theorem add_nil (st : VState) (p : List Nat) : st.add p [] = st := rfl

theorem Adds.inChild_none {f : VState → VState} {st : VState} {ms} (hm : st.cur.muts = [])
    (hf : Adds f { st with cur := .node [] [] } ms) : Adds (fun st => st.inChild f) st ms := by
  have := Adds.inChild hm [] [] hf
  simpa [add_nil] using this

theorem Silent.inChild {f : VState → VState} (h : Silent f) : Silent fun st => st.inChild f :=
  fun _ hm => Adds.inChild_none hm (h _ rfl)

theorem Adds.congr {f g : VState → VState} {st ms} (h : f st = g st) (hf : Adds f st ms) :
    Adds g st ms := by
  unfold Adds at *
  rw [← h]; exact hf

/-! ### Subtrees with nothing to mutate -/

theorem still_visitExpr {s : AStmt} {e : ExprFacts} (h : s.still = true) (hk : s.kind = .expr e)
    (opt : Bool) (c : Ctx) (locs : List Nat) (ks : List Node) : visitExpr opt c locs s e ks = [] := by
  rw [List.eq_nil_iff_forall_not_mem]
  intro m hm
  simp only [AStmt.still, hk, Bool.or_eq_true, Option.isNone_iff_eq_none] at h
  rcases h with h | h
  · simp [visitExpr, h] at hm
  · simp only [visitExpr, h] at hm
    cases hr : s.range <;> simp [hr] at hm

theorem silent_stmtStep {opt c s ks} {kids last block : Ctx → VState → VState}
    (hs : s.still = true) (hk : Silent (kids c)) (hl : Silent (last c))
    (hb : s.kind = .compound → Silent (block c)) :
    Silent (stmtStep opt c s ks kids last block) := by
  by_cases hsk : skipStmt c.above s = true
  · refine Silent.skip fun st => ?_
    simp [stmtStep, hsk]
  · have hsk : skipStmt c.above s = false := by simpa using hsk
    intro st hm
    have e : stmtStep opt c s ks kids last block st = st.inChild (fun st =>
        match s.kind with
        | .compound => block c st
        | .case_ => last c st
        | .expr e => (kids c st).add c.pos (visitExpr opt c (kids c st).locs s e ks)
        | _ => kids c st) := by
      simp only [stmtStep, hsk]
      rfl
    refine Adds.congr (f := fun st => st.inChild fun st => _) e.symm (Adds.inChild_none hm ?_)
    cases hkind : s.kind
    case compound => exact hb hkind _ rfl
    case case_ => exact hl _ rfl
    case expr e =>
      have := hk { st with cur := .node [] [] } rfl
      refine Adds.congr ?_ this
      simp only [still_visitExpr hs hkind, add_nil]
    all_goals exact hk _ rfl

theorem silent_declStep {l c d} {kids : Ctx → VState → VState} (h : ∀ c', Silent (kids c')) :
    Silent (declStep l c d kids) := by
  unfold declStep
  split
  · exact Silent.skip (noteDecl_cur l d)
  · exact ((Silent.skip (noteDecl_cur l d)).seq (h _)).seq (Silent.skip (visitDecl_cur d))

theorem removal_unplaced {s : AStmt} (h : s.range = none) (opt : Bool) : removal opt s = [] := by
  simp [removal, h]

mutual
theorem silent_traverse (l : Lang) (opt : Bool) : (n : Node) → (c : Ctx) → n.still = true →
    Silent (traverse l opt c n)
  | .decl d ks, c, h => by
    have ih := fun c => silent_traverseL l opt (.decl d) ks c 0 h
    have : traverse l opt c (.decl d ks) = fun st => if !d.isTU && !d.range.isSome then st
        else declStep l c d (fun c st => traverseL l opt c (.decl d) 0 ks st) st := by
      funext st; rw [traverse]
    rw [this]
    split
    · exact Silent.skip fun _ => rfl
    · exact silent_declStep ih
  | .other k ks, c, h => by
    have ih := fun c => silent_traverseL l opt (.other k) ks c 0 h
    have : traverse l opt c (.other k ks) = fun st => if skipOther l k then st
        else traverseL l opt c (.other k) 0 ks st := by
      funext st; rw [traverse]
    rw [this]
    split
    · exact Silent.skip fun _ => rfl
    · exact ih c
  | .stmt s ks, c, h => by
    simp only [Node.still, Bool.and_eq_true] at h
    have : traverse l opt c (.stmt s ks) = stmtStep opt c s ks
        (fun c st => traverseL l opt c (.stmt s) 0 ks st)
        (fun c st => traverseLast l opt c (.stmt s) 0 ks st)
        (fun c st => blockItems l opt c (.stmt s) 0 ks st) := by
      funext st; rw [traverse]
    rw [this]
    refine silent_stmtStep h.1.1 (silent_traverseL l opt _ ks c 0 h.2)
      (silent_traverseLast l opt _ ks c 0 h.2) fun hk => ?_
    refine silent_blockItems l opt _ ks c 0 h.2 ?_
    have := h.1.2
    simpa [AStmt.hasItems, hk] using this

theorem silent_traverseL (l : Lang) (opt : Bool) (n : NodeInfo) : (ks : List Node) → (c : Ctx) →
    (i : Nat) → Node.stillL ks = true → Silent (traverseL l opt c n i ks)
  | [], c, i, _ => Silent.skip fun st => by rw [traverseL]
  | k :: ks, c, i, h => by
    simp only [Node.stillL, Bool.and_eq_true] at h
    have : traverseL l opt c n i (k :: ks)
        = fun st => traverseL l opt c n (i + 1) ks (traverse l opt (c.enter n i) k st) := by
      funext st; rw [traverseL]
    rw [this]
    exact (silent_traverse l opt k _ h.1).seq (silent_traverseL l opt n ks c (i + 1) h.2)

theorem silent_traverseLast (l : Lang) (opt : Bool) (n : NodeInfo) : (ks : List Node) → (c : Ctx) →
    (i : Nat) → Node.stillL ks = true → Silent (traverseLast l opt c n i ks)
  | [], c, i, _ => Silent.skip fun st => by rw [traverseLast]
  | [k], c, i, h => by
    simp only [Node.stillL, Bool.and_eq_true] at h
    have : traverseLast l opt c n i [k] = traverse l opt (c.enter n i) k := by
      funext st; rw [traverseLast]
    rw [this]
    exact silent_traverse l opt k _ h.1
  | k :: k' :: ks, c, i, h => by
    rw [Node.stillL, Bool.and_eq_true] at h
    have : traverseLast l opt c n i (k :: k' :: ks) = traverseLast l opt c n (i + 1) (k' :: ks) := by
      funext st; simp [traverseLast]
    rw [this]
    exact silent_traverseLast l opt n (k' :: ks) c (i + 1) h.2

theorem silent_blockItems (l : Lang) (opt : Bool) (n : NodeInfo) : (ks : List Node) → (c : Ctx) →
    (i : Nat) → Node.stillL ks = true → ks.all Node.unplaced = true →
    Silent (blockItems l opt c n i ks)
  | [], c, i, _, _ => Silent.skip fun st => by rw [blockItems]
  | k :: ks, c, i, h, hu => by
    simp only [Node.stillL, Bool.and_eq_true] at h
    simp only [List.all_cons, Bool.and_eq_true] at hu
    have : blockItems l opt c n i (k :: ks)
        = fun st => blockItems l opt c n (i + 1) ks (blockItem l opt (c.enter n i) k st) := by
      funext st; rw [blockItems]
    rw [this]
    exact (silent_blockItem l opt k _ h.1 (by
      cases k <;> simp_all [Node.unplaced, Node.stillItem])).seq
      (silent_blockItems l opt n ks c (i + 1) h.2 hu.2)

theorem silent_blockItem (l : Lang) (opt : Bool) : (n : Node) → (c : Ctx) → n.still = true →
    n.stillItem = true → Silent (blockItem l opt c n)
  | .decl d ks, c, _, _ => Silent.skip fun st => by rw [blockItem]; simp
  | .other k ks, c, _, _ => Silent.skip fun st => by rw [blockItem]; simp
  | .stmt s ks, c, h, hu => by
    simp only [Node.still, Bool.and_eq_true] at h
    by_cases hk : s.kind = .case_ ∨ s.kind = .default_
    · have : blockItem l opt c (.stmt s ks) = blockLast l opt c (.stmt s) 0 ks := by
        funext st
        rw [blockItem]; rcases hk with hk | hk <;> simp [hk]
      rw [this]
      refine silent_blockLast l opt _ ks c 0 h.2 ?_
      have := h.1.2
      rcases hk with hk | hk <;> simpa [AStmt.hasItems, hk] using this
    · have hk1 : s.kind ≠ .case_ := fun h => hk (.inl h)
      have hk2 : s.kind ≠ .default_ := fun h => hk (.inr h)
      have hr : removal opt s = [] := by
        simp only [Node.stillItem, Bool.or_eq_true, Option.isNone_iff_eq_none, beq_iff_eq] at hu
        rcases hu with hu | hu
        · exact removal_unplaced hu opt
        · unfold removal
          rw [hu]
          cases s.range <;> rfl
      have e : blockItem l opt c (.stmt s ks) = fun st => if pointless opt s then st else
          st.inChild fun st =>
            (stmtStep opt c s ks (fun c st => traverseL l opt c (.stmt s) 0 ks st)
              (fun c st => traverseLast l opt c (.stmt s) 0 ks st)
              (fun c st => blockItems l opt c (.stmt s) 0 ks st) st).add c.pos (removal opt s) := by
        funext st
        rw [blockItem]
        split
        · contradiction
        · contradiction
        · rfl
      rw [e, hr]
      split
      · exact Silent.skip fun _ => rfl
      · refine Silent.inChild ?_
        refine silent_stmtStep h.1.1 (silent_traverseL l opt _ ks c 0 h.2)
          (silent_traverseLast l opt _ ks c 0 h.2) fun hk => ?_
        refine silent_blockItems l opt _ ks c 0 h.2 ?_
        have := h.1.2
        simpa [AStmt.hasItems, hk] using this

theorem silent_blockLast (l : Lang) (opt : Bool) (n : NodeInfo) : (ks : List Node) → (c : Ctx) →
    (i : Nat) → Node.stillL ks = true → ks.all Node.unplaced = true →
    Silent (blockLast l opt c n i ks)
  | [], c, i, _, _ => Silent.skip fun st => by rw [blockLast]
  | [k], c, i, h, hu => by
    simp only [Node.stillL, Bool.and_eq_true] at h
    simp only [List.all_cons, Bool.and_eq_true] at hu
    have : blockLast l opt c n i [k] = blockItem l opt (c.enter n i) k := by
      funext st; rw [blockLast]
    rw [this]
    exact silent_blockItem l opt k _ h.1 (by
      cases k <;> simp_all [Node.unplaced, Node.stillItem])
  | k :: k' :: ks, c, i, h, hu => by
    rw [Node.stillL, Bool.and_eq_true] at h
    rw [List.all_cons, Bool.and_eq_true] at hu
    have : blockLast l opt c n i (k :: k' :: ks) = blockLast l opt c n (i + 1) (k' :: ks) := by
      funext st; simp [blockLast]
    rw [this]
    exact silent_blockLast l opt n (k' :: ks) c (i + 1) h.2 hu.2
end

/-- Constructs in which constants are required are not traversed. -/
theorem silent_constantOnly (l : Lang) (opt : Bool) (n : Node) (c : Ctx)
    (h : n.constantOnly = true) : Silent (traverse l opt c n) := by
  refine Silent.skip fun st => ?_
  match n with
  | .decl d ks =>
    rw [traverse]
    split
    · rfl
    · have : declCtx l c d = none := by
        unfold Node.constantOnly at h
        unfold declCtx
        cases hd : d.kind <;> simp_all
      simp only [declStep, this]
      exact noteDecl_cur l d st
  | .other k ks =>
    have : skipOther l k = true := by
      unfold Node.constantOnly at h
      cases k <;> simp_all [skipOther]
    rw [traverse, if_pos this]
  | .stmt s ks =>
    have : skipStmt c.above s = true := by
      simp only [Node.constantOnly] at h
      unfold skipStmt
      cases hk : s.kind <;> simp only [hk] at h <;> try cases h
      rename_i e
      cases hc : e.cls
      case call frame adl member =>
        cases frame <;> simp_all
      all_goals simp_all
    rw [traverse]
    simp [stmtStep, this]

end Dredd
