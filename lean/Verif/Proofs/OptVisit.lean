/-
Helper lemmas: the visitor with and without optimisation.
-/
import Verif.Proofs.Exact
import Verif.Spec.Optimised

namespace Dredd

/-- The states of the two visitors: what the first has, the second has, and what
the second knows about variables, the first knows, except for some. -/
def Leaner (H : Nat → Prop) (st st' : VState) : Prop :=
  st.cur.post.Sublist st'.cur.post ∧ ∀ x ∈ st'.locs, x ∈ st.locs ∨ H x

/-- The steps keep the states related. -/
def Keeps (H : Nat → Prop) (f g : VState → VState) : Prop :=
  ∀ st st' : VState, st.cur.muts = [] → st'.cur.muts = [] → Leaner H st st' → Leaner H (f st) (g st')

theorem Keeps.same {H} {f g : VState → VState} (hf : ∀ st, (f st).cur = st.cur)
    (hf' : ∀ st, (f st).locs = st.locs) (hg : ∀ st, (g st).cur = st.cur)
    (hg' : ∀ st, (g st).locs = st.locs) : Keeps H f g := by
  intro st st' _ _ h
  unfold Leaner at *
  rw [hf, hf', hg, hg']
  exact h

theorem Keeps.congr {H} {f g f' g' : VState → VState} (h : Keeps H f g) (hf : ∀ st, f st = f' st)
    (hg : ∀ st, g st = g' st) : Keeps H f' g' := by
  rw [← funext hf, ← funext hg]; exact h

theorem Keeps.seq {H L L'} {f g f' g' : VState → VState} (h : Keeps H f g) (hf : Grows L f)
    (hg : Grows L' g) (h' : Keeps H f' g') : Keeps H (fun st => f' (f st)) (fun st => g' (g st)) :=
  fun st st' hm hm' hr => h' _ _ (hf st hm).1 (hg st' hm').1 (h st st' hm hm' hr)

theorem Leaner.fresh {H st st'} (h : Leaner H st st') :
    Leaner H { st with cur := .node [] [] } { st' with cur := .node [] [] } :=
  ⟨.refl _, h.2⟩

theorem Keeps.child {H} {f g : VState → VState} (h : Keeps H f g) :
    Keeps H (fun st => st.inChild f) (fun st => st.inChild g) := by
  intro st st' hm hm' hr
  have h1 := h _ _ rfl rfl hr.fresh
  refine ⟨?_, h1.2⟩
  show (st.cur.addChild _).post.Sublist (st'.cur.addChild _).post
  rw [(post_addChild _ _ hm).1, (post_addChild _ _ hm').1]
  exact hr.1.append h1.1

theorem Keeps.inChild {H L L'} {f g : VState → VState} (h : Keeps H f g) (hf : Grows L f)
    (hg : Grows L' g) (p : List Nat) (ms ms' : VState → List Mutation)
    (hms : ∀ st st', Leaner H st st' → (ms st).Sublist (ms' st')) :
    Keeps H (fun st => st.inChild fun st => (f st).add p (ms (f st)))
      (fun st => st.inChild fun st => (g st).add p (ms' (g st))) := by
  intro st st' hm hm' hr
  have h1 := h _ _ rfl rfl hr.fresh
  have hf1 := (hf { st with cur := .node [] [] } rfl).1
  have hg1 := (hg { st' with cur := .node [] [] } rfl).1
  refine ⟨?_, h1.2⟩
  show (st.cur.addChild _).post.Sublist (st'.cur.addChild _).post
  rw [(post_addChild _ _ hm).1, (post_addChild _ _ hm').1]
  refine hr.1.append ?_
  have h2 := h1.1
  rw [post_eq, hf1, post_eq, hg1, List.append_nil, List.append_nil] at h2
  rw [add_cur, add_cur, hf1, hg1]
  simp only [MTree.post, List.nil_append]
  exact h2.append ((hms _ _ h1).map _)

/-- A step that only the second takes. -/
theorem Keeps.extra {H L} {f g : VState → VState} (hf : ∀ st, f st = st) (hg : Grows L g)
    (hl : ∀ x ∈ L, H x) : Keeps H f g := by
  intro st st' _ hm' hr
  obtain ⟨-, ⟨evs, h2⟩, h3⟩ := hg st' hm'
  rw [hf]
  refine ⟨?_, ?_⟩
  · rw [h2]
    exact hr.1.trans (List.sublist_append_left _ _)
  · intro x hx
    rcases h3 x hx with hx | hx
    · exact hr.2 x hx
    · exact .inr (hl x hx)

theorem handleUnary_sublist (s : AStmt) (sp : Span) (e : ExprFacts) (t : BTy) (op : UOp)
    (ks : List Node) : (handleUnary true s sp e t op ks).Sublist (handleUnary false s sp e t op ks) := by
  unfold handleUnary UnSite.handle
  repeat' split
  all_goals simp_all

theorem handleBinary_sublist (s : AStmt) (sp : Span) (e : ExprFacts) (t : BTy) (op : BOp)
    (ks : List Node) : (handleBinary true s sp e t op ks).Sublist (handleBinary false s sp e t op ks) := by
  unfold handleBinary BinSite.handle
  repeat' split
  all_goals simp_all

theorem handleExpr_sublist (above : List NodeInfo) (s : AStmt) (sp : Span) (e : ExprFacts) (t : BTy)
    (ks : List Node) :
    (handleExpr true above s sp e t ks).Sublist (handleExpr false above s sp e t ks) := by
  unfold handleExpr
  simp only [Bool.false_and, Bool.true_and, Bool.false_eq_true, if_false]
  repeat' split
  all_goals simp

theorem visitExpr_sublist (c : Ctx) (locs locs' : List Nat) (s : AStmt) (e : ExprFacts) (ks : List Node)
    (h : e.beginLoc ∈ locs' → e.beginLoc ∈ locs) :
    (visitExpr true c locs s e ks).Sublist (visitExpr false c locs' s e ks) := by
  unfold visitExpr
  simp only [Bool.false_and, Bool.true_and, Bool.false_eq_true, if_false]
  split
  · simp
  split
  · simp
  split
  · simp
  by_cases hc : locs.contains e.beginLoc = true
  · rw [if_pos hc]; simp
  · have hc' : locs'.contains e.beginLoc = false := by
      rw [Bool.eq_false_iff]
      intro h'
      exact hc (by simpa using h (by simpa using h'))
    rw [if_neg hc, hc']
    simp only [Bool.false_eq_true, if_false]
    split
    · simp
    split
    · simp
    split
    · simp
    split
    · simp
    split
    · simp
    refine List.Sublist.append ?_ (handleExpr_sublist ..)
    unfold handleOp
    split
    · exact handleUnary_sublist ..
    · exact handleBinary_sublist ..
    · simp

theorem removal_sublist (s : AStmt) : (removal true s).Sublist (removal false s) := by
  unfold removal
  repeat' split
  all_goals simp_all

/-- A place below a place. -/
theorem Place.nested {root n m : Node} {p q a b} (hn : Place root p a n) (hm : Place n q b m) :
    Place root (p ++ q) (b ++ a) m := by
  induction hm with
  | root => simpa using hn
  | @kid q b n' i k _ hk ih =>
    rw [← List.append_assoc]
    exact .kid ih hk

theorem NoPointless.up {n m : Node} {q b a} (hm : Place n q b m) (h : NoPointless m (b ++ a)) :
    NoPointless n a := by
  induction hm with
  | root => exact h
  | kid _ _ ih => exact ih h.2

/-- The variables declared inside of a statement that is left out. -/
theorem locsOf_pointless {root : Node} {p above} {n : Node} (hp : Place root p above n)
    (hi : ¬ NoPointless n above) : ∀ x ∈ locsOf n, DeclaredInPointless root x := by
  intro x hx
  obtain ⟨q, b, d, ks, hq, hd⟩ := locsOf_place n x hx
  exact ⟨_, _, d, ks, hp.nested hq, fun h => hi (h.up hq), hd⟩

theorem visitDecl_keeps {H} (d : Decl) : Keeps H (visitDecl d) (visitDecl d) := by
  intro st st' _ _ h
  refine ⟨by rw [visitDecl_cur, visitDecl_cur]; exact h.1, ?_⟩
  unfold visitDecl
  split
  · intro x hx
    rcases List.mem_cons.mp hx with rfl | hx
    · exact .inl List.mem_cons_self
    · exact (h.2 x hx).imp_left (List.mem_cons_of_mem _)
  · intro x hx
    rcases List.mem_cons.mp hx with rfl | hx
    · exact .inl List.mem_cons_self
    · exact (h.2 x hx).imp_left (List.mem_cons_of_mem _)
  · exact h.2

/-- What is known at a node that the visitor gets to with optimisation. -/
theorem Path.apart {l : Lang} {root : Node} {c : Ctx} {s : AStmt} {ks : List Node} {e : ExprFacts}
    (ha : LocationsApart root) (h : Path l true root c (.stmt s ks)) (hk : s.kind = .expr e)
    (hp : isItem c.above = true → pointless true s = false) :
    ¬ DeclaredInPointless root e.beginLoc := by
  obtain ⟨above, h1, h2, h3⟩ := h.useful
  refine ha _ above s ks e h1 hk ((h3 rfl).cons fun hb => ?_)
  exact pointless_true (hp (by rw [h2]; exact isItem_iff.mpr hb))

theorem stmtRun_keeps (l : Lang) (root : Node) (ha : LocationsApart root) (c : Ctx) (s : AStmt)
    (ks : List Node)
    (hr : Path l true root c (.stmt s ks)) (hp : isItem c.above = true → pointless true s = false)
    (hk : Keeps (DeclaredInPointless root) (traverseL l true c (.stmt s) 0 ks)
        (traverseL l false c (.stmt s) 0 ks) ∨
      s.kind = .compound ∨ s.kind = .case_ ∨ skipStmt c.above s = true)
    (hl : s.kind = .case_ → skipStmt c.above s = false →
      Keeps (DeclaredInPointless root) (traverseLast l true c (.stmt s) 0 ks)
        (traverseLast l false c (.stmt s) 0 ks))
    (hb : s.kind = .compound → skipStmt c.above s = false →
      Keeps (DeclaredInPointless root) (blockItems l true c (.stmt s) 0 ks)
        (blockItems l false c (.stmt s) 0 ks)) :
    Keeps (DeclaredInPointless root) (stmtRun l true c s ks) (stmtRun l false c s ks) := by
  cases hs : skipStmt c.above s with
  | true =>
    refine .same ?_ ?_ ?_ ?_ <;> intro st <;> simp [stmtRun, stmtStep, hs]
  | false =>
    rw [stmtRun_eq l true c s ks hs, stmtRun_eq l false c s ks hs]
    cases hkind : s.kind
    case compound => exact (hb hkind hs).child
    case case_ => exact (hl hkind hs).child
    case expr e =>
      refine Keeps.inChild (ms := fun st => visitExpr true c st.locs s e ks)
        (ms' := fun st => visitExpr false c st.locs s e ks)
        (hk.resolve_right (by simp [hkind, hs])) (traverseL_grows l true c (.stmt s) 0 ks)
        (traverseL_grows l false c (.stmt s) 0 ks) c.pos ?_
      intro st st' h
      refine visitExpr_sublist c _ _ s e ks fun hx => ?_
      exact (h.2 _ hx).resolve_right (hr.apart ha hkind hp)
    all_goals exact (hk.resolve_right (by simp [hkind, hs])).child

mutual
theorem traverse_keeps (l : Lang) (root : Node) (ha : LocationsApart root) (c : Ctx) : (n : Node) →
    Path l true root c n → isItem c.above = false →
    Keeps (DeclaredInPointless root) (traverse l true c n) (traverse l false c n)
  | .decl d ks, hr, hi => by
    have ih := fun (c' : Ctx) h => traverseL_keeps l root ha c' (.decl d) 0 ks rfl h
    by_cases hd : (!d.isTU && !d.range.isSome) = true
    · refine .same ?_ ?_ ?_ ?_ <;> intro st <;> simp only [traverse, hd, if_true]
    · have hd' : d.isTU = true ∨ d.range.isSome = true := by
        cases h1 : d.isTU <;> cases h2 : d.range.isSome <;> simp [h1, h2] at hd ⊢
      refine Keeps.congr (f := declStep l c d (fun c st => traverseL l true c (.decl d) 0 ks st))
        (g := declStep l c d (fun c st => traverseL l false c (.decl d) 0 ks st)) ?_
        (fun st => by rw [traverse, if_neg hd]) (fun st => by rw [traverse, if_neg hd])
      unfold declStep
      split
      · exact .same (noteDecl_cur l d) (noteDecl_locs l d) (noteDecl_cur l d) (noteDecl_locs l d)
      · rename_i c' hc'
        intro st st' hm hm' h
        have h1 : Leaner (DeclaredInPointless root) (noteDecl l d st) (noteDecl l d st') := by
          refine ⟨?_, ?_⟩
          · rw [noteDecl_cur, noteDecl_cur]; exact h.1
          · rw [noteDecl_locs, noteDecl_locs]; exact h.2
        have hn : (noteDecl l d st).cur.muts = [] := by rw [noteDecl_cur, hm]
        have hn' : (noteDecl l d st').cur.muts = [] := by rw [noteDecl_cur, hm']
        have h2 := ih c' (fun j k hj => .decl hr hi hd' hc' (by simpa using hj)) _ _ hn hn' h1
        exact visitDecl_keeps d _ _ (traverseL_grows l true c' (.decl d) 0 ks _ hn).1
          (traverseL_grows l false c' (.decl d) 0 ks _ hn').1 h2
  | .stmt s ks, hr, hi => by
    have ih1 := fun h h' => traverseL_keeps l root ha c (.stmt s) 0 ks h h'
    have ih2 := fun h h' => traverseLast_keeps l root ha c (.stmt s) 0 ks h h'
    have ih3 := fun h h' => blockItems_keeps l root ha c (.stmt s) 0 ks h h'
    have hno : isItem c.above = true → s.kind ≠ .case_ ∧ s.kind ≠ .default_ ∧ pointless true s = false := by
      rw [hi]; intro h; cases h
    refine Keeps.congr (f := stmtRun l true c s ks) (g := stmtRun l false c s ks) ?_
      (fun st => by rw [traverse]; rfl) (fun st => by rw [traverse]; rfl)
    refine stmtRun_keeps l root ha c s ks hr (fun h => (hno h).2.2) ?_ ?_ ?_
    · by_cases hc : s.kind = .compound
      · exact .inr (.inl hc)
      · by_cases hc' : s.kind = .case_
        · exact .inr (.inr (.inl hc'))
        · cases hs : skipStmt c.above s with
          | true => exact .inr (.inr (.inr rfl))
          | false =>
            refine .inl (ih1 (item_kid (i := 0) hc fun h => ⟨(hno h).1, (hno h).2.1⟩) ?_)
            intro j k hj
            exact .stmt hr hs (fun h => absurd h hc') hno (by simpa using hj)
    · intro hc hs
      refine ih2 (item_kid (i := 0) (by simp [hc]) fun h => ⟨(hno h).1, (hno h).2.1⟩) ?_
      intro j k hj hl
      exact .stmt hr hs (fun _ => by simpa using hl) hno (by simpa using hj)
    · intro hc hs
      refine ih3 (by simp [isItem, NodeInfo.kind?, hc]) ?_
      intro j k hj
      exact .stmt hr hs (by simp [hc]) hno (by simpa using hj)
  | .other o ks, hr, hi => by
    have ih := fun h => traverseL_keeps l root ha c (.other o) 0 ks rfl h
    by_cases ho : skipOther l o = true
    · refine .same ?_ ?_ ?_ ?_ <;> intro st <;> simp only [traverse, ho, if_true]
    · refine Keeps.congr (ih fun j k hj => .other hr hi (by simpa using ho) (by simpa using hj))
        (fun st => by rw [traverse, if_neg ho]) (fun st => by rw [traverse, if_neg ho])

theorem traverseL_keeps (l : Lang) (root : Node) (ha : LocationsApart root) (c : Ctx) (n : NodeInfo)
    (i : Nat) : (ks : List Node) → isItem (n :: c.above) = false →
    (∀ (j : Nat) k, ks[j]? = some k → Path l true root (c.enter n (i + j)) k) →
    Keeps (DeclaredInPointless root) (traverseL l true c n i ks) (traverseL l false c n i ks)
  | [], _, _ => by refine .same ?_ ?_ ?_ ?_ <;> intro st <;> rw [traverseL]
  | k :: ks, hi, h => by
    refine Keeps.congr (Keeps.seq (traverse_keeps l root ha (c.enter n i) k (h 0 k rfl) hi)
      (traverse_grows l true (c.enter n i) k) (traverse_grows l false (c.enter n i) k)
      (traverseL_keeps l root ha c n (i + 1) ks hi ?_))
      (fun st => by rw [traverseL]) (fun st => by rw [traverseL])
    intro j k' hj
    have := h (j + 1) k' hj
    rwa [show i + (j + 1) = i + 1 + j by omega] at this

theorem traverseLast_keeps (l : Lang) (root : Node) (ha : LocationsApart root) (c : Ctx) (n : NodeInfo)
    (i : Nat) : (ks : List Node) → isItem (n :: c.above) = false →
    (∀ (j : Nat) k, ks[j]? = some k → j + 1 = ks.length → Path l true root (c.enter n (i + j)) k) →
    Keeps (DeclaredInPointless root) (traverseLast l true c n i ks) (traverseLast l false c n i ks)
  | [], _, _ => by refine .same ?_ ?_ ?_ ?_ <;> intro st <;> rw [traverseLast]
  | [k], hi, h => Keeps.congr (traverse_keeps l root ha (c.enter n i) k (h 0 k rfl rfl) hi)
      (fun st => by rw [traverseLast]) (fun st => by rw [traverseLast])
  | k :: k' :: ks, hi, h => by
    refine Keeps.congr (traverseLast_keeps l root ha c n (i + 1) (k' :: ks) hi ?_)
      (fun st => by simp [traverseLast]) (fun st => by simp [traverseLast])
    intro j k'' hj hl
    have := h (j + 1) k'' hj (by simpa using hl)
    rwa [show i + (j + 1) = i + 1 + j by omega] at this

theorem blockItems_keeps (l : Lang) (root : Node) (ha : LocationsApart root) (c : Ctx) (n : NodeInfo)
    (i : Nat) : (ks : List Node) → isItem (n :: c.above) = true →
    (∀ (j : Nat) k, ks[j]? = some k → Path l true root (c.enter n (i + j)) k) →
    Keeps (DeclaredInPointless root) (blockItems l true c n i ks) (blockItems l false c n i ks)
  | [], _, _ => by refine .same ?_ ?_ ?_ ?_ <;> intro st <;> rw [blockItems]
  | k :: ks, hi, h => by
    refine Keeps.congr (Keeps.seq (blockItem_keeps l root ha (c.enter n i) k (h 0 k rfl) hi)
      (blockItem_grows l true (c.enter n i) k) (blockItem_grows l false (c.enter n i) k)
      (blockItems_keeps l root ha c n (i + 1) ks hi ?_))
      (fun st => by rw [blockItems]) (fun st => by rw [blockItems])
    intro j k' hj
    have := h (j + 1) k' hj
    rwa [show i + (j + 1) = i + 1 + j by omega] at this

theorem blockItem_keeps (l : Lang) (root : Node) (ha : LocationsApart root) (c : Ctx) : (n : Node) →
    Path l true root c n → isItem c.above = true →
    Keeps (DeclaredInPointless root) (blockItem l true c n) (blockItem l false c n)
  | .decl d ks, _, _ => by refine .same ?_ ?_ ?_ ?_ <;> intro st <;> rw [blockItem] <;> simp
  | .other k ks, _, _ => by refine .same ?_ ?_ ?_ ?_ <;> intro st <;> rw [blockItem] <;> simp
  | .stmt s ks, hr, hi => by
    have ih1 := fun h h' => traverseL_keeps l root ha c (.stmt s) 0 ks h h'
    have ih3 := fun h h' => blockItems_keeps l root ha c (.stmt s) 0 ks h h'
    have ih4 := fun h h' => blockLast_keeps l root ha c (.stmt s) 0 ks h h'
    by_cases hk : s.kind = .case_ ∨ s.kind = .default_
    · rw [blockItem_label l true c s ks hk, blockItem_label l false c s ks hk]
      refine ih4 ?_ ?_
      · rcases hk with hk | hk <;> simp [isItem, NodeInfo.kind?, hk, hi]
      · intro j k hj hl
        exact .label hr hk hi (by simpa using hj) (by simpa using hl)
    · have hk1 : s.kind ≠ .case_ := fun h => hk (.inl h)
      have hk2 : s.kind ≠ .default_ := fun h => hk (.inr h)
      cases hp : pointless true s with
      | true =>
        refine Keeps.extra (L := locsOf (.stmt s ks)) ?_ (blockItem_grows l false c (.stmt s ks)) ?_
        · intro st
          rw [blockItem]
          split
          · contradiction
          · contradiction
          · rw [if_pos hp]
        · obtain ⟨above, h1, h2, -⟩ := hr.useful
          refine locsOf_pointless h1 ?_
          have hb := isItem_iff.mp (h2 ▸ hi)
          have hpt : Pointless (.stmt s ks) := by
            unfold pointless at hp
            split at hp
            · rename_i e he
              exact ⟨s, ks, e, rfl, he, by simpa using hp⟩
            · cases hp
          cases above with
          | nil => obtain ⟨labels, _, _, _, _, h, _⟩ := hb; simp at h
          | cons x r => exact fun h => h.1 ⟨hb, hpt⟩
      | false =>
        have hp' : pointless false s = false := by
          unfold pointless
          split <;> rfl
        rw [blockItem_eq l true c s ks hk1 hk2 hp, blockItem_eq l false c s ks hk1 hk2 hp']
        refine Keeps.inChild (ms := fun _ => removal true s) (ms' := fun _ => removal false s) ?_
          (stmtRun_grows l true c s ks) (stmtRun_grows l false c s ks) c.pos
          fun _ _ _ => removal_sublist s
        refine stmtRun_keeps l root ha c s ks hr (fun _ => hp) ?_ ?_ ?_
        · by_cases hc : s.kind = .compound
          · exact .inr (.inl hc)
          · cases hs : skipStmt c.above s with
            | true => exact .inr (.inr (.inr rfl))
            | false =>
              refine .inl (ih1 (item_kid (i := 0) hc fun _ => ⟨hk1, hk2⟩) ?_)
              intro j k hj
              exact .stmt hr hs (fun h => absurd h hk1) (fun _ => ⟨hk1, hk2, hp⟩) (by simpa using hj)
        · intro hc; exact absurd hc hk1
        · intro hc hs
          refine ih3 (by simp [isItem, NodeInfo.kind?, hc]) ?_
          intro j k hj
          exact .stmt hr hs (by simp [hc]) (fun _ => ⟨hk1, hk2, hp⟩) (by simpa using hj)

theorem blockLast_keeps (l : Lang) (root : Node) (ha : LocationsApart root) (c : Ctx) (n : NodeInfo)
    (i : Nat) : (ks : List Node) → isItem (n :: c.above) = true →
    (∀ (j : Nat) k, ks[j]? = some k → j + 1 = ks.length → Path l true root (c.enter n (i + j)) k) →
    Keeps (DeclaredInPointless root) (blockLast l true c n i ks) (blockLast l false c n i ks)
  | [], _, _ => by refine .same ?_ ?_ ?_ ?_ <;> intro st <;> rw [blockLast]
  | [k], hi, h => Keeps.congr (blockItem_keeps l root ha (c.enter n i) k (h 0 k rfl rfl) hi)
      (fun st => by rw [blockLast]) (fun st => by rw [blockLast])
  | k :: k' :: ks, hi, h => by
    refine Keeps.congr (blockLast_keeps l root ha c n (i + 1) (k' :: ks) hi ?_)
      (fun st => by simp [blockLast]) (fun st => by simp [blockLast])
    intro j k'' hj hl
    have := h (j + 1) k'' hj (by simpa using hl)
    rwa [show i + (j + 1) = i + 1 + j by omega] at this
end

/-- The mutations found with optimisation are among those found without, in the
same order and at the same places. -/
theorem visitTU_sublist (l : Lang) (root : Node) (ha : LocationsApart root) :
    (visitTU l true root).cur.post.Sublist (visitTU l false root).cur.post :=
  (traverse_keeps l root ha ⟨[], [], []⟩ root .root rfl VState.start VState.start rfl rfl
    ⟨.refl _, fun _ h => .inl h⟩).1

end Dredd
