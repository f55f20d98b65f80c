/-
Helper lemmas: everything in the mutation tree comes from a node that the visitor
gets to (`Path`), and what holds there.
-/
import Verif.Proofs.Eligible

namespace Dredd

/-- A mutation that comes from a node that the visitor gets to. -/
def FromPath (l : Lang) (opt : Bool) (root : Node) (ev : List Nat × Mutation) : Prop :=
  ∃ c s ks, Path l opt root c (.stmt s ks) ∧ c.pos = ev.1 ∧
    (isItem c.above = true → pointless opt s = false) ∧
    ((skipStmt c.above s = false ∧ ∃ e locs, s.kind = .expr e ∧ ev.2 ∈ visitExpr opt c locs s e ks) ∨
     (isItem c.above = true ∧ s.kind ≠ .case_ ∧ s.kind ≠ .default_ ∧ ev.2 ∈ removal opt s))

/-- A step adds only such mutations. -/
def AddsOnly (Q : List Nat × Mutation → Prop) (f : VState → VState) : Prop :=
  ∀ st : VState, st.cur.muts = [] → ∀ ev ∈ (f st).cur.post, ev ∈ st.cur.post ∨ Q ev

theorem AddsOnly.skip {Q} {f : VState → VState} (h : ∀ st, (f st).cur = st.cur) : AddsOnly Q f :=
  fun st _ ev he => .inl (by rwa [h] at he)

theorem AddsOnly.congr {Q} {f g : VState → VState} (hf : AddsOnly Q f) (h : ∀ st, f st = g st) :
    AddsOnly Q g := by
  rw [← funext h]; exact hf

theorem AddsOnly.seq {Q L} {f g : VState → VState} (hf : AddsOnly Q f) (hm : Grows L f)
    (hg : AddsOnly Q g) : AddsOnly Q (fun st => g (f st)) := by
  intro st h ev he
  rcases hg (f st) (hm st h).1 ev he with he | he
  · exact hf st h ev he
  · exact .inr he

theorem AddsOnly.child {Q} {f : VState → VState} (hf : AddsOnly Q f) :
    AddsOnly Q (fun st => st.inChild f) := by
  intro st h ev he
  have he' : ev ∈ (st.cur.addChild (f { st with cur := .node [] [] }).cur).post := he
  rw [(post_addChild _ _ h).1] at he'
  rcases List.mem_append.mp he' with he' | he'
  · exact .inl he'
  · rcases hf { st with cur := .node [] [] } rfl ev he' with h | h
    · simp [MTree.post, MTree.postL] at h
    · exact .inr h

theorem AddsOnly.inChild {Q L} {f : VState → VState} (hf : AddsOnly Q f) (hm : Grows L f) (p : List Nat)
    (ms : VState → List Mutation) (hq : ∀ st, ∀ m ∈ ms st, Q (p, m)) :
    AddsOnly Q (fun st => st.inChild fun st => (f st).add p (ms (f st))) := by
  refine AddsOnly.child (f := fun st => (f st).add p (ms (f st))) ?_
  intro st h ev he
  rw [add_cur, (hm st h).1] at he
  simp only [MTree.post, List.nil_append] at he
  rcases List.mem_append.mp he with he | he
  · refine hf st h ev ?_
    rw [post_eq]
    exact List.mem_append_left _ he
  · obtain ⟨m, hmm, rfl⟩ := List.mem_map.mp he
    exact .inr (hq _ m hmm)

theorem stmtRun_from (l : Lang) (opt : Bool) (root : Node) (c : Ctx) (s : AStmt) (ks : List Node)
    (hr : Path l opt root c (.stmt s ks)) (hp : isItem c.above = true → pointless opt s = false)
    (hk : AddsOnly (FromPath l opt root) (traverseL l opt c (.stmt s) 0 ks) ∨
      s.kind = .compound ∨ s.kind = .case_ ∨ skipStmt c.above s = true)
    (hl : s.kind = .case_ → skipStmt c.above s = false →
      AddsOnly (FromPath l opt root) (traverseLast l opt c (.stmt s) 0 ks))
    (hb : s.kind = .compound → skipStmt c.above s = false →
      AddsOnly (FromPath l opt root) (blockItems l opt c (.stmt s) 0 ks)) :
    AddsOnly (FromPath l opt root) (stmtRun l opt c s ks) := by
  cases hs : skipStmt c.above s with
  | true =>
    refine .skip fun st => ?_
    simp [stmtRun, stmtStep, hs]
  | false =>
    rw [stmtRun_eq l opt c s ks hs]
    cases hkind : s.kind
    case compound => exact (hb hkind hs).child
    case case_ => exact (hl hkind hs).child
    case expr e =>
      refine AddsOnly.inChild (ms := fun st => visitExpr opt c st.locs s e ks)
        (hk.resolve_right (by simp [hkind, hs])) (traverseL_grows l opt c (.stmt s) 0 ks) c.pos ?_
      intro st m hm
      exact ⟨c, s, ks, hr, rfl, hp, .inl ⟨hs, e, st.locs, hkind, hm⟩⟩
    all_goals exact (hk.resolve_right (by simp [hkind, hs])).child

theorem item_kid {c : Ctx} {s : AStmt} {i : Nat} (h1 : s.kind ≠ .compound)
    (h2 : isItem c.above = true → s.kind ≠ .case_ ∧ s.kind ≠ .default_) :
    isItem (NodeInfo.stmt s :: c.above) = false := by
  simp only [isItem, NodeInfo.kind?]
  cases hkind : s.kind
  case compound => exact absurd hkind h1
  case case_ =>
    cases ha : isItem c.above
    · rfl
    · exact absurd hkind (h2 ha).1
  case default_ =>
    cases ha : isItem c.above
    · rfl
    · exact absurd hkind (h2 ha).2
  all_goals rfl

mutual
theorem traverse_from (l : Lang) (opt : Bool) (root : Node) (c : Ctx) : (n : Node) →
    Path l opt root c n → isItem c.above = false →
    AddsOnly (FromPath l opt root) (traverse l opt c n)
  | .decl d ks, hr, hi => by
    have ih := fun (c' : Ctx) h => traverseL_from l opt root c' (.decl d) 0 ks rfl h
    by_cases hd : (!d.isTU && !d.range.isSome) = true
    · refine .skip fun st => ?_
      simp only [traverse, hd, if_true]
    · have hd' : d.isTU = true ∨ d.range.isSome = true := by
        cases h1 : d.isTU <;> cases h2 : d.range.isSome <;> simp [h1, h2] at hd ⊢
      refine AddsOnly.congr (f := declStep l c d (fun c st => traverseL l opt c (.decl d) 0 ks st)) ?_
        (fun st => by rw [traverse, if_neg hd])
      unfold declStep
      split
      · exact .skip (noteDecl_cur l d)
      · rename_i c' hc'
        intro st hm ev he
        rw [visitDecl_cur] at he
        have := ih c' (fun j k hj => .decl hr hi hd' hc' (by simpa using hj)) (noteDecl l d st)
          (by rw [noteDecl_cur, hm]) ev he
        rwa [noteDecl_cur] at this
  | .stmt s ks, hr, hi => by
    have ih1 := fun h h' => traverseL_from l opt root c (.stmt s) 0 ks h h'
    have ih2 := fun h h' => traverseLast_from l opt root c (.stmt s) 0 ks h h'
    have ih3 := fun h h' => blockItems_from l opt root c (.stmt s) 0 ks h h'
    have hno : isItem c.above = true → s.kind ≠ .case_ ∧ s.kind ≠ .default_ ∧ pointless opt s = false := by
      rw [hi]; intro h; cases h
    refine AddsOnly.congr (f := stmtRun l opt c s ks) ?_ (fun st => by rw [traverse]; rfl)
    refine stmtRun_from l opt root c s ks hr (fun h => (hno h).2.2) ?_ ?_ ?_
    · by_cases hc : s.kind = .compound
      · exact .inr (.inl hc)
      · by_cases hc' : s.kind = .case_
        · exact .inr (.inr (.inl hc'))
        · cases hs : skipStmt c.above s with
          | true => exact .inr (.inr (.inr rfl))
          | false =>
            refine .inl (ih1 (item_kid (i := 0) hc fun h => ⟨(hno h).1, (hno h).2.1⟩) ?_)
            intro j k hj
            exact .stmt hr hs (fun h => absurd h hc') hno (by simpa using hj)
    · intro hc hs
      refine ih2 (item_kid (i := 0) (by simp [hc]) fun h => ⟨(hno h).1, (hno h).2.1⟩) ?_
      intro j k hj hl
      exact .stmt hr hs (fun _ => by simpa using hl) hno (by simpa using hj)
    · intro hc hs
      refine ih3 (by simp [isItem, NodeInfo.kind?, hc]) ?_
      intro j k hj
      exact .stmt hr hs (by simp [hc]) hno (by simpa using hj)
  | .other o ks, hr, hi => by
    have ih := fun h => traverseL_from l opt root c (.other o) 0 ks rfl h
    by_cases ho : skipOther l o = true
    · refine .skip fun st => ?_
      simp only [traverse, ho, if_true]
    · refine AddsOnly.congr (ih fun j k hj => .other hr hi (by simpa using ho) (by simpa using hj))
        (fun st => by rw [traverse, if_neg ho])

theorem traverseL_from (l : Lang) (opt : Bool) (root : Node) (c : Ctx) (n : NodeInfo) (i : Nat) :
    (ks : List Node) → isItem (n :: c.above) = false →
    (∀ (j : Nat) k, ks[j]? = some k → Path l opt root (c.enter n (i + j)) k) →
    AddsOnly (FromPath l opt root) (traverseL l opt c n i ks)
  | [], _, _ => .skip fun st => by rw [traverseL]
  | k :: ks, hi, h => by
    refine AddsOnly.congr (AddsOnly.seq (traverse_from l opt root (c.enter n i) k (h 0 k rfl) hi)
      (traverse_grows l opt (c.enter n i) k) (traverseL_from l opt root c n (i + 1) ks hi ?_))
      (fun st => by rw [traverseL])
    intro j k' hj
    have := h (j + 1) k' hj
    rwa [show i + (j + 1) = i + 1 + j by omega] at this

theorem traverseLast_from (l : Lang) (opt : Bool) (root : Node) (c : Ctx) (n : NodeInfo) (i : Nat) :
    (ks : List Node) → isItem (n :: c.above) = false →
    (∀ (j : Nat) k, ks[j]? = some k → j + 1 = ks.length → Path l opt root (c.enter n (i + j)) k) →
    AddsOnly (FromPath l opt root) (traverseLast l opt c n i ks)
  | [], _, _ => .skip fun st => by rw [traverseLast]
  | [k], hi, h => AddsOnly.congr (traverse_from l opt root (c.enter n i) k (h 0 k rfl rfl) hi)
      (fun st => by rw [traverseLast])
  | k :: k' :: ks, hi, h => by
    refine AddsOnly.congr (traverseLast_from l opt root c n (i + 1) (k' :: ks) hi ?_)
      (fun st => by simp [traverseLast])
    intro j k'' hj hl
    have := h (j + 1) k'' hj (by simpa using hl)
    rwa [show i + (j + 1) = i + 1 + j by omega] at this

theorem blockItems_from (l : Lang) (opt : Bool) (root : Node) (c : Ctx) (n : NodeInfo) (i : Nat) :
    (ks : List Node) → isItem (n :: c.above) = true →
    (∀ (j : Nat) k, ks[j]? = some k → Path l opt root (c.enter n (i + j)) k) →
    AddsOnly (FromPath l opt root) (blockItems l opt c n i ks)
  | [], _, _ => .skip fun st => by rw [blockItems]
  | k :: ks, hi, h => by
    refine AddsOnly.congr (AddsOnly.seq (blockItem_from l opt root (c.enter n i) k (h 0 k rfl) hi)
      (blockItem_grows l opt (c.enter n i) k) (blockItems_from l opt root c n (i + 1) ks hi ?_))
      (fun st => by rw [blockItems])
    intro j k' hj
    have := h (j + 1) k' hj
    rwa [show i + (j + 1) = i + 1 + j by omega] at this

theorem blockItem_from (l : Lang) (opt : Bool) (root : Node) (c : Ctx) : (n : Node) →
    Path l opt root c n → isItem c.above = true →
    AddsOnly (FromPath l opt root) (blockItem l opt c n)
  | .decl d ks, _, _ => .skip fun st => by rw [blockItem]; simp
  | .other k ks, _, _ => .skip fun st => by rw [blockItem]; simp
  | .stmt s ks, hr, hi => by
    have ih1 := fun h h' => traverseL_from l opt root c (.stmt s) 0 ks h h'
    have ih3 := fun h h' => blockItems_from l opt root c (.stmt s) 0 ks h h'
    have ih4 := fun h h' => blockLast_from l opt root c (.stmt s) 0 ks h h'
    by_cases hk : s.kind = .case_ ∨ s.kind = .default_
    · rw [blockItem_label l opt c s ks hk]
      refine ih4 ?_ ?_
      · rcases hk with hk | hk <;> simp [isItem, NodeInfo.kind?, hk, hi]
      · intro j k hj hl
        exact .label hr hk hi (by simpa using hj) (by simpa using hl)
    · have hk1 : s.kind ≠ .case_ := fun h => hk (.inl h)
      have hk2 : s.kind ≠ .default_ := fun h => hk (.inr h)
      cases hp : pointless opt s with
      | true =>
        refine .skip fun st => ?_
        rw [blockItem]
        split
        · contradiction
        · contradiction
        · rw [if_pos hp]
      | false =>
        rw [blockItem_eq l opt c s ks hk1 hk2 hp]
        refine AddsOnly.inChild (ms := fun _ => removal opt s) ?_ (stmtRun_grows l opt c s ks) c.pos ?_
        · refine stmtRun_from l opt root c s ks hr (fun _ => hp) ?_ ?_ ?_
          · by_cases hc : s.kind = .compound
            · exact .inr (.inl hc)
            · cases hs : skipStmt c.above s with
              | true => exact .inr (.inr (.inr rfl))
              | false =>
                refine .inl (ih1 (item_kid (i := 0) hc fun _ => ⟨hk1, hk2⟩) ?_)
                intro j k hj
                exact .stmt hr hs (fun h => absurd h hk1) (fun _ => ⟨hk1, hk2, hp⟩) (by simpa using hj)
          · intro hc; exact absurd hc hk1
          · intro hc hs
            refine ih3 (by simp [isItem, NodeInfo.kind?, hc]) ?_
            intro j k hj
            exact .stmt hr hs (by simp [hc]) (fun _ => ⟨hk1, hk2, hp⟩) (by simpa using hj)
        · intro _ m hm
          exact ⟨c, s, ks, hr, rfl, fun _ => hp, .inr ⟨hi, hk1, hk2, hm⟩⟩

theorem blockLast_from (l : Lang) (opt : Bool) (root : Node) (c : Ctx) (n : NodeInfo) (i : Nat) :
    (ks : List Node) → isItem (n :: c.above) = true →
    (∀ (j : Nat) k, ks[j]? = some k → j + 1 = ks.length → Path l opt root (c.enter n (i + j)) k) →
    AddsOnly (FromPath l opt root) (blockLast l opt c n i ks)
  | [], _, _ => .skip fun st => by rw [blockLast]
  | [k], hi, h => AddsOnly.congr (blockItem_from l opt root (c.enter n i) k (h 0 k rfl rfl) hi)
      (fun st => by rw [blockLast])
  | k :: k' :: ks, hi, h => by
    refine AddsOnly.congr (blockLast_from l opt root c n (i + 1) (k' :: ks) hi ?_)
      (fun st => by simp [blockLast])
    intro j k'' hj hl
    have := h (j + 1) k'' hj (by simpa using hl)
    rwa [show i + (j + 1) = i + 1 + j by omega] at this
end

theorem visitTU_from (l : Lang) (opt : Bool) (root : Node) :
    ∀ ev ∈ (visitTU l opt root).cur.post, FromPath l opt root ev := by
  intro ev he
  rcases traverse_from l opt root ⟨[], [], []⟩ root .root rfl VState.start rfl ev he with h | h
  · simp [VState.start, MTree.post, MTree.postL] at h
  · exact h

theorem Path.reach {l : Lang} {opt : Bool} {root : Node} {c : Ctx} {n : Node}
    (h : Path l opt root c n) : Reach l root c n := by
  induction h with
  | root => exact .root
  | decl _ _ hr hc hk ih => exact .decl ih hr hc hk
  | @stmt c s ks i k _ hs hcase _ hk ih =>
    by_cases h : s.kind = .case_
    · exact .label ih (.inl h) (.inl hs) hk (hcase h)
    · exact .stmt ih hs h hk
  | label _ hkind hi hk hl ih => exact .label ih hkind (.inr hi) hk hl
  | other _ _ ho hk ih => exact .other ih ho hk

/-- No ancestor is a statement that consists of an expression without side
effects. -/
def NoPointlessAbove : List (Node × Nat) → Prop
  | [] => True
  | (p, _) :: rest => NoPointless p rest

theorem NoPointlessAbove.cons {n : Node} {above : List (Node × Nat)} (h : NoPointlessAbove above)
    (hn : ItemOfBlock above → ¬ Pointless n) : NoPointless n above := by
  cases above with
  | nil => trivial
  | cons x r => exact ⟨fun ⟨h1, h2⟩ => hn h1 h2, h⟩

theorem pointless_true {s : AStmt} {ks : List Node} (h : pointless true s = false) :
    ¬ Pointless (.stmt s ks) := by
  rintro ⟨s', ks', e, he, hk, hs⟩
  cases he
  simp [pointless, hk, hs] at h

theorem Path.useful {l : Lang} {opt : Bool} {root : Node} {c : Ctx} {n : Node}
    (h : Path l opt root c n) : ∃ above, Place root c.pos above n ∧ c.above = above.map (·.1.info) ∧
      (opt = true → NoPointlessAbove above) := by
  induction h with
  | root => exact ⟨[], .root, rfl, fun _ => trivial⟩
  | @decl c c' d ks i k _ _ hr hc hk ih =>
    obtain ⟨above, h1, h2, h3⟩ := ih
    refine ⟨(.decl d ks, i) :: above, ?_, ?_, fun ho => (h3 ho).cons fun _ => ?_⟩
    · rw [enter_pos, (declCtx_pos hc).1]; exact .kid h1 hk
    · rw [enter_above, (declCtx_pos hc).2, h2]; rfl
    · rintro ⟨_, _, _, he, _⟩; cases he
  | @stmt c s ks i k _ hs hcase hi hk ih =>
    obtain ⟨above, h1, h2, h3⟩ := ih
    refine ⟨(.stmt s ks, i) :: above, ?_, ?_, fun ho => (h3 ho).cons fun hb => ?_⟩
    · rw [enter_pos]; exact .kid h1 hk
    · rw [enter_above, h2]; rfl
    · subst ho
      exact pointless_true (hi (by rw [h2]; exact isItem_iff.mpr hb)).2.2
  | @label c s ks i k _ hkind hi hk hl ih =>
    obtain ⟨above, h1, h2, h3⟩ := ih
    refine ⟨(.stmt s ks, i) :: above, ?_, ?_, fun ho => (h3 ho).cons fun _ => ?_⟩
    · rw [enter_pos]; exact .kid h1 hk
    · rw [enter_above, h2]; rfl
    · rintro ⟨s', ks', e, he, hk, _⟩
      cases he
      rcases hkind with h | h <;> simp [h] at hk
  | @other c o ks i k _ hi ho hk ih =>
    obtain ⟨above, h1, h2, h3⟩ := ih
    refine ⟨(.other o ks, i) :: above, ?_, ?_, fun ho => (h3 ho).cons fun _ => ?_⟩
    · rw [enter_pos]; exact .kid h1 hk
    · rw [enter_above, h2]; rfl
    · rintro ⟨_, _, _, he, _⟩; cases he

/-- What is known about a mutation of a tree. -/
theorem FromPath.fine {l : Lang} {opt : Bool} {root : Node} {ev : List Nat × Mutation}
    (h : FromPath l opt root ev) :
    ∃ c above s ks, Fine l root c (.stmt s ks) above ∧ c.pos = ev.1 ∧
      Considered l opt (.stmt s ks) above ∧
      ((skipStmt c.above s = false ∧ ∃ e locs, s.kind = .expr e ∧ ev.2 ∈ visitExpr opt c locs s e ks) ∨
       (ItemOfBlock above ∧ s.kind ≠ .case_ ∧ s.kind ≠ .default_ ∧ ev.2 ∈ removal opt s)) := by
  obtain ⟨c, s, ks, hr, hp, hpt, ho⟩ := h
  obtain ⟨above, hf⟩ := hr.reach.fine
  obtain ⟨above', h1, h2, h3⟩ := hr.useful
  obtain ⟨rfl, _⟩ := hf.place.unique h1 rfl
  refine ⟨c, above', s, ks, hf, hp, ⟨hf.outside, ?_, fun h => (h3 h).cons fun hb => ?_⟩, ?_⟩
  · have hpairs := hf.pairs
    cases above' with
    | nil => trivial
    | cons x rest =>
      refine ⟨?_, hpairs⟩
      rcases ho with ⟨hs, _⟩ | ⟨hi, _⟩
      · rw [hf.infos] at hs
        exact not_child hs
      · rw [hf.infos] at hi
        exact not_child_item hi
  · subst h
    exact pointless_true (hpt (by rw [h2]; exact isItem_iff.mpr hb))
  · rcases ho with h | ⟨h, h'⟩
    · exact .inl h
    · exact .inr ⟨isItem_iff.mp (h2 ▸ h), h'⟩

end Dredd
