/-
Helper lemmas: the nodes that the visitor gets to are outside compile-time
contexts.
-/
import Verif.Proofs.Visitor

namespace Dredd

/-- What holds at a node that the visitor gets to. -/
structure Fine (l : Lang) (root : Node) (c : Ctx) (n : Node) (above : List (Node × Nat)) : Prop where
  place : Place root c.pos above n
  infos : c.above = above.map (·.1.info)
  encl : isInFunction c.encl = true → InFunction above
  outside : ∀ x ∈ above, ¬ CompileTime l x
  pairs : match above with
    | [] => True
    | (p, _) :: rest => NoPair CompileTimeChild p rest

theorem InFunction.cons {x : Node × Nat} {above} (h : InFunction above)
    (hx : ∀ d ks, x.1 = .decl d ks → d.isVariable ∨ d.isTU = true) : InFunction (x :: above) := by
  obtain ⟨pre, d, ks, i, post, rfl, h1, h2⟩ := h
  refine ⟨x :: pre, d, ks, i, post, rfl, h1, ?_⟩
  intro y hy d' ks' he
  rcases List.mem_cons.mp hy with rfl | hy
  · exact hx d' ks' he
  · exact h2 y hy d' ks' he

theorem cls?_info (n : Node) : n.cls? = n.info.cls? := by
  match n with
  | .decl _ _ => rfl
  | .other _ _ => rfl
  | .stmt ⟨k, _, _, _, _, _, _, _, _⟩ _ => cases k <;> rfl

theorem parentCls_map (above : List (Node × Nat)) :
    parentCls (above.map (·.1.info)) = above.head?.bind (·.1.cls?) := by
  cases above with
  | nil => rfl
  | cons x above => simp [parentCls, cls?_info]

/-- An expression or statement that is not skipped is not a compile-time child. -/
theorem not_child {s : AStmt} {ks : List Node} {x : Node × Nat} {rest : List (Node × Nat)}
    (h : skipStmt ((x :: rest).map (·.1.info)) s = false) : ¬ CompileTimeChild x.1 (.stmt s ks) := by
  rintro ⟨s', ks', he, h'⟩
  cases he
  simp only [skipStmt, Bool.or_eq_false_iff] at h
  obtain ⟨⟨⟨_, h1⟩, h2⟩, h3⟩ := h
  rw [parentCls_map] at h1 h3
  simp only [List.head?_cons, Option.bind_some] at h1 h3
  rcases h' with h' | ⟨h', hr⟩ | ⟨hr, s0, ks0, he, hk⟩
  · rw [h'] at h1; simp at h1
  · rw [h', hr] at h3; simp at h3
  · simp only [List.map_cons, List.head?_cons, Option.bind_some] at h2
    rw [he, hr] at h2
    simp [Node.info, NodeInfo.kind?, hk] at h2

theorem not_child_item {n : Node} {x : Node × Nat} {rest : List (Node × Nat)}
    (h : isItem ((x :: rest).map (·.1.info)) = true) : ¬ CompileTimeChild x.1 n := by
  rintro ⟨s', ks', he, h'⟩
  obtain ⟨x, i⟩ := x
  match x with
  | .decl _ _ => simp [isItem, Node.info, NodeInfo.kind?] at h
  | .other _ _ => simp [isItem, Node.info, NodeInfo.kind?] at h
  | .stmt ⟨k, _, _, _, _, _, _, _, _⟩ _ =>
    rcases h' with h' | ⟨h', _⟩ | ⟨_, s0, ks0, he, hk⟩
    · cases k <;> simp [Node.cls?] at h'
      simp [isItem, Node.info, NodeInfo.kind?] at h
    · cases k <;> simp [Node.cls?] at h'
      simp [isItem, Node.info, NodeInfo.kind?] at h
    · cases he
      simp at hk
      simp [isItem, Node.info, NodeInfo.kind?, hk] at h

theorem skip_not_compileTime {l : Lang} {above : List NodeInfo} {s : AStmt} {ks : List Node} {i : Nat}
    (h : skipStmt above s = false) (hc : s.kind = .case_ → i + 1 = ks.length) :
    ¬ CompileTime l (.stmt s ks, i) := by
  rintro (⟨e, hk, h'⟩ | ⟨hk, hi⟩)
  · simp only [skipStmt, Bool.or_eq_false_iff, hk] at h
    obtain ⟨⟨⟨h, _⟩, _⟩, _⟩ := h
    rcases h' with h' | h' | h' | ⟨a, adl, m, h'⟩ | ⟨imp, h'⟩ <;> simp [h'] at h
  · exact hi (hc hk)

theorem declCtx_inFunction {l c d c'} (h : declCtx l c d = some c') :
    isInFunction c'.encl = true →
      d.isFunction ∨ (isInFunction c.encl = true ∧ (d.isVariable ∨ d.isTU = true)) := by
  intro hf
  unfold declCtx at h
  split at h
  · cases h
    exact .inr ⟨hf, .inr (by simp [Decl.isTU, *])⟩
  · cases h
  · exact .inl ⟨_, _, ‹_›⟩
  · cases h
    simp [Ctx.push, isInFunction, *] at hf
  · rename_i v hd
    split at h
    · cases h
    · split at h
      · cases h
      · cases h
        simp [Ctx.push, isInFunction, hd] at hf
        exact .inr ⟨hf, .inl (.inl ⟨v, hd⟩)⟩
  · rename_i loc hd
    cases h
    simp [Ctx.push, isInFunction, hd] at hf
    exact .inr ⟨hf, .inl (.inr (.inl ⟨loc, hd⟩))⟩
  · cases h
  · cases h
    simp [Ctx.push, isInFunction, *] at hf

theorem declCtx_not_compileTime {l : Lang} {c d c' ks i} (h : declCtx l c d = some c')
    (hr : d.isTU = true ∨ d.range.isSome = true) : ¬ CompileTime l (.decl d ks, i) := by
  rintro (⟨p, h'⟩ | ⟨v, h', h''⟩ | ⟨a, h'⟩ | h' | ⟨h', h''⟩)
  · simp [declCtx, h'] at h
  · simp only [declCtx, h'] at h
    rcases h'' with h'' | h'' | ⟨h1, h2⟩
    · simp [h''] at h
    · simp [h''] at h
    · simp [h1, h2] at h
  · simp [declCtx, h'] at h
  · simp [declCtx, h'] at h
  · rcases hr with hr | hr
    · rw [h'] at hr; cases hr
    · rw [h''] at hr; cases hr

theorem Fine.kid {l : Lang} {root : Node} {c c' : Ctx} {n k : Node} {above : List (Node × Nat)} {i : Nat}
    (h : Fine l root c n above) (hp : c'.pos = c.pos) (ha : c'.above = c.above)
    (he : isInFunction c'.encl = true → InFunction ((n, i) :: above)) (hk : n.kids[i]? = some k)
    (ho : ¬ CompileTime l (n, i))
    (hpair : match above with
      | [] => True
      | (p, _) :: _ => ¬ CompileTimeChild p n) :
    Fine l root (c'.enter n.info i) k ((n, i) :: above) where
  place := by rw [enter_pos, hp]; exact .kid h.place hk
  infos := by rw [enter_above, ha, h.infos]; rfl
  encl := he
  outside := by
    intro x hx
    rcases List.mem_cons.mp hx with rfl | hx
    · exact ho
    · exact h.outside x hx
  pairs := by
    have := h.pairs
    cases above with
    | nil => trivial
    | cons x rest => exact ⟨hpair, this⟩

theorem InFunction.of_func {d : Decl} {ks i above} (h : d.isFunction) :
    InFunction ((.decl d ks, i) :: above) :=
  ⟨[], d, ks, i, above, rfl, h, by simp⟩

theorem Reach.fine {l : Lang} {root : Node} {c : Ctx} {n : Node} (h : Reach l root c n) :
    ∃ above, Fine l root c n above := by
  induction h with
  | root =>
    exact ⟨[], .root, rfl, by simp [isInFunction], by simp, trivial⟩
  | @decl c c' d ks i k hr hrange hc hk ih =>
    obtain ⟨above, ih⟩ := ih
    refine ⟨(.decl d ks, i) :: above, ih.kid (declCtx_pos hc).1 (declCtx_pos hc).2 ?_ hk
      (declCtx_not_compileTime hc hrange) ?_⟩
    · intro hf
      rcases declCtx_inFunction hc hf with hd | ⟨hf, hd⟩
      · exact .of_func hd
      · refine (ih.encl hf).cons ?_
        intro d' ks' he
        cases he
        exact hd
    · cases above with
      | nil => trivial
      | cons x rest => rintro ⟨_, _, he, _⟩; cases he
  | @stmt c s ks i k hr hs hcase hk ih =>
    obtain ⟨above, ih⟩ := ih
    refine ⟨(.stmt s ks, i) :: above, ih.kid rfl rfl ?_ hk (skip_not_compileTime hs fun h => absurd h hcase) ?_⟩
    · intro hf
      exact (ih.encl hf).cons (by intro _ _ he; cases he)
    · cases above with
      | nil => trivial
      | cons x rest =>
        rw [ih.infos] at hs
        exact not_child hs
  | @label c s ks i k hr hcase hs hk hl ih =>
    obtain ⟨above, ih⟩ := ih
    refine ⟨(.stmt s ks, i) :: above, ih.kid rfl rfl ?_ hk ?_ ?_⟩
    · intro hf
      exact (ih.encl hf).cons (by intro _ _ he; cases he)
    · rintro (⟨e, hk, _⟩ | ⟨_, hi⟩)
      · rcases hcase with h | h <;> simp [h] at hk
      · exact hi hl
    · cases above with
      | nil => trivial
      | cons x rest =>
        rw [ih.infos] at hs
        rcases hs with hs | hs
        · exact not_child hs
        · exact not_child_item hs
  | @other c o ks i k hr hs hk ih =>
    obtain ⟨above, ih⟩ := ih
    refine ⟨(.other o ks, i) :: above, ih.kid rfl rfl ?_ hk ?_ ?_⟩
    · intro hf
      exact (ih.encl hf).cons (by intro _ _ he; cases he)
    · rintro (h | h | h | h | ⟨h1, h⟩) <;> simp [skipOther, h] at hs
      rw [h1] at hs; cases hs
    · cases above with
      | nil => trivial
      | cons x rest => rintro ⟨_, _, he, _⟩; cases he

/-- What is known about a mutation of a tree: it belongs to a node outside
compile-time contexts. -/
theorem FromNode.fine {l : Lang} {opt : Bool} {root : Node} {ev : List Nat × Mutation}
    (h : FromNode l opt root ev) :
    ∃ c above s ks, Fine l root c (.stmt s ks) above ∧ c.pos = ev.1 ∧
      NoPair CompileTimeChild (.stmt s ks) above ∧ Origin opt c s ks ev.2 := by
  obtain ⟨c, s, ks, hr, hp, ho⟩ := h
  obtain ⟨above, hf⟩ := hr.fine
  refine ⟨c, above, s, ks, hf, hp, ?_, ho⟩
  have hpairs := hf.pairs
  cases above with
  | nil => trivial
  | cons x rest =>
    refine ⟨?_, hpairs⟩
    rcases ho with ⟨hs, _⟩ | ⟨hi, _⟩
    · rw [hf.infos] at hs
      exact not_child hs
    · rw [hf.infos] at hi
      exact not_child_item hi

theorem itemOfBlock (above : List (Node × Nat)) (h : isItem (above.map (·.1.info)) = true) :
    ItemOfBlock above := by
  induction above with
  | nil => simp [isItem] at h
  | cons x above ih =>
    obtain ⟨x, i⟩ := x
    match x with
    | .decl _ _ => simp [isItem, Node.info, NodeInfo.kind?] at h
    | .other _ _ => simp [isItem, Node.info, NodeInfo.kind?] at h
    | .stmt s ks =>
      by_cases hc : s.kind = .compound
      · exact ⟨[], s, ks, i, above, rfl, hc, by simp⟩
      · have : (s.kind = .case_ ∨ s.kind = .default_) ∧ isItem (above.map (·.1.info)) = true := by
          simp only [List.map_cons, isItem, Node.info, NodeInfo.kind?] at h
          split at h
          · rename_i h1; simp at h1; contradiction
          · rename_i h1; simp at h1; exact ⟨.inl h1, h⟩
          · rename_i h1; simp at h1; exact ⟨.inr h1, h⟩
          · cases h
        obtain ⟨labels, s', ks', j, post, rfl, h1, h2⟩ := ih this.2
        refine ⟨(.stmt s ks, i) :: labels, s', ks', j, post, rfl, h1, ?_⟩
        intro y hy
        rcases List.mem_cons.mp hy with rfl | hy
        · exact ⟨s, ks, rfl, this.1⟩
        · exact h2 y hy

theorem Place.unique {root : Node} {p a n} (hp : Place root p a n) :
    ∀ {q b k}, Place root q b k → q = p → b = a ∧ k = n := by
  induction hp with
  | root =>
    intro q b k hq he
    cases hq with
    | root => exact ⟨rfl, rfl⟩
    | kid _ _ => simp at he
  | kid hp hk ih =>
    intro q b k hq he
    cases hq with
    | root => simp at he
    | kid hq hk' =>
      obtain ⟨hq', hi⟩ := List.append_inj' he rfl
      cases hi
      obtain ⟨hb, hn⟩ := ih hq hq'
      subst hb hn
      rw [hk'] at hk
      exact ⟨rfl, Option.some.inj hk⟩

theorem removal_span {opt : Bool} {s : AStmt} {m : Mutation} (h : m ∈ removal opt s) :
    ∃ sp, s.range = some sp ∧ m = .stmt (stmtSite s sp) := by
  unfold removal at h
  split at h
  · simp at h
  · rename_i sp hr
    refine ⟨sp, hr, ?_⟩
    repeat' split at h
    all_goals simpa using h

end Dredd
