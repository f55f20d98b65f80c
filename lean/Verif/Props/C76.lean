/-
C76: expressions that optimisation leaves out have another point instead.
-/
import Verif.Spec.Covered
import Verif.Props.C55
import Verif.Props.C25

namespace Dredd

/-- C76: an expression that is replaced without optimisation and not with it is in
a statement without side effects, or a wrapper, or the operand of a cast that does
not change the value category, or itself a statement. -/
theorem C76_why (l : Lang) (root : Node) (hw : WellFormed root) (p : List Nat)
    (above : List (Node × Nat)) (s : AStmt) (ks : List Node) (e : ExprFacts) (sp : Span) (t : BTy)
    (hp : Place root p above (.stmt s ks)) (hd : ¬ DeclaredAt root e.beginLoc)
    (hok : ExprOk l false above s e ks sp t) (hr : Replaceable false above e ks)
    (hm : ∀ m, MutationAt l true root p m → ¬ m.IsExpr above s e sp t) :
    ¬ NoPointless (.stmt s ks) above ∨ IsWrapper (.stmt s ks) ∨
    ((∃ k, Converted above e k ∧ k.lvalue = e.lvalue) ∧ nearestCls above ≠ some .initList) ∨
    ParentIsBlock above := by
  apply Classical.byContradiction
  intro hn
  simp only [not_or] at hn
  obtain ⟨h1, h2, h3, h4⟩ := hn
  have hok' : ExprOk l true above s e ks sp t :=
    ⟨⟨hok.considered.outside, hok.considered.pairs, fun _ => Classical.not_not.mp h1⟩, hok.self, hok.kind,
      hok.inFunction, hok.range, hok.ty, hok.consistent, hok.lookup, hok.temporary,
      fun _ => ⟨fun hc => h2 ⟨s, ks, e, rfl, hok.kind, .inl hc⟩,
        fun hc => h2 ⟨s, ks, e, rfl, hok.kind, .inr hc⟩⟩⟩
  obtain ⟨m, ha, hb⟩ := C55_expression l true root hw p above s ks e sp t hp hok'
    ⟨hr.lvalue, hr.initList, hr.null, hr.enum, hr.bitField, fun _ => h3, fun _ => h4⟩ hd
  exact hm m ha hb

theorem IsWrapper.not_item {n i above} (h : IsWrapper n) : ¬ ItemOfBlock ((n, i) :: above) := by
  rintro ⟨labels, s, ks, j, post, he, hk, hl⟩
  obtain ⟨s', ks', e', rfl, hk', _⟩ := h
  cases labels with
  | nil =>
    simp only [List.nil_append, List.cons.injEq, Prod.mk.injEq, Node.stmt.injEq] at he
    rw [he.1.1.1] at hk'
    rw [hk] at hk'
    cases hk'
  | cons x r =>
    simp only [List.cons_append, List.cons.injEq] at he
    obtain ⟨s2, ks2, h1, h2⟩ := hl x (List.mem_cons_self ..)
    rw [← he.1] at h1
    simp only [Node.stmt.injEq] at h1
    rw [h1.1] at hk'
    rw [hk'] at h2
    rcases h2 with h2 | h2 <;> cases h2

theorem Encloses.place {n q n'} (h : Encloses n q n') : ∀ {root p above}, Place root p above n →
    NoPointless n above → ∃ w i above', Place root (p ++ q) ((w, i) :: above') n' ∧ IsWrapper w ∧
      NoPointless n' ((w, i) :: above') := by
  induction h with
  | one hw => exact fun hp hn => ⟨_, _, _, .kid hp rfl, hw, fun h => hw.not_item h.1, hn⟩
  | more hw _ ih =>
    intro root p above hp hn
    obtain ⟨w, i, above', h1, h2⟩ := ih (.kid (i := 0) hp rfl) ⟨fun h => hw.not_item h.1, hn⟩
    exact ⟨w, i, above', by simpa using h1, h2⟩

theorem IsWrapper.cls {n} (h : IsWrapper n) : n.cls? = some .paren ∨ n.cls? = some .cleanups := by
  obtain ⟨s, ks, e, rfl, hk, hc⟩ := h
  obtain ⟨⟩ := s
  simp only at hk
  subst hk
  simpa [Node.cls?] using hc

theorem IsWrapper.not_cast {n imp k} (h : IsWrapper n) : ¬ IsCast n imp k := by
  rintro ⟨s, ks, e, dt, rfl, hk, hc, _⟩
  obtain ⟨s', ks', e', he, hk', hc'⟩ := h
  cases he
  rw [hk] at hk'
  cases hk'
  rw [hc] at hc'
  rcases hc' with h | h <;> cases h

/-- C76: a wrapper around an expression that is not an lvalue and could be mutated
by itself: the expression inside is mutated with optimisation, and without
optimisation what is offered for the two is the same.  Missing: lvalues. -/
theorem C76_enclosed_partial (l : Lang) (root : Node) (hw : WellFormed root) (p q : List Nat)
    (above above' : List (Node × Nat)) (s s' : AStmt) (ks ks' : List Node) (e e' : ExprFacts)
    (sp sp' : Span) (t : BTy) (m : Mutation)
    (hp : Place root p above (.stmt s ks)) (hp' : Place root (p ++ q) above' (.stmt s' ks'))
    (hq : Encloses (.stmt s ks) q (.stmt s' ks')) (hm : m.IsExpr above s e sp t)
    (hu : NoPointless (.stmt s ks) above) (hok : ExprOk l false above' s' e' ks' sp' t)
    (hsame : e'.infoAt t = e.infoAt t) (hl : e.lvalue = false) (hi : e'.initCast = none)
    (hn : ¬ IsWrapper (.stmt s' ks')) (hn' : e'.cls ≠ .initList) (hd : ¬ DeclaredAt root e'.beginLoc) :
    ∃ m', MutationAt l true root (p ++ q) m' ∧ m'.IsExpr above' s' e' sp' t ∧
      ∀ o first id, o.optimise = false →
        (m'.apply l o first id).group.acts = (m.apply l o first id).group.acts := by
  obtain ⟨w, i, up, h1, h2, h3⟩ := hq.place hp hu
  obtain rfl := (hp'.unique h1 rfl).1
  have hcast : ∀ k, ¬ Converted ((w, i) :: up) e' k := by
    rintro k (⟨n, hn, imp, hc⟩ | ⟨_, hc⟩)
    · simp only [nearest, List.head?_cons, Option.map_some, Option.mem_def, Option.some.injEq] at hn
      subst hn
      exact h2.not_cast hc
    · rw [hi] at hc; cases hc
  have hcls : nearestCls ((w, i) :: up) = some .paren ∨ nearestCls ((w, i) :: up) = some .cleanups := by
    simpa [nearestCls, nearest] using h2.cls
  have hok' : ExprOk l true ((w, i) :: up) s' e' ks' sp' t :=
    ⟨⟨hok.considered.outside, hok.considered.pairs, fun _ => h3⟩, hok.self, hok.kind,
      hok.inFunction, hok.range, hok.ty, hok.consistent, hok.lookup, hok.temporary,
      fun _ => ⟨fun hc => hn ⟨s', ks', e', rfl, hok.kind, .inl hc⟩,
        fun hc => hn ⟨s', ks', e', rfl, hok.kind, .inr hc⟩⟩⟩
  have hl' : e'.lvalue = false := by
    have := congrArg ExprInfo.lvalue hsame
    exact this.trans hl
  obtain ⟨m', ha, hb⟩ := C55_expression l true root hw (p ++ q) _ s' ks' e' sp' t hp' hok'
    ⟨fun h => by rw [hl'] at h; simp at h, hn', fun h => by
        obtain ⟨_, k, hk, _⟩ := h
        exact hcast k hk,
      fun h => by rcases hcls with hc | hc <;> · have := h.2.1; rw [hc] at this; simp at this,
      fun h => by rcases hcls with hc | hc <;> · have := h.2.1; rw [hc] at this; simp at this,
      fun _ h => by
        obtain ⟨⟨k, hk, _⟩, _⟩ := h
        exact hcast k hk,
      fun _ h => by
        obtain ⟨s2, ks2, h4, h5⟩ := h
        simp only [nearest, List.head?_cons, Option.map_some, Option.some.injEq] at h4
        subst h4
        obtain ⟨s3, ks3, e3, h6, h7, _⟩ := h2
        cases h6
        rw [h7] at h5
        rcases h5 with h5 | h5 | h5 <;> cases h5⟩ hd
  refine ⟨m', ha, hb, fun o first id ho => ?_⟩
  obtain ⟨x, rfl, hx, _⟩ := hm
  obtain ⟨y, rfl, hy, _⟩ := hb
  show (y.apply l o first id).group.acts = (x.apply l o first id).group.acts
  rw [y.group_acts, x.group_acts, ho]
  have hxy : y.self = x.self := by rw [hx, hy, hsame]
  have hxl : x.self.lvalue = false := by rw [hx]; exact hl
  unfold ExprSite.clauses
  simp [hxy, hxl]

theorem OuterCast.place {v above d c above'} (h : OuterCast v above d c above') : ∀ {root p n},
    Place root p above n → NoPointless n above → ∃ r, p.length = r.length + d ∧ r <+: p ∧
      Place root r above' c ∧ NoPointless c above' ∧ CastOf c v ∧ ∀ k ∈ nearest above', ¬ CastOf k v := by
  induction h with
  | last hc hn =>
    intro root p n hp hu
    cases hp with
    | kid hp _ => exact ⟨_, by simp, List.prefix_append _ _, hp, hu.2, hc, hn⟩
  | next hc _ ih =>
    intro root p n hp hu
    cases hp with
    | kid hp _ =>
      obtain ⟨r, h1, h2, h3⟩ := ih hp hu.2
      exact ⟨r, by simp [h1]; omega, h2.trans (List.prefix_append _ _), h3⟩

/-- C76: the operand of a cast: the outermost of the casts around it is mutated
with optimisation, if it is mutated without and is not a statement.  Missing: casts
that are not mutated, like those to types that are not supported. -/
theorem C76_cast_partial (l : Lang) (root : Node) (hw : WellFormed root) (p : List Nat) (d : Nat)
    (above above' : List (Node × Nat)) (s s' : AStmt) (ks ks' : List Node) (e e' : ExprFacts)
    (sp' : Span) (t' : BTy) (hp : Place root p above (.stmt s ks))
    (hc : OuterCast e.lvalue above d (.stmt s' ks') above') (hu : NoPointless (.stmt s ks) above)
    (hok : ExprOk l false above' s' e' ks' sp' t') (hr : Replaceable false above' e' ks')
    (hi : e'.initCast = none) (hb : ¬ ParentIsBlock above') (hd : ¬ DeclaredAt root e'.beginLoc) :
    ∃ r m', r <+: p ∧ p.length = r.length + d ∧ MutationAt l true root r m' ∧
      m'.IsExpr above' s' e' sp' t' := by
  obtain ⟨r, h1, h2, h3, h4, h5, h6⟩ := hc.place hp hu
  obtain ⟨imp, k, ⟨s2, ks2, e2, dt, he, hk, hcls, rfl⟩, hv⟩ := h5
  cases he
  have := hok.kind
  rw [hk] at this
  cases this
  have hno : ¬ ((∃ k, Converted above' e' k ∧ k.lvalue = e'.lvalue) ∧
      nearestCls above' ≠ some .initList) := by
    rintro ⟨⟨k, (⟨n, hn, imp', hc'⟩ | ⟨_, hc'⟩), hk'⟩, _⟩
    · exact h6 n hn ⟨imp', k, hc', hk'.trans hv⟩
    · rw [hi] at hc'
      cases hc'
  obtain ⟨m, ha, hb⟩ := C55_expression l true root hw r above' s' ks' e' sp' t' h3
    ⟨⟨hok.considered.outside, hok.considered.pairs, fun _ => h4⟩, hok.self, hok.kind,
      hok.inFunction, hok.range, hok.ty, hok.consistent, hok.lookup, hok.temporary,
      fun _ => by rw [hcls]; simp⟩
    ⟨hr.lvalue, hr.initList, hr.null, hr.enum, hr.bitField, fun _ => hno, fun _ => hb⟩ hd
  exact ⟨r, m, h2, h1, ha, hb⟩

/-- C76: an expression that is an item of a compound statement, possibly behind
labels, can be removed with optimisation, unless it has no side effects.  Missing:
expressions behind the labels of a `switch` without braces. -/
theorem C76_block_partial (l : Lang) (root : Node) (hw : WellFormed root) (p : List Nat)
    (above : List (Node × Nat)) (s : AStmt) (ks : List Node) (e : ExprFacts) (sp : Span) (t : BTy)
    (hp : Place root p above (.stmt s ks)) (hok : ExprOk l false above s e ks sp t)
    (hu : NoPointless (.stmt s ks) above) (hb : ItemOfBlock above) :
    ∃ m, MutationAt l true root p m ∧ m.IsRemovalOf s sp := by
  refine C55_removal l true root hw p above s ks sp hp
    ⟨hok.considered.outside, hok.considered.pairs, fun _ => hu⟩ ⟨hb, hok.range, ?_, fun _ => ?_⟩
  · rw [hok.kind]; simp
  · rw [hok.kind]; simp

namespace SampleAst

/-- `int g(){return (x) + 1;}` -/
def parenRead : Node :=
  tu [func false 0 40 [block 7 40 [node .other .plain 8 22
    [bin .add .plain 15 22
      (node (.expr (facts (.cast true false) (some .int) false 15)) .lhs 15 18
        [node (.expr (facts .paren (some .int) true 15)) .operand 15 18
          [node (.expr (facts .other (some .int) true 16)) .operand 16 17 []]])
      (lit .rhs 21 22)]]]]

/-- `E g(){return (E)f();}`, where `E` is an enumeration. -/
def castEnum : Node :=
  tu [func false 0 40 [block 5 40 [node .other .plain 6 19
    [node (.expr (facts (.cast false false) none false 13)) .plain 13 19
      [node (.expr (facts (.call none false false) (some .int) false 16)) .operand 16 19 []]]]]]

/-- `int g(){switch(c)case 1:f();}`, where `c` is of a type that is not supported. -/
def bareSwitch : Node :=
  tu [func false 0 40 [block 7 40 [node .other .plain 8 30
    [node (.expr (facts .other none true 15)) .plain 15 16 [],
     node .case_ .plain 17 30 [lit .plain 22 23,
      node (.expr (facts (.call none false false) (some .int) false 24)) .plain 24 27 []]]]]]

end SampleAst

open SampleAst

/-- C76 fails for lvalues in parentheses: without optimisation there are mutants
that increment `x` in `(x) + 1`, with optimisation there are none. -/
theorem C76_false_lvalue :
    let offered (opt : Bool) := (visitTU Sample.cpp opt parenRead).cur.post.flatMap fun x =>
      (x.2.apply Sample.cpp { optimise := opt, dumpAsts := false, track := false, showAst := false } 0 0).group.acts
    Act.expr .InsertPreInc ∈ offered false ∧ Act.expr .InsertPreInc ∉ offered true := by
  decide +kernel

/-- C76 fails for the operand of a cast to a type that is not supported: without
optimisation `f()` is replaced in `return (E)f();`, with optimisation there is
nothing but the removal of the statement. -/
theorem C76_false_cast :
    (∃ m, MutationAt Sample.cpp false castEnum [0, 0, 0, 0, 0] m) ∧
    ∀ p m, MutationAt Sample.cpp true castEnum p m → p = [0, 0, 0] := by
  have h : (visitTU Sample.cpp true castEnum).cur.post.map (·.1) = [[0, 0, 0]] := by decide +kernel
  have h' : (visitTU Sample.cpp false castEnum).cur.post.map (·.1) = [[0, 0, 0, 0, 0], [0, 0, 0]] := by
    decide +kernel
  refine ⟨?_, fun p m hm => ?_⟩
  · have : [0, 0, 0, 0, 0] ∈ (visitTU Sample.cpp false castEnum).cur.post.map (·.1) := by rw [h']; simp
    obtain ⟨⟨p, m⟩, hm, rfl⟩ := List.mem_map.mp this
    exact ⟨m, hm⟩
  · have : p ∈ (visitTU Sample.cpp true castEnum).cur.post.map (·.1) := List.mem_map.mpr ⟨_, hm, rfl⟩
    rw [h] at this
    simpa using this

/-- C76 fails for a statement behind the label of a `switch` without braces:
without optimisation the call is replaced, with optimisation there is nothing but
the removal of the whole `switch`. -/
theorem C76_false_case :
    (∃ m, MutationAt Sample.cpp false bareSwitch [0, 0, 0, 1, 1] m) ∧
    ∀ p m, MutationAt Sample.cpp true bareSwitch p m → p = [0, 0, 0] := by
  have h : (visitTU Sample.cpp true bareSwitch).cur.post.map (·.1) = [[0, 0, 0]] := by decide +kernel
  have h' : (visitTU Sample.cpp false bareSwitch).cur.post.map (·.1) = [[0, 0, 0, 1, 1], [0, 0, 0]] := by
    decide +kernel
  refine ⟨?_, fun p m hm => ?_⟩
  · have : [0, 0, 0, 1, 1] ∈ (visitTU Sample.cpp false bareSwitch).cur.post.map (·.1) := by rw [h']; simp
    obtain ⟨⟨p, m⟩, hm, rfl⟩ := List.mem_map.mp this
    exact ⟨m, hm⟩
  · have : p ∈ (visitTU Sample.cpp true bareSwitch).cur.post.map (·.1) := List.mem_map.mpr ⟨_, hm, rfl⟩
    rw [h] at this
    simpa using this

/-- The expression at a place is replaced. -/
def replacedAt (l : Lang) (opt : Bool) (root : Node) (p : List Nat) : Bool :=
  (visitTU l opt root).cur.post.any fun y => y.1 == p && match y.2 with
    | .expr _ => true
    | _ => false

theorem exprOk_of_replaced {l opt root p above s ks e} (h : replacedAt l opt root p = true)
    (hp : Place root p above (.stmt s ks)) (hk : s.kind = .expr e) :
    ∃ sp t m, ExprOk l opt above s e ks sp t ∧ Replaceable opt above e ks ∧ MutationAt l opt root p m ∧
      m.IsExpr above s e sp t := by
  obtain ⟨⟨q, m⟩, hm, he⟩ := List.any_eq_true.mp h
  simp only [Bool.and_eq_true, beq_iff_eq] at he
  obtain ⟨rfl, he⟩ := he
  obtain ⟨above', s', ks', hp', hc⟩ := C56 l opt root q m hm
  obtain ⟨rfl, hn⟩ := hp.unique hp' rfl
  cases hn
  cases m with
  | expr x =>
    rcases hc with ⟨e', sp, t, h1, h2⟩ | ⟨sp, _, _, x, hx, _⟩
    · have := h1.kind
      rw [hk] at this
      cases this
      rcases h2 with ⟨h2, h3⟩ | ⟨_, _, _, _, _, hx, _⟩ | ⟨_, _, _, _, _, _, _, _, _, hx, _⟩
      · exact ⟨sp, t, _, h1, h2, hm, h3⟩
      · cases hx
      · cases hx
    · cases hx
  | _ => simp at he

namespace SampleAst

/-- `a + b` in `int g(){f((long)(short)((a + b)));}` -/
def wrappedSum : Node := bin .add .plain 25 30 (read .lhs 25 26) (read .rhs 29 30)

/-- `((a + b))` -/
def wrappedTwice : Node :=
  node (.expr (facts .paren (some .int) false 23)) .operand 23 32
    [node (.expr (facts .paren (some .int) false 24)) .plain 24 31 [wrappedSum]]

/-- `int g(){f((long)(short)((a + b)));}` -/
def wrapped : Node :=
  tu [func false 0 40 [block 7 40
    [node (.expr (facts (.call none false false) (some .int) false 8)) .plain 8 33
      [node (.expr (facts (.cast false false) (some .long) false 10)) .callArg 10 32
        [node (.expr (facts (.cast false false) (some .short) false 16)) .operand 16 32 [wrappedTwice]]]]]]

theorem wrapped_wellFormed : WellFormed wrapped := by
  intro p above s ks hp
  refine (Everywhere.place (P := fun _ n => ∀ s ks, n = .stmt s ks →
    (s.kind = .compound → ∀ k ∈ ks, ∃ s' ks', k = .stmt s' ks') ∧
    (s.kind = .case_ → ∀ k ∈ ks, ∃ s' ks', k = .stmt s' ks') ∧
    (s.kind = .default_ → ∃ s' ks', ks = [.stmt s' ks'])) ?_ hp).2 s ks rfl
  simp [wrapped, wrappedTwice, wrappedSum, tu, func, block, node, bin, SampleAst.read, facts, Everywhere,
    EverywhereL]

theorem wrapped_notDeclared (loc : Nat) : ¬ DeclaredAt wrapped loc := by
  rintro ⟨p, above, d, ks, hp, h⟩
  have := (Everywhere.place (P := fun _ n => ∀ d ks, n = .decl d ks →
    ¬ ((∃ v, d.kind = .var v ∧ v.loc = loc) ∨ d.kind = .varLike loc)) (by
      simp [wrapped, wrappedTwice, wrappedSum, tu, func, block, node, bin, SampleAst.read, facts, Everywhere,
        EverywhereL]) hp).2
  exact this d ks rfl h

end SampleAst

/-- The hypotheses of `C76_enclosed_partial` hold for `((a + b))`; the parentheses are
not replaced with optimisation. -/
example : replacedAt Sample.cpp true wrapped [0, 0, 0, 0, 0, 0] = false ∧
    ∃ m' s e sp t above, MutationAt Sample.cpp true wrapped [0, 0, 0, 0, 0, 0, 0, 0] m' ∧
      m'.IsExpr above s e sp t := by
  refine ⟨by decide +kernel, ?_⟩
  have hp := ancestors_place [0, 0, 0, 0, 0, 0] wrapped _ _ rfl
  have hp' := ancestors_place ([0, 0, 0, 0, 0, 0] ++ [0, 0]) wrapped _ _ rfl
  obtain ⟨sp, t, m, hok, hr, hm, hx⟩ := exprOk_of_replaced (l := Sample.cpp) (opt := false) (by decide +kernel) hp rfl
  obtain ⟨sp', t', m', hok', _⟩ := exprOk_of_replaced (l := Sample.cpp) (opt := false) (by decide +kernel) hp' rfl
  obtain ⟨sp2, t2, m2, hok2, _⟩ := exprOk_of_replaced (l := Sample.cpp) (opt := true) (by decide +kernel) hp' rfl
  have ht : t' = t := by
    have h1 := hok.ty
    have h2 := hok'.ty
    exact Option.some.inj (h2.symm.trans h1)
  subst ht
  have w1 : ∀ s k, s.kind = .expr (facts .paren (some .int) false 23) ∨
      s.kind = .expr (facts .paren (some .int) false 24) → IsWrapper (.stmt s [k]) :=
    fun s k h => h.elim (fun h => ⟨_, _, _, rfl, h, .inl rfl⟩) (fun h => ⟨_, _, _, rfl, h, .inl rfl⟩)
  obtain ⟨m3, h3, h4, _⟩ := C76_enclosed_partial Sample.cpp wrapped wrapped_wellFormed _ [0, 0] _ _ _ _ _ _ _ _ _ _ _ m
    hp hp' (.more (w1 _ _ (.inl rfl)) (.one (w1 _ _ (.inr rfl)))) hx (hok2.considered.useful rfl).2.2 hok' rfl rfl rfl
    (by
      rintro ⟨s, ks, e, he, hk, hc⟩
      cases he
      cases hk
      rcases hc with h | h <;> cases h)
    (by intro h; cases h) (wrapped_notDeclared _)
  exact ⟨m3, _, _, _, _, _, h3, h4⟩

/-- The hypotheses of `C76_cast_partial` hold for `((a + b))`, below two casts; and those
of `C76_block_partial` for the call. -/
example :
    (∃ r m', r <+: [0, 0, 0, 0, 0, 0] ∧ 6 = r.length + 2 ∧ MutationAt Sample.cpp true wrapped r m') ∧
    ∃ m s sp, MutationAt Sample.cpp true wrapped [0, 0, 0] m ∧ m.IsRemovalOf s sp := by
  have hp := ancestors_place [0, 0, 0, 0, 0, 0] wrapped _ _ rfl
  have hp' := ancestors_place [0, 0, 0, 0] wrapped _ _ rfl
  have hb := ancestors_place [0, 0, 0] wrapped _ _ rfl
  have hi := ancestors_place [0, 0, 0, 0, 0, 0, 0, 0] wrapped _ _ rfl
  obtain ⟨sp', t', m', hok', hr', _⟩ := exprOk_of_replaced (l := Sample.cpp) (opt := false) (by decide +kernel) hp' rfl
  obtain ⟨sb, tb, mb, hokb, _⟩ := exprOk_of_replaced (l := Sample.cpp) (opt := false) (by decide +kernel) hb rfl
  obtain ⟨sp2, t2, m2, hok2, _⟩ := exprOk_of_replaced (l := Sample.cpp) (opt := true) (by decide +kernel) hi rfl
  have hu := hok2.considered.useful rfl
  refine ⟨?_, ?_⟩
  · obtain ⟨r, m, h1, h2, h3, _⟩ := C76_cast_partial Sample.cpp wrapped wrapped_wellFormed _ 2 _ _ _ _ _ _ _ _ _ _
      hp (.next ⟨false, _, ⟨_, _, _, _, rfl, rfl, rfl, rfl⟩, rfl⟩ (.last ⟨false, _, ⟨_, _, _, _, rfl, rfl, rfl, rfl⟩, rfl⟩ (by
        rintro k hk ⟨imp, k', ⟨s, ks, e, dt, rfl, hk', hc, _⟩, _⟩
        cases hk
        cases hk'
        cases hc))) hu.2.2 hok' hr' rfl (by
        rintro ⟨s, ks, h, hk⟩
        cases h
        rcases hk with hk | hk | hk <;> cases hk) (wrapped_notDeclared _)
    exact ⟨r, m, h1, h2, h3⟩
  · obtain ⟨m, h1, h2⟩ := C76_block_partial Sample.cpp wrapped wrapped_wellFormed _ _ _ _ _ _ _ hb hokb hu.2.2.2.2.2
      ⟨[], _, _, _, _, rfl, rfl, by simp⟩
    exact ⟨m, _, _, h1, h2⟩

/-- The hypotheses of `C76_why` hold for `((a + b))`. -/
example : ∃ s ks above, Place wrapped [0, 0, 0, 0, 0, 0] above (.stmt s ks) ∧
    (¬ NoPointless (.stmt s ks) above ∨ IsWrapper (.stmt s ks) ∨
      ((∃ e k, Converted above e k) ∧ nearestCls above ≠ some .initList) ∨ ParentIsBlock above) := by
  have hp := ancestors_place [0, 0, 0, 0, 0, 0] wrapped _ _ rfl
  obtain ⟨sp, t, m, hok, hr, _⟩ := exprOk_of_replaced (l := Sample.cpp) (opt := false) (by decide +kernel) hp rfl
  refine ⟨_, _, _, hp, ?_⟩
  refine (C76_why Sample.cpp wrapped wrapped_wellFormed _ _ _ _ _ _ _ hp (wrapped_notDeclared _) hok hr
    fun m hm hx => ?_).imp id (Or.imp id (Or.imp (fun h => ⟨⟨_, h.1.imp fun _ h => h.1⟩, h.2⟩) id))
  have h : replacedAt Sample.cpp true wrapped [0, 0, 0, 0, 0, 0] = false := by decide +kernel
  obtain ⟨x, rfl, _⟩ := hx
  have := List.any_eq_false.mp h _ hm
  simp at this

end Dredd
