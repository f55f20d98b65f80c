/-
Helper lemmas: the conditions that the visitor checks are those of
`Spec/Eligible.lean`.
-/
import Verif.Proofs.Complete

namespace Dredd

theorem childExpr_iff {r : Role} {ks : List Node} {s : AStmt} {e : ExprFacts} :
    childExpr r ks = some (s, e) ↔ HasChild ks r s e := by
  induction ks with
  | nil =>
    constructor
    · intro h; simp [childExpr] at h
    · rintro ⟨pre, k, post, h, _⟩; simp at h
  | cons k ks ih =>
    have skip : (∀ s' e', k.expr? = some (s', e') → s'.role ≠ r) →
        (HasChild (k :: ks) r s e ↔ HasChild ks r s e) := by
      intro hk
      constructor
      · rintro ⟨pre, k', post, h1, h2, h3, h4⟩
        cases pre with
        | nil =>
          simp at h1
          obtain ⟨rfl, rfl⟩ := h1
          exact absurd h3 (hk s e h2)
        | cons x pre =>
          simp at h1
          obtain ⟨rfl, rfl⟩ := h1
          exact ⟨pre, k', post, rfl, h2, h3, fun y hy => h4 y (List.mem_cons_of_mem _ hy)⟩
      · rintro ⟨pre, k', post, rfl, h2, h3, h4⟩
        refine ⟨k :: pre, k', post, rfl, h2, h3, ?_⟩
        intro y hy
        rcases List.mem_cons.mp hy with rfl | hy
        · exact hk
        · exact h4 y hy
    cases hk : k.expr? with
    | none =>
      rw [childExpr, hk]
      rw [skip (by simp [hk]), ← ih]
    | some x =>
      obtain ⟨s', e'⟩ := x
      rw [childExpr, hk]
      by_cases hr : s'.role = r
      · simp only [if_pos hr]
        constructor
        · intro h
          cases h
          exact ⟨[], k, ks, rfl, hk, hr, by simp⟩
        · rintro ⟨pre, k', post, h1, h2, h3, h4⟩
          cases pre with
          | nil =>
            simp at h1
            obtain ⟨rfl, rfl⟩ := h1
            rw [hk] at h2
            exact h2
          | cons x pre =>
            simp at h1
            obtain ⟨rfl, rfl⟩ := h1
            exact absurd hr (h4 k List.mem_cons_self s' e' hk)
      · simp only [if_neg hr]
        rw [skip (by rw [hk]; intro _ _ h; cases h; exact hr), ← ih]

theorem castOf_iff {n : Node} {imp : Bool} {k : InitCast} :
    castOf n.info = some (imp, k) ↔ IsCast n imp k := by
  constructor
  · intro h
    match n with
    | .decl _ _ => simp [castOf, Node.info] at h
    | .other _ _ => simp [castOf, Node.info] at h
    | .stmt s ks =>
      simp only [castOf, Node.info] at h
      split at h
      · rename_i e hk
        split at h
        · rename_i imp' dt hc
          simp at h
          obtain ⟨rfl, rfl⟩ := h
          exact ⟨s, ks, e, dt, rfl, hk, hc, rfl⟩
        · simp at h
      · simp at h
  · rintro ⟨s, ks, e, dt, rfl, hk, hc, rfl⟩
    simp [castOf, Node.info, hk, hc]

theorem nearest_castOf (above : List (Node × Nat)) :
    (above.map (·.1.info)).head?.bind castOf = (nearest above).bind fun n => castOf n.info := by
  cases above <;> rfl

theorem castParent_iff {above : List (Node × Nat)} {e : ExprFacts} {k : InitCast} :
    castParent (above.map (·.1.info)) e = some k ↔ Converted above e k := by
  unfold castParent Converted
  rw [nearest_castOf]
  cases hn : nearest above with
  | none => simp
  | some n =>
    simp only [Option.bind_some, Option.mem_def, Option.some.injEq, exists_eq_left', forall_eq']
    cases hc : castOf n.info with
    | none =>
      have hno : ∀ imp k', ¬ IsCast n imp k' := by
        intro imp k' h
        rw [castOf_iff.mpr h] at hc
        cases hc
      simp [hno]
    | some x =>
      obtain ⟨imp, k'⟩ := x
      have h1 := castOf_iff.mp hc
      simp only [Option.some.injEq]
      constructor
      · rintro rfl
        exact .inl ⟨imp, h1⟩
      · rintro (⟨imp', h⟩ | ⟨h, _⟩)
        · rw [castOf_iff.mpr h] at hc
          cases hc
          rfl
        · exact absurd h1 (h imp k')

theorem implicitParent_iff {above : List (Node × Nat)} {e : ExprFacts} {k : InitCast} :
    implicitParent (above.map (·.1.info)) e = some k ↔ ImplicitlyConverted above e k := by
  unfold implicitParent ImplicitlyConverted
  rw [nearest_castOf]
  cases hn : nearest above with
  | none => simp
  | some n =>
    simp only [Option.bind_some, Option.mem_def, Option.some.injEq, exists_eq_left', forall_eq']
    rcases hc : castOf n.info with _ | ⟨imp, k'⟩
    · have hno : ∀ k', ¬ IsCast n true k' := by
        intro k' h
        rw [castOf_iff.mpr h] at hc
        cases hc
      simp [hno]
    · cases imp
      · have hno : ∀ k', ¬ IsCast n true k' := by
          intro k' h
          rw [castOf_iff.mpr h] at hc
          cases hc
        simp [hno]
      · have h1 := castOf_iff.mp hc
        simp only [Option.some.injEq]
        constructor
        · rintro rfl
          exact .inl h1
        · rintro (h | ⟨h, _⟩)
          · rw [castOf_iff.mpr h] at hc
            cases hc
            rfl
          · exact absurd h1 (h k')

theorem canMutateLValue_iff {above : List (Node × Nat)} {e : ExprFacts} :
    canMutateLValue (above.map (·.1.info)) e = true ↔ ReplaceableLValue above e := by
  unfold canMutateLValue ReplaceableLValue
  cases hp : implicitParent (above.map (·.1.info)) e with
  | none =>
    simp only [Bool.and_false, Bool.false_eq_true, false_iff]
    rintro ⟨_, _, _, k, h, _⟩
    rw [implicitParent_iff.mpr h] at hp
    cases hp
  | some k =>
    have hk := implicitParent_iff.mp hp
    simp only [Bool.and_eq_true, Bool.not_eq_true', Bool.or_eq_false_iff]
    constructor
    · rintro ⟨⟨⟨h1, h2⟩, h3⟩, h4⟩
      exact ⟨h1, by simpa using h2, h3, k, hk, h4⟩
    · rintro ⟨h1, h2, h3, k', hk', h4⟩
      rw [implicitParent_iff.mpr hk'] at hp
      cases hp
      exact ⟨⟨⟨h1, by simpa using h2⟩, h3⟩, h4⟩

theorem parentCls_nearest (above : List (Node × Nat)) :
    parentCls (above.map (·.1.info)) = nearestCls above := by
  rw [parentCls_map]
  cases above <;> rfl

theorem enumToConstructor_iff {above : List (Node × Nat)} {e : ExprFacts} {ks : List Node} :
    enumToConstructor (above.map (·.1.info)) e ks = true ↔ EnumForConstructor above e ks := by
  unfold enumToConstructor EnumForConstructor
  rw [parentCls_nearest]
  by_cases hc : ∃ dt, e.cls = .cast true dt
  · obtain ⟨dt, hc⟩ := hc
    simp only [hc, Bool.and_eq_true, beq_iff_eq]
    refine ⟨fun ⟨h1, h2⟩ => ⟨⟨dt, rfl⟩, h1, ?_⟩, fun ⟨_, h1, s', e', h2, h3⟩ => ⟨h1, ?_⟩⟩
    · split at h2
      · rename_i s' sub h
        exact ⟨s', sub, childExpr_iff.mp h, by simpa using h2⟩
      · cases h2
    · rw [childExpr_iff.mpr h2]
      simpa using h3
  · constructor
    · intro h
      split at h
      · rename_i dt h'
        exact absurd ⟨dt, h'⟩ hc
      · cases h
    · exact fun h => absurd h.1 hc

theorem bitFieldTemporary_iff {above : List (Node × Nat)} {e : ExprFacts} {ks : List Node} :
    bitFieldTemporary (above.map (·.1.info)) e ks = true ↔ BitFieldTemporary above e ks := by
  unfold bitFieldTemporary BitFieldTemporary
  rw [parentCls_nearest]
  by_cases hc : ∃ imp dt, e.cls = .cast imp dt
  · obtain ⟨imp, dt, hc⟩ := hc
    simp only [hc, Bool.and_eq_true, beq_iff_eq]
    refine ⟨fun ⟨h2, h1⟩ => ⟨⟨imp, dt, rfl⟩, h1, ?_⟩, fun ⟨_, h1, s', e', h2, h3⟩ => ⟨?_, h1⟩⟩
    · split at h2
      · rename_i s' sub h
        exact ⟨s', sub, childExpr_iff.mp h, h2⟩
      · cases h2
    · rw [childExpr_iff.mpr h2]
      exact h3
  · constructor
    · intro h
      split at h
      · rename_i imp dt h'
        exact absurd ⟨imp, dt, h'⟩ hc
      · cases h
    · exact fun h => absurd h.1 hc

theorem parentIsBlock_iff {above : List (Node × Nat)} :
    parentIsBlock (above.map (·.1.info)) = true ↔ ParentIsBlock above := by
  unfold parentIsBlock ParentIsBlock
  cases above with
  | nil => simp [nearest]
  | cons x above =>
    obtain ⟨x, i⟩ := x
    match x with
    | .decl _ _ => simp [nearest, Node.info, NodeInfo.kind?]
    | .other _ _ => simp [nearest, Node.info, NodeInfo.kind?]
    | .stmt s ks =>
      simp only [nearest, Node.info, NodeInfo.kind?, List.map_cons, List.head?_cons, Option.bind_some,
        Option.map_some, Option.some.injEq, Node.stmt.injEq]
      constructor
      · intro h
        refine ⟨s, ks, ⟨rfl, rfl⟩, ?_⟩
        split at h
        · rename_i h'; simp at h'; exact .inl h'
        · rename_i h'; simp at h'; exact .inr (.inl h')
        · rename_i h'; simp at h'; exact .inr (.inr h')
        · cases h
      · rintro ⟨s', ks', ⟨rfl, rfl⟩, h | h | h⟩ <;> simp [h]

theorem isAdlCall_iff {c : Option ExprCls} : isAdlCall c = true ↔ IsAdlCall c := by
  unfold isAdlCall IsAdlCall
  constructor
  · intro h
    split at h
    · subst h
      exact ⟨_, _, rfl⟩
    · cases h
  · rintro ⟨f, m, rfl⟩
    rfl

theorem isMemberCall_iff {c : ExprCls} : isMemberCall c = true ↔ IsMemberCall c := by
  unfold isMemberCall IsMemberCall
  constructor
  · intro h
    split at h
    · subst h
      exact ⟨_, _, rfl⟩
    · cases h
  · rintro ⟨f, m, rfl⟩
    rfl

theorem mayAffectAdl_iff {above : List (Node × Nat)} {e : ExprFacts} {ks : List Node} :
    mayAffectAdl (above.map (·.1.info)) e ks = true ↔ AffectsLookup above e ks := by
  unfold mayAffectAdl AffectsLookup
  rw [Bool.or_eq_true]
  refine or_congr ?_ ?_
  · rw [parentCls_nearest]
    by_cases hc : ∃ dt, e.cls = .cast true dt
    · obtain ⟨dt, hc⟩ := hc
      simp only [hc, Bool.and_eq_true, isAdlCall_iff]
      refine ⟨fun ⟨h2, h1⟩ => ⟨⟨dt, rfl⟩, h1, ?_⟩, fun ⟨_, h1, s', e', h2, h3⟩ => ⟨?_, h1⟩⟩
      · split at h2
        · rename_i s' sub h
          refine ⟨s', sub, childExpr_iff.mp h, ?_⟩
          simp only [Bool.or_eq_true, isMemberCall_iff] at h2
          exact h2.imp_left (by simp)
        · cases h2
      · rw [childExpr_iff.mpr h2]
        simp only [Bool.or_eq_true, isMemberCall_iff]
        exact h3.imp_left (by simp)
    · constructor
      · intro h
        split at h
        · rename_i dt h'
          exact absurd ⟨dt, h'⟩ hc
        · cases h
      · exact fun h => absurd h.1 hc
  · rw [Bool.and_eq_true, isMemberCall_iff, nearest_castOf, ← List.map_tail, parentCls_nearest,
      parentCls_nearest]
    refine and_congr_right fun _ => ?_
    cases hn : nearest above with
    | none =>
      simp [isAdlCall_iff]
    | some n =>
      simp only [Option.bind_some, Option.mem_def, Option.some.injEq, exists_eq_left', forall_eq']
      rcases hc : castOf n.info with _ | ⟨imp, k'⟩
      · have hno : ∀ k', ¬ IsCast n true k' := by
          intro k' h
          rw [castOf_iff.mpr h] at hc
          cases hc
        simp [hno, isAdlCall_iff]
      · cases imp
        · have hno : ∀ k', ¬ IsCast n true k' := by
            intro k' h
            rw [castOf_iff.mpr h] at hc
            cases hc
          simp [hno, isAdlCall_iff]
        · have h1 := castOf_iff.mp hc
          simp only [isAdlCall_iff]
          constructor
          · intro h
            exact .inl ⟨⟨k', h1⟩, h⟩
          · rintro (⟨_, h⟩ | ⟨h, _⟩)
            · exact h
            · exact absurd h1 (h k')

mutual
theorem mayDependOnTemp_sound : (n : Node) → mayDependOnTemp n = true → RefersToTemporary n
  | .decl _ _, h => by simp [mayDependOnTemp] at h
  | .other _ _, h => by simp [mayDependOnTemp] at h
  | .stmt s ks, h => by
    have hb := anyTemp_sound .base ks
    have ha := anyTemp_sound .callArg ks
    rw [mayDependOnTemp] at h
    split at h
    · rename_i e hk
      split at h
      · rename_i hc
        exact .temporary hk hc
      · rename_i hc
        rw [Bool.and_eq_true, Bool.or_eq_true] at h
        obtain ⟨s', ks', h1, h2, h3⟩ := hb h.2
        exact .member hk hc h.1 h1 h2 h3
      · rename_i hc
        rw [Bool.and_eq_true, Bool.or_eq_true] at h
        obtain ⟨s', ks', h1, h2, h3⟩ := ha h.2
        exact .call hk hc h.1 h1 h2 h3
      · cases h
    · cases h
theorem anyTemp_sound (r : Role) : (ks : List Node) → anyTemp r ks = true →
    ∃ s' ks', Node.stmt s' ks' ∈ ks ∧ s'.role = r ∧ RefersToTemporary (.stmt s' ks')
  | [], h => by simp [anyTemp] at h
  | .stmt s ks' :: ks, h => by
    have h1 := mayDependOnTemp_sound (.stmt s ks')
    have h2 := anyTemp_sound r ks
    rw [anyTemp, Bool.or_eq_true, Bool.and_eq_true, decide_eq_true_eq] at h
    rcases h with ⟨h, h'⟩ | h
    · exact ⟨s, ks', List.mem_cons_self, h, h1 h'⟩
    · obtain ⟨s', ks'', h3, h4⟩ := h2 h
      exact ⟨s', ks'', List.mem_cons_of_mem _ h3, h4⟩
  | .decl _ _ :: ks, h => by
    have h2 := anyTemp_sound r ks
    rw [anyTemp] at h
    · obtain ⟨s', ks'', h3, h4⟩ := h2 h
      exact ⟨s', ks'', List.mem_cons_of_mem _ h3, h4⟩
    · intro _ _ hh; cases hh
  | .other _ _ :: ks, h => by
    have h2 := anyTemp_sound r ks
    rw [anyTemp] at h
    · obtain ⟨s', ks'', h3, h4⟩ := h2 h
      exact ⟨s', ks'', List.mem_cons_of_mem _ h3, h4⟩
    · intro _ _ hh; cases hh
end

theorem anyTemp_mem {r : Role} {s' : AStmt} {ks' : List Node} (hr : s'.role = r)
    (ht : mayDependOnTemp (.stmt s' ks') = true) : ∀ {ks : List Node}, Node.stmt s' ks' ∈ ks →
    anyTemp r ks = true
  | [], h => by simp at h
  | k :: ks, h => by
    rcases List.mem_cons.mp h with rfl | h
    · rw [anyTemp]; simp [hr, ht]
    · have ih := anyTemp_mem hr ht h
      match k with
      | .stmt _ _ => rw [anyTemp, ih, Bool.or_true]
      | .decl _ _ => rw [anyTemp]; exact ih; intro _ _ hh; cases hh
      | .other _ _ => rw [anyTemp]; exact ih; intro _ _ hh; cases hh

theorem mayDependOnTemp_iff {n : Node} : mayDependOnTemp n = true ↔ RefersToTemporary n := by
  refine ⟨mayDependOnTemp_sound n, fun h => ?_⟩
  induction h with
  | temporary hk hc => simp [mayDependOnTemp, hk, hc]
  | member hk hc hv hm hr _ ih =>
    simp only [mayDependOnTemp, hk, hc, Bool.and_eq_true, Bool.or_eq_true]
    exact ⟨hv, anyTemp_mem hr ih hm⟩
  | call hk hc hv hm hr _ ih =>
    simp only [mayDependOnTemp, hk, hc, Bool.and_eq_true, Bool.or_eq_true]
    exact ⟨hv, anyTemp_mem hr ih hm⟩

theorem isLogicalArg_iff {above : List (Node × Nat)} {s : AStmt} :
    isLogicalArg (above.map (·.1.info)) s = true ↔ LogicalArg above s := by
  unfold isLogicalArg LogicalArg
  rw [parentCls_nearest]
  constructor
  · intro h
    split at h
    · rename_i op hc
      rw [hc]
      simp only [Bool.and_eq_true, Bool.or_eq_true, beq_iff_eq] at h
      refine ⟨?_, h.2⟩
      have h1 := h.1
      cases op <;> simp [BOp.isLogical] at h1 ⊢
    · cases h
  · rintro ⟨h1, h2⟩
    rcases h1 with h1 | h1 <;> simp [h1, BOp.isLogical, h2]

theorem isItem_iff {above : List (Node × Nat)} :
    isItem (above.map (·.1.info)) = true ↔ ItemOfBlock above := by
  refine ⟨itemOfBlock above, ?_⟩
  rintro ⟨labels, s, ks, i, post, rfl, hk, hl⟩
  induction labels with
  | nil => simp [isItem, Node.info, NodeInfo.kind?, hk]
  | cons x labels ih =>
    have ih := ih fun y hy => hl y (List.mem_cons_of_mem _ hy)
    obtain ⟨s', ks', hx, h⟩ := hl x List.mem_cons_self
    rw [List.cons_append, List.map_cons, hx]
    have hk' : (Node.stmt s' ks').info.kind? = some s'.kind := rfl
    rw [isItem, hk']
    rcases h with h | h <;> rw [h] <;> exact ih

theorem skip_false {l : Lang} {above : List (Node × Nat)} {s : AStmt} {ks : List Node} {i : Nat}
    (hc : ¬ CompileTime l (.stmt s ks, i))
    (hp : ∀ x r, above = x :: r → ¬ CompileTimeChild x.1 (.stmt s ks)) :
    skipStmt (above.map (·.1.info)) s = false := by
  unfold skipStmt
  simp only [Bool.or_eq_false_iff, and_assoc]
  refine ⟨?_, ?_⟩
  · rw [Bool.eq_false_iff]
    intro h
    split at h
    · rename_i e hk
      refine hc (.inl ⟨e, hk, ?_⟩)
      split at h
      · exact .inr (.inr (.inl ‹_›))
      · exact .inl ‹_›
      · exact .inr (.inl ‹_›)
      · exact .inr (.inr (.inr (.inl ⟨_, _, _, ‹_›⟩)))
      · subst h
        exact .inr (.inr (.inr (.inr ⟨_, ‹_›⟩)))
      · cases h
    · cases h
  · cases above with
    | nil => simp [parentCls]
    | cons x r =>
      have hp := hp x r rfl
      rw [parentCls_map]
      simp only [List.head?_cons, Option.bind_some, List.map_cons]
      refine ⟨?_, ?_, ?_⟩
      · rw [Bool.eq_false_iff]
        intro h
        exact hp ⟨s, ks, rfl, .inl (by simpa using h)⟩
      · rw [Bool.eq_false_iff]
        intro h
        rw [Bool.and_eq_true, beq_iff_eq, beq_iff_eq] at h
        refine hp ⟨s, ks, rfl, .inr (.inr ⟨h.2, ?_⟩)⟩
        obtain ⟨x, j⟩ := x
        match x with
        | .stmt s' ks' => exact ⟨s', ks', rfl, by simpa [Node.info, NodeInfo.kind?] using h.1⟩
        | .decl _ _ => simp [Node.info, NodeInfo.kind?] at h
        | .other _ _ => simp [Node.info, NodeInfo.kind?] at h
      · rw [Bool.eq_false_iff]
        intro h
        rw [Bool.and_eq_true, beq_iff_eq, beq_iff_eq] at h
        exact hp ⟨s, ks, rfl, .inr (.inl h)⟩

/-- The enclosing declarations of a place. -/
def enclOf : List (Node × Nat) → List Decl
  | [] => []
  | (.decl d _, _) :: r =>
    (match d.kind with
     | .tu => []
     | .var _ => [d, d]
     | _ => [d]) ++ enclOf r
  | _ :: r => enclOf r

theorem inFunction_encl {above : List (Node × Nat)} (h : InFunction above) :
    isInFunction (enclOf above) = true := by
  obtain ⟨pre, d, ks, i, post, rfl, ⟨ce, ph, hd⟩, hpre⟩ := h
  induction pre with
  | nil => simp [enclOf, hd, isInFunction]
  | cons x pre ih =>
    have ih := ih fun y hy => hpre y (List.mem_cons_of_mem _ hy)
    have hx := hpre x List.mem_cons_self
    obtain ⟨x, j⟩ := x
    match x with
    | .stmt _ _ => exact ih
    | .other _ _ => exact ih
    | .decl d' ks' =>
      rcases hx d' ks' rfl with (⟨v, h⟩ | ⟨loc, h⟩ | h) | h
      · simp [enclOf, h, isInFunction, ih]
      · simp [enclOf, h, isInFunction, ih]
      · simp [enclOf, h, isInFunction, ih]
      · have : d'.kind = .tu := by
          unfold Decl.isTU at h
          split at h
          · assumption
          · cases h
        simp [enclOf, this, ih]

theorem declCtx_some {l : Lang} {c : Ctx} {d : Decl} {ks : List Node} {i : Nat}
    (h : ¬ CompileTime l (.decl d ks, i)) :
    ∃ c', declCtx l c d = some c' ∧ c'.encl = (match d.kind with
     | .tu => []
     | .var _ => [d, d]
     | _ => [d]) ++ c.encl := by
  unfold declCtx
  split
  · exact ⟨_, rfl, by simp [*]⟩
  · exact absurd (.inr (.inr (.inl ⟨_, ‹_›⟩))) h
  · rename_i ce ph hd
    cases ce
    · exact ⟨_, rfl, by simp [Ctx.push, hd]⟩
    · exact absurd (.inl ⟨_, hd⟩) h
  · exact ⟨_, rfl, by simp [Ctx.push, *]⟩
  · rename_i v hd
    have h1 : (v.constexpr || v.constInit) = false := by
      rw [Bool.eq_false_iff]
      intro h'
      rw [Bool.or_eq_true] at h'
      refine h (.inr (.inl ⟨v, hd, ?_⟩))
      rcases h' with h' | h'
      · exact .inl h'
      · exact .inr (.inl h')
    have h2 : (!l.cpp && v.staticLocal) = false := by
      rw [Bool.eq_false_iff]
      intro h'
      rw [Bool.and_eq_true] at h'
      exact h (.inr (.inl ⟨v, hd, .inr (.inr ⟨by simpa using h'.1, h'.2⟩)⟩))
    rw [h1, h2]
    exact ⟨_, rfl, by simp [Ctx.push, hd]⟩
  · exact ⟨_, rfl, by simp [Ctx.push, *]⟩
  · exact absurd (.inr (.inr (.inr (.inl ‹_›)))) h
  · exact ⟨_, rfl, by simp [Ctx.push, *]⟩

theorem pointless_false {opt : Bool} {s : AStmt} {ks : List Node}
    (h : opt = true → ¬ Pointless (.stmt s ks)) : pointless opt s = false := by
  unfold pointless
  split
  · rename_i e hk
    cases opt
    · rfl
    · rw [Bool.eq_false_iff]
      intro h'
      exact h rfl ⟨s, ks, e, rfl, hk, by simpa using h'⟩
  · rfl

/-- The visitor gets to every node that is to be considered. -/
theorem Place.path {l : Lang} {opt : Bool} {root : Node} (hw : WellFormed root) {p above n}
    (h : Place root p above n) (ho : ∀ x ∈ above, ¬ CompileTime l x)
    (hp : NoPair CompileTimeChild n above) (hu : opt = true → NoPointless n above) :
    ∃ c, Path l opt root c n ∧ c.pos = p ∧ c.above = above.map (·.1.info) ∧ c.encl = enclOf above ∧
      (ItemOfBlock above → ∃ s ks, n = .stmt s ks) := by
  induction h with
  | root =>
    refine ⟨_, .root, rfl, rfl, rfl, ?_⟩
    rintro ⟨labels, s, ks, i, post, h, _⟩
    simp at h
  | @kid p above n i k hpl hk ih =>
    obtain ⟨c, h1, h2, h3, h4, h5⟩ := ih (fun x hx => ho x (List.mem_cons_of_mem _ hx)) hp.2
      fun h => (hu h).2
    have hself := ho (n, i) List.mem_cons_self
    match n, hpl, hk, h1, h5, hself with
    | .decl d ks, hpl, hk, h1, h5, hself =>
      obtain ⟨c', h6, h7⟩ := declCtx_some (c := c) hself
      have hi : isItem c.above = false := by
        rw [Bool.eq_false_iff, h3]
        intro h
        obtain ⟨_, _, he⟩ := h5 (isItem_iff.mp h)
        cases he
      have hr : d.isTU = true ∨ d.range.isSome = true := by
        cases ht : d.isTU
        · cases hrr : d.range
          · exact absurd (.inr (.inr (.inr (.inr ⟨ht, hrr⟩)))) hself
          · exact .inr rfl
        · exact .inl rfl
      refine ⟨_, .decl h1 hi hr h6 hk, ?_, ?_, ?_, ?_⟩
      · rw [enter_pos, (declCtx_pos h6).1, h2]
      · rw [enter_above, (declCtx_pos h6).2, h3]; rfl
      · show c'.encl = _
        rw [h7, h4]; rfl
      · intro h
        rw [← isItem_iff] at h
        simp [isItem, Node.info, NodeInfo.kind?] at h
    | .other o ks, hpl, hk, h1, h5, hself =>
      have hi : isItem c.above = false := by
        rw [Bool.eq_false_iff, h3]
        intro h
        obtain ⟨_, _, he⟩ := h5 (isItem_iff.mp h)
        cases he
      have hskip : skipOther l o = false := by
        rw [Bool.eq_false_iff]
        intro h
        refine hself ?_
        cases o
        case constArrayType => exact .inl rfl
        case depArrayType => exact .inr (.inl rfl)
        case templateArg => exact .inr (.inr (.inl rfl))
        case lambdaCapture => exact .inr (.inr (.inr (.inl rfl)))
        case varArrayType => exact .inr (.inr (.inr (.inr ⟨h, rfl⟩)))
        case other => cases h
      refine ⟨_, .other h1 hi hskip hk, ?_, ?_, ?_, ?_⟩
      · rw [enter_pos, h2]
      · rw [enter_above, h3]; rfl
      · show c.encl = _
        rw [h4]; rfl
      · intro h
        rw [← isItem_iff] at h
        simp [isItem, Node.info, NodeInfo.kind?] at h
    | .stmt s ks, hpl, hk, h1, h5, hself =>
      obtain ⟨w1, w2, w3⟩ := hw _ _ _ _ hpl
      have hcase : s.kind = .case_ → i + 1 = ks.length := by
        intro h
        by_cases hi : i + 1 = ks.length
        · exact hi
        · exact absurd (.inr ⟨h, hi⟩) hself
      have hskip : skipStmt c.above s = false := by
        rw [h3]
        refine skip_false hself ?_
        intro x r he
        have := hp.2
        rw [he] at this
        exact this.1
      have hpath : Path l opt root (c.enter (.stmt s) i) k := by
        by_cases hi : isItem c.above = true
        · by_cases hkind : s.kind = .case_ ∨ s.kind = .default_
          · refine .label h1 hkind hi hk ?_
            rcases hkind with h | h
            · exact hcase h
            · obtain ⟨s', ks', he⟩ := w3 h
              have hk' : ks[i]? = some k := hk
              rw [he] at hk' ⊢
              cases i with
              | zero => rfl
              | succ i => simp at hk'
          · refine .stmt h1 hskip hcase (fun _ => ⟨fun h => hkind (.inl h), fun h => hkind (.inr h), ?_⟩) hk
            refine pointless_false (ks := ks) fun ho hpt => ?_
            have hn := (hu ho).2
            rw [h3] at hi
            have hi := isItem_iff.mp hi
            cases above with
            | nil => obtain ⟨labels, _, _, _, _, h, _⟩ := hi; simp at h
            | cons x r => exact hn.1 ⟨hi, hpt⟩
        · exact .stmt h1 hskip hcase (fun h => absurd h hi) hk
      refine ⟨_, hpath, ?_, ?_, ?_, ?_⟩
      · rw [enter_pos, h2]
      · rw [enter_above, h3]; rfl
      · show c.encl = _
        rw [h4]; rfl
      · intro h
        rw [← isItem_iff] at h
        simp only [List.map_cons, isItem, Node.info, NodeInfo.kind?] at h
        have hmem : k ∈ ks := List.mem_of_getElem? hk
        split at h
        · rename_i hh; simp at hh; exact w1 hh k hmem
        · rename_i hh; simp at hh; exact w2 hh k hmem
        · rename_i hh; simp at hh
          obtain ⟨s', ks', he⟩ := w3 hh
          rw [he] at hmem
          exact ⟨s', ks', by simpa using hmem⟩
        · cases h

theorem Place.fromRoot {root k : Node} {i : Nat} (hk : root.kids[i]? = some k) {p a m}
    (h : Place k p a m) : Place root (i :: p) (a ++ [(root, i)]) m := by
  induction h with
  | root => exact .kid (p := []) .root hk
  | kid _ h' ih => exact .kid ih h'

mutual
theorem locsOf_place : (n : Node) → ∀ x ∈ locsOf n, DeclaredAt n x
  | .decl d ks, x, h => by
    have ih := locsOfL_place ks
    rw [locsOf] at h
    rcases List.mem_append.mp h with h | h
    · refine ⟨[], [], d, ks, .root, ?_⟩
      unfold ownLocs at h
      split at h
      · rename_i v hd
        simp at h
        exact .inl ⟨v, hd, h.symm⟩
      · rename_i loc hd
        simp at h
        subst h
        exact .inr hd
      · simp at h
    · obtain ⟨i, k, hk, p, above, d', ks', hp, hd⟩ := ih x h
      exact ⟨_, _, d', ks', Place.fromRoot (root := .decl d ks) hk hp, hd⟩
  | .stmt s ks, x, h => by
    have ih := locsOfL_place ks
    rw [locsOf] at h
    obtain ⟨i, k, hk, p, above, d', ks', hp, hd⟩ := ih x h
    exact ⟨_, _, d', ks', Place.fromRoot (root := .stmt s ks) hk hp, hd⟩
  | .other o ks, x, h => by
    have ih := locsOfL_place ks
    rw [locsOf] at h
    obtain ⟨i, k, hk, p, above, d', ks', hp, hd⟩ := ih x h
    exact ⟨_, _, d', ks', Place.fromRoot (root := .other o ks) hk hp, hd⟩
theorem locsOfL_place : (ks : List Node) → ∀ x ∈ locsOfL ks, ∃ (i : Nat) (k : Node), ks[i]? = some k ∧ DeclaredAt k x
  | [], x, h => by simp [locsOfL] at h
  | k :: ks, x, h => by
    have h1 := locsOf_place k
    have h2 := locsOfL_place ks
    rw [locsOfL] at h
    rcases List.mem_append.mp h with h | h
    · exact ⟨0, k, rfl, h1 x h⟩
    · obtain ⟨i, k', hi, hd⟩ := h2 x h
      exact ⟨i + 1, k', hi, hd⟩
end

end Dredd
