/-
C77: null pointers, and what refers to temporary objects, are left alone, in
parentheses or not.
-/
import Verif.Spec.Parens
import Verif.Props.C76

namespace Dredd

theorem MayDangle.refers {n} (h : MayDangle n) : ∀ {p above root}, Place root p above n →
    (∀ q up k, Place root (p ++ q) up k → ¬ IsParen k) → RefersToTemporary n := by
  induction h with
  | temporary hk hc => exact fun _ _ => .temporary hk hc
  | member hk hc hl hm hr _ ih =>
    intro p above root hp hn
    obtain ⟨i, hi⟩ := List.getElem?_of_mem hm
    refine .member hk hc hl hm hr (ih (.kid hp hi) fun q up k h => hn (i :: q) up k ?_)
    simpa using h
  | call hk hc hl hm hr _ ih =>
    intro p above root hp hn
    obtain ⟨i, hi⟩ := List.getElem?_of_mem hm
    refine .call hk hc hl hm hr (ih (.kid hp hi) fun q up k h => hn (i :: q) up k ?_)
    simpa using h
  | paren hk hc =>
    intro p above root hp hn
    exact absurd ⟨_, _, _, rfl, hk, hc⟩ (hn [] _ _ (by simpa using hp))

theorem OutOfParens.same {above above'} (h : OutOfParens above above')
    (hn : ∀ n ∈ nearest above, ¬ IsParen n) : above' = above := by
  cases h with
  | none _ => rfl
  | some hp _ => exact absurd hp (hn _ rfl)

/-- C77: without parentheses around it, an expression that is replaced is not a null
pointer; without parentheses in it, it does not refer to a temporary object.
Missing: parentheses. -/
theorem C77_partial (l : Lang) (opt : Bool) (root : Node) (p : List Nat) (m : Mutation)
    (above : List (Node × Nat)) (s : AStmt) (ks : List Node) (e : ExprFacts) (sp : Span) (t : BTy)
    (h : MutationAt l opt root p m) (hp : Place root p above (.stmt s ks)) (hk : s.kind = .expr e)
    (hm : m.IsExpr above s e sp t) :
    ((∀ n ∈ nearest above, ¬ IsParen n) → ¬ IsNullPointer above e) ∧
    ((∀ q up k, Place root (p ++ q) up k → ¬ IsParen k) → ¬ MayDangle (.stmt s ks)) := by
  obtain ⟨x, rfl, _⟩ := hm
  obtain ⟨above', s', ks', hp', hc⟩ := C56 l opt root p _ h
  obtain ⟨rfl, hn⟩ := hp.unique hp' rfl
  cases hn
  rcases hc with ⟨e', sp', t', h1, h2⟩ | ⟨sp, _, _, x, hx, _⟩
  · have := h1.kind
    rw [hk] at this
    cases this
    rcases h2 with ⟨h2, _⟩ | ⟨_, _, _, _, _, hx, _⟩ | ⟨_, _, _, _, _, _, _, _, _, hx, _⟩
    · refine ⟨fun hno => ?_, fun hno hd => h1.temporary (hd.refers hp hno)⟩
      rintro ⟨hc, up, hup, n, hn, imp, k, hi, hk⟩
      rw [hup.same hno] at hn
      exact h2.null ⟨hc, k, .inl ⟨n, hn, imp, hi⟩, hk⟩
    · cases hx
    · cases hx
  · cases hx

namespace SampleAst

/-- A null pointer constant `0`. -/
def zeroFacts (cls : ExprCls) (loc : Nat) : ExprFacts :=
  { facts cls (some .int) false loc with nullConst := true, intVal := some 0, sideEffects := false }

/-- `int g(){int*p=(0);}` -/
def parenNull : Node :=
  tu [func false 0 40 [block 7 40 [node .declStmt .plain 8 18
    [.decl ⟨.var ⟨12, false, [], [], false, false, false⟩, some ⟨8, 17⟩⟩
      [node (.expr { facts (.cast true false) none false 14 with anyPointer := true, pointer := true }) .plain 14 17
        [node (.expr (zeroFacts .paren 14)) .operand 14 17
          [node (.expr (zeroFacts .other 15)) .plain 15 16 []]]]]]]]

/-- `int g(){return (v()[0]) + 1;}`, where `v` returns a vector. -/
def parenTemp : Node :=
  tu [func false 0 40 [block 7 40 [node .other .plain 8 28
    [bin .add .plain 15 28
      (node (.expr (facts (.cast true false) (some .int) false 15)) .lhs 15 23
        [node (.expr (facts .paren (some .int) true 15)) .operand 15 23
          [node (.expr (facts (.call none false false) (some .int) true 16)) .plain 16 22
            [node (.expr (facts .temporary none false 16)) .callArg 16 19 [],
             node (.expr (facts .other (some .ulong) false 20)) .callArg 20 21 []]]])
      (lit .rhs 27 28)]]]]

end SampleAst

open SampleAst

/-- C77 fails for a null pointer in parentheses: `int*p=(0);` is mutated, so that a
number is converted to a pointer. -/
theorem C77_false_null (opt : Bool) : ∃ p above s ks e m sp t, Place parenNull p above (.stmt s ks) ∧
    s.kind = .expr e ∧ IsNullPointer above e ∧ MutationAt Sample.cpp opt parenNull p m ∧
    m.IsExpr above s e sp t := by
  have hp := ancestors_place [0, 0, 0, 0, 0, 0, 0] parenNull _ _ rfl
  have hr : replacedAt Sample.cpp opt parenNull [0, 0, 0, 0, 0, 0, 0] = true := by
    cases opt <;> decide +kernel
  obtain ⟨sp, t, m, _, _, hm, hx⟩ := exprOk_of_replaced hr hp rfl
  refine ⟨_, _, _, _, _, m, sp, t, hp, rfl, ⟨rfl, _, .some ⟨_, _, _, rfl, rfl, rfl⟩ (.none ?_), _, rfl, true, _,
    ⟨_, _, _, _, rfl, rfl, rfl, rfl⟩, rfl⟩, hm, hx⟩
  rintro n hn ⟨s, ks, e, rfl, hk, hc⟩
  cases hn
  cases hk
  cases hc

/-- C77 fails for references into temporary objects in parentheses: without
optimisation, `(v()[0])` is passed to a function as the result of a function, when
the vector is gone. -/
theorem C77_false_temporary : ∃ p above s ks e m sp t, Place parenTemp p above (.stmt s ks) ∧
    s.kind = .expr e ∧ MayDangle (.stmt s ks) ∧ e.lvalue = true ∧
    MutationAt Sample.cpp false parenTemp p m ∧ m.IsExpr above s e sp t := by
  have hp := ancestors_place [0, 0, 0, 0, 0, 0] parenTemp _ _ rfl
  obtain ⟨sp, t, m, _, _, hm, hx⟩ := exprOk_of_replaced (l := Sample.cpp) (opt := false) (by decide +kernel) hp rfl
  refine ⟨_, _, _, _, _, m, sp, t, hp, rfl, .paren rfl rfl (.inl rfl) (List.mem_singleton.mpr rfl)
    (.call rfl rfl (.inl rfl) (List.mem_cons_self ..) rfl (.temporary rfl rfl)), rfl, hm, hx⟩

/-- The hypotheses of `C77_partial` hold for `a + b` in `two`, which has no parentheses. -/
example : ¬ IsNullPointer twoAbove twoFacts ∧ ¬ MayDangle (.stmt twoStmt [twoLhs, twoRhs]) := by
  obtain ⟨sp, t, m, _, _, hm, hx⟩ := exprOk_of_replaced (l := Sample.cpp) (opt := true) (by decide +kernel) two_place rfl
  have h := C77_partial Sample.cpp true two _ m _ _ _ _ sp t hm two_place rfl hx
  refine ⟨h.1 ?_, h.2 fun q up k hk => ?_⟩
  · rintro n hn ⟨s, ks, e, rfl, hk, hc⟩
    cases hn
    cases hk
  · have := (Everywhere.place (P := fun _ n => ¬ IsParen n) (by
      simp [two, tu, func, block, node, bin, SampleAst.read, facts, Everywhere, EverywhereL, IsParen]) hk).2
    exact this

end Dredd
