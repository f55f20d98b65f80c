/-
C86: the value of a statement expression.
-/
import Verif.Spec.UsedValue
import Verif.Props.C55

namespace Dredd

/-- C86, the part that holds: with optimisation an expression whose value is that of a statement expression is
only removed if it has side effects.  Missing: it should never be removed, as then there is no value; and if it
has no side effects it should be mutated all the same, as it is used.  See `C86_false_removed` and
`C86_false_unmutated`. -/
theorem C86_partial (l : Lang) (root : Node) (p : List Nat) (m : Mutation) (above : List (Node × Nat)) (s : AStmt)
    (ks : List Node) (e : ExprFacts) (hm : MutationAt l true root p m) (hr : m.isRemoval = true)
    (hp : Place root p above (.stmt s ks)) (hk : s.kind = .expr e) (hv : ValueUsed above) :
    e.sideEffects = true := by
  obtain ⟨above', s', ks', hp', hc⟩ := C56 l true root p m hm
  obtain ⟨rfl, hn⟩ := hp.unique hp' rfl
  cases hn
  obtain ⟨b, kb, i, outer, kso, j, post, e', rfl, hb, -⟩ := hv
  have hu : Considered l true (.stmt s ks) ((.stmt b kb, i) :: (.stmt outer kso, j) :: post) := by
    rcases hc with ⟨_, _, _, hok, -⟩ | ⟨_, hcn, -⟩
    · exact hok.considered
    · exact hcn
  have := (hu.useful rfl).1
  cases hs : e.sideEffects with
  | true => rfl
  | false =>
    exact absurd ⟨⟨[], b, kb, i, _, rfl, hb, fun x hx => nomatch hx⟩, s, ks, e, rfl, hk, hs⟩ this

namespace SampleAst

/-- The value `y++` in `valueStep`. -/
def stepValue : Node :=
  node (.expr { facts (.unary .postInc) (some .int) false 22 with sideEffects := true }) .plain 22 25
    [node (.expr (facts .other (some .int) true 22)) .operand 22 23 []]

/-- `int g(){return ({f(); y++;});}` -/
def valueStep : Node :=
  tu [func false 0 32 [block 7 32 [node .other .plain 8 29
    [node (.expr { facts .other (some .int) false 15 with sideEffects := true }) .plain 15 29
      [block 16 28 [node (.expr { facts (.call none false false) none false 17 with sideEffects := true }) .plain 17 20 [],
        stepValue]]]]]]

/-- The value `a + b` in `valueSum`. -/
def sumValue : Node :=
  node (.expr { facts (.binary .add) (some .int) false 22 with opOff := some 24, sideEffects := false }) .plain 22 27
    [read .lhs 22 23, read .rhs 26 27]

/-- `int g(){return ({f(); a + b;});}` -/
def valueSum : Node :=
  tu [func false 0 34 [block 7 34 [node .other .plain 8 31
    [node (.expr { facts .other (some .int) false 15 with sideEffects := true }) .plain 15 31
      [block 16 30 [node (.expr { facts (.call none false false) none false 17 with sideEffects := true }) .plain 17 20 [],
        sumValue]]]]]]

end SampleAst

open SampleAst

/-- The hypotheses of `C86_partial` hold for the value `y++` of `({f(); y++;})`. -/
example : ∃ m above s ks e, MutationAt Sample.cpp true valueStep [0, 0, 0, 0, 0, 1] m ∧ m.isRemoval = true ∧
    Place valueStep [0, 0, 0, 0, 0, 1] above (.stmt s ks) ∧ s.kind = .expr e ∧ ValueUsed above := by
  have h : ∃ x ∈ (visitTU Sample.cpp true valueStep).cur.post,
      x.1 = [0, 0, 0, 0, 0, 1] ∧ x.2.isRemoval = true := by decide +kernel
  obtain ⟨⟨p, m⟩, h1, h2, h3⟩ := h
  simp only at h2
  subst h2
  exact ⟨m, _, _, _, _, h1, h3, ancestors_place _ _ _ _ rfl, rfl, _, _, _, _, _, _, _, _, rfl, rfl, rfl, rfl,
    fun _ h => (nomatch h), rfl⟩

/-- C86 fails: the statement that yields the value of a statement expression is removed, with and without
optimisation; what is left, `({ f(); if (…) { y++; } })`, has no value. -/
theorem C86_false_removed (opt : Bool) : ∃ p m above s ks e, MutationAt Sample.cpp opt valueStep p m ∧
    m.isRemoval = true ∧ Place valueStep p above (.stmt s ks) ∧ s.kind = .expr e ∧ ValueUsed above := by
  have h : ∀ opt, ∃ x ∈ (visitTU Sample.cpp opt valueStep).cur.post,
      x.1 = [0, 0, 0, 0, 0, 1] ∧ x.2.isRemoval = true := by decide +kernel
  obtain ⟨⟨p, m⟩, h1, h2, h3⟩ := h opt
  simp only at h2
  subst h2
  exact ⟨_, m, _, _, _, _, h1, h3, ancestors_place _ _ _ _ rfl, rfl, _, _, _, _, _, _, _, _, rfl, rfl, rfl, rfl,
    fun _ h => (nomatch h), rfl⟩

/-- C86 fails: with optimisation the value `a + b` of `({f(); a + b;})` is taken for a statement without effect;
neither it nor anything below it is mutated, although without optimisation its operator is. -/
theorem C86_false_unmutated :
    (∃ above s ks e, Place valueSum [0, 0, 0, 0, 0, 1] above (.stmt s ks) ∧ s.kind = .expr e ∧ ValueUsed above) ∧
    (∃ x, MutationAt Sample.cpp false valueSum [0, 0, 0, 0, 0, 1] (.bin x)) ∧
    ∀ p m, MutationAt Sample.cpp true valueSum p m → ¬ [0, 0, 0, 0, 0, 1] <+: p := by
  refine ⟨⟨_, _, _, _, ancestors_place _ _ _ _ rfl, rfl, _, _, _, _, _, _, _, _, rfl, rfl, rfl, rfl,
    fun _ h => (nomatch h), rfl⟩, ?_, fun p m hm hp => ?_⟩
  · have h : ∃ x ∈ (visitTU Sample.cpp false valueSum).cur.post, x.1 = [0, 0, 0, 0, 0, 1] ∧
        (match x.2 with | .bin _ => true | _ => false) = true := by decide +kernel
    obtain ⟨⟨p, m⟩, h1, h2, h3⟩ := h
    simp only at h2 h3
    subst h2
    cases m with
    | bin x => exact ⟨x, h1⟩
    | _ => cases h3
  · have h : ∀ x ∈ (visitTU Sample.cpp true valueSum).cur.post, [0, 0, 0, 0, 0, 1].isPrefixOf x.1 = false := by
      decide +kernel
    have := h _ hm
    rw [List.isPrefixOf_iff_prefix.mpr hp] at this
    cases this

end Dredd
