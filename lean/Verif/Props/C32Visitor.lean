/-
C32, the part about the visitor: the ranges that mutations edit are ranges in the
main file.
-/
import Verif.Props.C40
import Verif.Props.C39

namespace Dredd

/-- The statement's range in the main file, if it has one there, is `sp`. -/
def MainRange (n : Node) (sp : Span) : Prop := ∃ s ks, n = .stmt s ks ∧ s.range = some sp

/-- All ranges that a mutation of the node `n` works with are ranges of nodes in
the main file: that of `n`, and for binary operators those of two children of
`n`. -/
def RangesInMain (n : Node) (m : Mutation) : Prop :=
  MainRange n m.span ∧
  match m with
  | .bin b => (∃ k ∈ n.kids, MainRange k b.lhsSpan) ∧ (∃ k ∈ n.kids, MainRange k b.rhsSpan)
  | .un _ => ∃ k ∈ n.kids, ∃ sp, MainRange k sp
  | _ => True

theorem expr?_eq {n : Node} {s : AStmt} {e : ExprFacts} (h : n.expr? = some (s, e)) :
    ∃ ks, n = .stmt s ks := by
  cases n with
  | stmt s' ks' =>
    simp only [Node.expr?] at h
    split at h
    · simp at h
      exact ⟨ks', by rw [h.1]⟩
    · simp at h
  | decl d ks => simp [Node.expr?] at h
  | other o ks => simp [Node.expr?] at h

theorem childExpr_mem {r : Role} {ks : List Node} {s : AStmt} {e : ExprFacts}
    (h : childExpr r ks = some (s, e)) : ∃ ks', Node.stmt s ks' ∈ ks := by
  induction ks with
  | nil => simp [childExpr] at h
  | cons k ks ih =>
    rw [childExpr] at h
    split at h
    · rename_i s' e' hk
      split at h
      · cases h
        obtain ⟨ks', hk⟩ := expr?_eq hk
        exact ⟨ks', by simp [hk]⟩
      · obtain ⟨ks', h⟩ := ih h
        exact ⟨ks', by simp [h]⟩
    · obtain ⟨ks', h⟩ := ih h
      exact ⟨ks', by simp [h]⟩

/-- Mutations are made only for nodes in the main file, and for operators only if
their operands are there too. -/
theorem C32_mutations (l : Lang) (opt : Bool) (root : Node) (p : List Nat) (m : Mutation)
    (h : MutationAt l opt root p m) :
    ∃ above n, Place root p above n ∧ RangesInMain n m := by
  obtain ⟨c, above, s, ks, hf, hp, _, ho⟩ := ((visitTU_good l opt root).1 _ h).fine
  simp only at hp
  subst hp
  refine ⟨above, _, hf.place, ?_⟩
  rcases ho with ⟨hs, e, locs, hk, hm⟩ | ⟨hi, hm⟩
  · obtain ⟨sp, t, _, _, _, _, hr, _, hty, _, _, hv⟩ := mem_visitExpr hm
    simp only [hv] at hm
    rcases List.mem_append.mp hm with hm | hm
    · rcases mem_handleOp hm with ⟨op, hc, hm⟩ | ⟨op, hc, hm⟩
      · obtain ⟨s', e', sp', t', ho, hsp, ht', hplus, _, _, h2⟩ := mem_handleUnary hm
        obtain ⟨ks', hk'⟩ := childExpr_mem ho
        rw [h2]
        exact ⟨⟨s, ks, rfl, hr⟩, _, hk', sp', s', ks', rfl, hsp⟩
      · obtain ⟨sl, el, sr, er, pl, pr, tl, tr, hl, hr', hpl, hpr, htl, htr, hcomma, _, _, h2⟩ :=
          mem_handleBinary hm
        obtain ⟨kl, hkl⟩ := childExpr_mem hl
        obtain ⟨kr, hkr⟩ := childExpr_mem hr'
        rw [h2]
        exact ⟨⟨s, ks, rfl, hr⟩, ⟨_, hkl, sl, kl, rfl, hpl⟩, ⟨_, hkr, sr, kr, rfl, hpr⟩⟩
    · obtain ⟨_, _, _, _, _, _, _, _, h2⟩ := mem_handleExpr hm
      rw [h2]
      exact ⟨⟨s, ks, rfl, hr⟩, trivial⟩
  · obtain ⟨sp, hr, h2⟩ := removal_span hm
    simp only at h2
    rw [h2]
    exact ⟨⟨s, ks, rfl, hr⟩, trivial⟩

/-- The same for constants: only those with a range in the main file are
rewritten, and it is this range that is replaced. -/
theorem C32_constants (opt : Bool) (f : ParsedFile) (r : ConstRewrite)
    (hr : r ∈ (analyse opt f).consts) :
    ∃ a, a.range = some r.span ∧
      (Somewhere f.ast (Asserts a) ∨ Somewhere f.ast (UsesConstant a)) := by
  obtain ⟨_, _, ⟨a, h1, h2, _⟩ | ⟨a, _, h1, h2, _⟩⟩ :=
    C39_partial ⟨opt, false, false, false⟩ 0 f r hr
  · exact ⟨a, h2, .inl h1⟩
  · exact ⟨a, h2, .inr h1⟩

end Dredd
