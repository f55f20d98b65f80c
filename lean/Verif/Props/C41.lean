/-
C41: operators handed to mutations are supported.
-/
import Verif.Props.C40

namespace Dredd

/-- The operator of a mutation is one for which there are a name, an action and a
protobuf code, and the same holds for every operator that may replace it. -/
def Mutation.Supported (opt : Bool) : Mutation → Prop
  | .un s =>
    s.op.fnName?.isSome = true ∧ s.op.action?.isSome = true ∧ s.op.proto?.isSome = true ∧
    ∀ op ∈ s.replacements opt, op.action?.isSome = true
  | .bin s =>
    s.op.fnName?.isSome = true ∧ s.op.action?.isSome = true ∧ s.op.proto?.isSome = true ∧
    ∀ op ∈ s.replacements opt, op.action?.isSome = true
  | .expr _ => True
  | .stmt _ => True

/-- What the typing rules of C and C++ say about operators that cannot be
mutated: the address of something is not a number, something that is not a number
is dereferenced, the right operand of a pointer-to-member operator is not a
number, neither is the result of `<=>`; `co_await` is not represented as a unary
operator. -/
def OperatorTyping (root : Node) : Prop :=
  ∀ p above s ks e, Place root p above (.stmt s ks) → s.kind = .expr e →
    (e.cls = .unary .addrOf → e.ty = none) ∧
    (e.cls = .unary .deref → ∀ s' e', childExpr .operand ks = some (s', e') → e'.ty = none) ∧
    (e.cls = .binary .ptrMemD → ∀ s' e', childExpr .rhs ks = some (s', e') → e'.ty = none) ∧
    (e.cls = .binary .ptrMemI → ∀ s' e', childExpr .rhs ks = some (s', e') → e'.ty = none) ∧
    (e.cls = .binary .cmp → e.ty = none) ∧
    e.cls ≠ .unary .coawait

/-- The GNU operators `__extension__`, `__real` and `__imag` do not occur. -/
def NoGnuOperators (root : Node) : Prop :=
  ∀ p above s ks e, Place root p above (.stmt s ks) → s.kind = .expr e →
    e.cls ≠ .unary .extension ∧ e.cls ≠ .unary .real ∧ e.cls ≠ .unary .imag

theorem un_replacements_supported (s : UnSite) (opt : Bool) :
    ∀ op ∈ s.replacements opt, op.action?.isSome = true := by
  intro op hop
  have h := (List.mem_filter.mp hop).1
  have : ∀ op ∈ unaryCandidates, op.action?.isSome = true := by decide
  exact this op h

theorem bin_replacements_supported (s : BinSite) (opt : Bool) :
    ∀ op ∈ s.replacements opt, op.action?.isSome = true := by
  intro op hop
  have h := (List.mem_filter.mp hop).1
  unfold BinSite.candidates at h
  split at h
  · simp at h
  · rename_i fam hf
    have hfam := List.mem_of_find?_eq_some hf
    have : ∀ fam ∈ opFamilies, ∀ op ∈ fam, op.action?.isSome = true := by decide
    simp only [List.mem_append] at h
    rcases h with (h | h) | h
    · exact this fam hfam op h
    · split at h
      · have : ∀ op ∈ [BOp.eq, .ne], op.action?.isSome = true := by decide
        exact this op h
      · simp at h
    · split at h
      · have : ∀ op ∈ [BOp.land, .lor], op.action?.isSome = true := by decide
        exact this op h
      · simp at h

theorem uop_supported (op : UOp) (h : op ≠ .addrOf) (h1 : op ≠ .deref) (h2 : op ≠ .plus)
    (h3 : op ≠ .real) (h4 : op ≠ .imag) (h5 : op ≠ .extension) (h6 : op ≠ .coawait) :
    op.fnName?.isSome = true ∧ op.action?.isSome = true ∧ op.proto?.isSome = true := by
  cases op <;> first | contradiction | exact ⟨rfl, rfl, rfl⟩

theorem bop_supported (op : BOp) (h : op ≠ .ptrMemD) (h1 : op ≠ .ptrMemI) (h2 : op ≠ .cmp)
    (h3 : op ≠ .comma) :
    op.fnName?.isSome = true ∧ op.action?.isSome = true ∧ op.proto?.isSome = true := by
  cases op <;> first | contradiction | exact ⟨rfl, rfl, rfl⟩

/-- C41 for programs that are well typed and in which `__extension__`, `__real`
and `__imag` do not occur.  Missing from C41: these three, for which it is false
(`C41_false`). -/
theorem C41_partial (l : Lang) (opt : Bool) (root : Node) (ht : OperatorTyping root)
    (hg : NoGnuOperators root) (p : List Nat) (m : Mutation) (h : MutationAt l opt root p m) :
    m.Supported opt := by
  obtain ⟨c, above, s, ks, hf, hp, _, ho⟩ := ((visitTU_good l opt root).1 _ h).fine
  rcases ho with ⟨hs, e, locs, hk, hm⟩ | ⟨hi, hm⟩
  · obtain ⟨sp, t, _, _, _, _, _, _, hty, _, _, hv⟩ := mem_visitExpr hm
    simp only [hv] at hm
    obtain ⟨t1, t2, t3, t4, t5, t6⟩ := ht _ _ s ks e hf.place hk
    obtain ⟨g1, g2, g3⟩ := hg _ _ s ks e hf.place hk
    rcases List.mem_append.mp hm with hm | hm
    · rcases mem_handleOp hm with ⟨op, hc, hm⟩ | ⟨op, hc, hm⟩
      · obtain ⟨s', e', sp', t', ho, _, ht', hplus, _, _, h2⟩ := mem_handleUnary hm
        rw [h2]
        rw [hc] at t1 t2 t6 g1 g2 g3
        have := uop_supported op
          (by rintro rfl; rw [t1 rfl] at hty; cases hty)
          (by rintro rfl; rw [t2 rfl s' e' ho] at ht'; cases ht')
          hplus (by rintro rfl; exact g2 rfl) (by rintro rfl; exact g3 rfl)
          (by rintro rfl; exact g1 rfl) (by rintro rfl; exact t6 rfl)
        exact ⟨this.1, this.2.1, this.2.2, un_replacements_supported _ opt⟩
      · obtain ⟨sl, el, sr, er, pl, pr, tl, tr, hl, hr, _, _, htl, htr, hcomma, _, _, h2⟩ :=
          mem_handleBinary hm
        rw [h2]
        rw [hc] at t3 t4 t5
        have := bop_supported op
          (by rintro rfl; rw [t3 rfl sr er hr] at htr; cases htr)
          (by rintro rfl; rw [t4 rfl sr er hr] at htr; cases htr)
          (by rintro rfl; rw [t5 rfl] at hty; cases hty) hcomma
        exact ⟨this.1, this.2.1, this.2.2, bin_replacements_supported _ opt⟩
    · obtain ⟨_, _, _, _, _, _, _, _, h2⟩ := mem_handleExpr hm
      rw [h2]; trivial
  · obtain ⟨sp, _, h2⟩ := removal_span hm
    simp only at h2
    rw [h2]; trivial

/-- Every operator that may replace one for which there is a mutation has an
action, without conditions. -/
theorem C41_replacements (opt : Bool) (s : UnSite) (s' : BinSite) :
    (∀ op ∈ s.replacements opt, op.action?.isSome = true) ∧
    (∀ op ∈ s'.replacements opt, op.action?.isSome = true) :=
  ⟨un_replacements_supported s opt, bin_replacements_supported s' opt⟩

namespace SampleAst
/-- `int g(){return OP a;}` for a unary operator. -/
def unaryFn (op : UOp) : Node :=
  tu [func false 0 40 [block 7 40 [node .other .plain 8 38
    [node (.expr (facts (.unary op) (some .int) false 15)) .plain 15 30 [read .operand 29 30]]]]]
end SampleAst

/-- C41 does not hold in full: `__extension__ a`, and with GNU extensions
`__real a` and `__imag a` for an integer `a`, get operator mutations although
there is no name, action or code for these operators. -/
theorem C41_false : ∀ op ∈ [UOp.extension, .real, .imag], ∃ p m,
    MutationAt Sample.cpp true (SampleAst.unaryFn op) p m ∧ ¬ m.Supported true := by
  have h : ∀ op ∈ [UOp.extension, .real, .imag],
      ∃ x ∈ (visitTU Sample.cpp true (SampleAst.unaryFn op)).cur.post,
        (match x.2 with
         | .un s => decide (s.op = op)
         | _ => false) = true := by decide +kernel
  intro op hop
  obtain ⟨⟨p, m⟩, h1, h2⟩ := h op hop
  refine ⟨p, m, h1, ?_⟩
  cases m with
  | un s =>
    simp only [decide_eq_true_eq] at h2
    rintro ⟨h3, _⟩
    rw [h2] at h3
    rcases List.mem_cons.mp hop with rfl | hop
    · cases h3
    · rcases List.mem_cons.mp hop with rfl | hop
      · cases h3
      · rcases List.mem_cons.mp hop with rfl | hop
        · cases h3
        · cases hop
  | bin s => simp at h2
  | expr s => simp at h2
  | stmt s => simp at h2

open SampleAst in
/-- The hypotheses of `C41_partial` hold for the sample with `-a`, which has an
operator mutation. -/
example : OperatorTyping (unaryFn .minus) ∧ NoGnuOperators (unaryFn .minus) ∧
    ∃ x ∈ (visitTU Sample.cpp true (unaryFn .minus)).cur.post, x.2.rank = 0 := by
  refine ⟨?_, ?_, by decide +kernel⟩
  · intro p above s ks e hp
    refine (Everywhere.place (P := fun above n => ∀ s ks, n = .stmt s ks → ∀ e, s.kind = .expr e →
      (e.cls = .unary .addrOf → e.ty = none) ∧
      (e.cls = .unary .deref → ∀ s' e', childExpr .operand ks = some (s', e') → e'.ty = none) ∧
      (e.cls = .binary .ptrMemD → ∀ s' e', childExpr .rhs ks = some (s', e') → e'.ty = none) ∧
      (e.cls = .binary .ptrMemI → ∀ s' e', childExpr .rhs ks = some (s', e') → e'.ty = none) ∧
      (e.cls = .binary .cmp → e.ty = none) ∧
      e.cls ≠ .unary .coawait) ?_ hp).2 s ks rfl e
    simp [unaryFn, tu, func, block, node, SampleAst.read, facts, Everywhere, EverywhereL]
  · intro p above s ks e hp
    refine (Everywhere.place (P := fun above n => ∀ s ks, n = .stmt s ks → ∀ e, s.kind = .expr e →
      e.cls ≠ .unary .extension ∧ e.cls ≠ .unary .real ∧ e.cls ≠ .unary .imag) ?_ hp).2 s ks rfl e
    simp [unaryFn, tu, func, block, node, SampleAst.read, facts, Everywhere, EverywhereL]

end Dredd
