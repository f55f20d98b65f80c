/-
C87: only objects that have an address are passed by address.
-/
import Verif.Spec.Address
import Verif.Props.C41
import Verif.Props.C55

namespace Dredd

theorem name_last (l : Lang) (t : BTy) : (t.name l).getLast? ≠ some '*' ∧ (t.name l).getLast? ≠ some '&' := by
  cases t
  case bool => cases h : l.boolKw <;> simp only [BTy.name, h] <;> decide
  all_goals simp only [BTy.name] <;> decide

theorem byAddress_name {l : Lang} {t : BTy} {a : Arg} {k : ArgMode} (h : Param.ByAddress ⟨a, t.name l, k⟩) : False :=
  h.elim (name_last l t).1 (name_last l t).2

theorem byAddress_cpp {l : Lang} {e : ExprInfo} {t : BTy} {a : Arg} {k : ArgMode}
    (h : Param.ByAddress ⟨a, cppTypeModifiers e (t.name l), k⟩) : e.lvalue = true := by
  cases he : e.lvalue with
  | true => rfl
  | false => simp only [cppTypeModifiers, he] at h; exact (byAddress_name h).elim

theorem byAddress_c {l : Lang} {e : ExprInfo} {t : BTy} {a : Arg} {k : ArgMode}
    (h : Param.ByAddress ⟨a, cTypeModifiers e (t.name l), k⟩) : e.lvalue = true := by
  cases he : e.lvalue with
  | true => rfl
  | false => simp only [cTypeModifiers, he] at h; exact (byAddress_name h).elim

theorem isAssign_mem : ∀ op : BOp, op.isAssign = true → op ∈ [.assign, .mulAssign, .divAssign, .remAssign,
    .addAssign, .subAssign, .shlAssign, .shrAssign, .andAssign, .xorAssign, .orAssign] := by
  intro op h
  cases op <;> simp_all [BOp.isAssign]

theorem uop_named : ∀ op : UOp, op.fnName?.isSome = true →
    op ∈ [.minus, .not, .lnot] ∨ (op = .preInc ∨ op = .preDec ∨ op = .postInc ∨ op = .postDec) := by
  intro op h
  cases op <;> simp_all [UOp.fnName?]

theorem single_get {α} {x q : α} {i : Nat} (h : [x][i]? = some q) : i = 0 ∧ q = x := by
  cases i with
  | zero => simp at h; exact ⟨rfl, h.symm⟩
  | succ i => simp at h

/-- The parameters that take an address, for a mutation as it is. -/
theorem byAddress_un (x : UnSite) (l : Lang) (o : Options) (first id : Nat) {fn i q}
    (hf : fn ∈ (x.apply l o first id).decls) (hq : fn.params[i]? = some q) (hb : q.ByAddress) :
    i = 0 ∧ x.sub.lvalue = true := by
  simp only [UnSite.apply, List.mem_singleton] at hf
  subst hf
  obtain ⟨rfl, rfl⟩ := single_get hq
  refine ⟨rfl, ?_⟩
  simp only [UnSite.inputTy] at hb
  split at hb
  · exact byAddress_cpp hb
  · exact byAddress_c hb

theorem byAddress_expr (x : ExprSite) (l : Lang) (o : Options) (first id : Nat) {fn i q}
    (hf : fn ∈ (x.apply l o first id).decls) (hq : fn.params[i]? = some q) (hb : q.ByAddress) :
    i = 0 ∧ x.self.lvalue = true := by
  simp only [ExprSite.apply, List.mem_singleton] at hf
  subst hf
  obtain ⟨rfl, rfl⟩ := single_get hq
  refine ⟨rfl, ?_⟩
  simp only [ExprSite.inputTy] at hb
  split at hb
  · exact byAddress_cpp hb
  · exact byAddress_c hb

theorem byAddress_bin (x : BinSite) (l : Lang) (o : Options) (first id : Nat) {fn i q}
    (hf : fn ∈ (x.apply l o first id).decls) (hq : fn.params[i]? = some q) (hb : q.ByAddress) :
    i = 0 ∧ x.op ∈ [.assign, .mulAssign, .divAssign, .remAssign, .addAssign, .subAssign, .shlAssign, .shrAssign,
      .andAssign, .xorAssign, .orAssign] := by
  simp only [BinSite.apply] at hf
  split at hf
  · simp only [BinSite.applyCLogical, List.mem_append, List.mem_singleton] at hf
    exfalso
    rcases hf with hf | hf
    · split at hf
      · cases hf
      · simp only [List.mem_cons, List.not_mem_nil, or_false] at hf
        rcases hf with rfl | rfl <;> obtain ⟨rfl, rfl⟩ := single_get hq <;> exact byAddress_name hb
    · subst hf
      obtain ⟨rfl, rfl⟩ := single_get hq
      exact byAddress_name hb
  · simp only [List.mem_singleton] at hf
    subst hf
    simp only [BinSite.genFn] at hq
    match i, hq with
    | 0, hq =>
      simp only [List.getElem?_cons_zero, Option.some.injEq] at hq
      subst hq
      refine ⟨rfl, ?_⟩
      cases ha : x.op.isAssign with
      | false => simp only [BinSite.lhsTyText, ha] at hb; exact (byAddress_name hb).elim
      | true => exact isAssign_mem _ ha
    | 1, hq =>
      simp only [List.getElem?_cons_succ, List.getElem?_cons_zero, Option.some.injEq] at hq
      subst hq
      exact (byAddress_name hb).elim
    | i + 2, hq => simp at hq

/-- C87, the part that holds: whatever is passed by address is a first argument and an l-value that is not a
bit-field; so it has an address unless it is a variable declared `register` or an element of a vector.  The
operands are as the languages require (`OperandsFit`, `OperatorTyping`) and the operators of C41 that the tool
does not support do not occur.
Missing: variables declared `register` in C and elements of vectors, see `C87_false_register` and
`C87_false_vector`. -/
theorem C87_partial (l : Lang) (opt : Bool) (root : Node) (p : List Nat) (m : Mutation) (o : Options)
    (first id : Nat) (above : List (Node × Nat)) (s : AStmt) (ks : List Node) (e : ExprFacts)
    (ht : OperatorTyping root) (hg : NoGnuOperators root) (hfit : OperandsFit root)
    (h : MutationAt l opt root p m) (hp : Place root p above (.stmt s ks)) (hk : s.kind = .expr e)
    (fn : MutFn) (i : Nat) (q : Param) (hf : fn ∈ (m.apply l o first id).decls) (hq : fn.params[i]? = some q)
    (hb : q.ByAddress) :
    i = 0 ∧ ∃ a, PassedFirst m ks e a ∧ (a.noAddress = false → HasAddress a) := by
  have hsup := C41_partial l opt root ht hg p m h
  obtain ⟨above', s', ks', hp', hc⟩ := C56 l opt root p m h
  obtain ⟨rfl, hn⟩ := hp.unique hp' rfl
  cases hn
  rcases hc with ⟨e', sp, t, hok, hc⟩ | ⟨sp, -, -, x, rfl, -⟩
  · have hke := hok.kind
    rw [hk] at hke
    cases hke
    obtain ⟨fit1, fit2⟩ := hfit _ _ _ _ _ hp hk
    rcases hc with ⟨hr, x, rfl, hs, -⟩ | ⟨op, e', t', hu, x, rfl, hop, hs, -⟩ |
      ⟨op, sl, el, tl, sr, er, tr, hbo, x, rfl, hop, -⟩
    · obtain ⟨hi, hl⟩ := byAddress_expr x l o first id hf hq hb
      rw [hs] at hl
      exact ⟨hi, e, rfl, fun hna => ⟨hl, (hr.lvalue hl).2.2.1, hna⟩⟩
    · obtain ⟨hi, hl⟩ := byAddress_un x l o first id hf hq hb
      rw [hs] at hl
      obtain ⟨s', sp', hch, -⟩ := hu.operand
      refine ⟨hi, e', ⟨s', hch⟩, fun hna => ⟨hl, ?_, hna⟩⟩
      obtain ⟨-, f2⟩ := fit1 op s' e' hu.cls hch
      have hsup := hsup.1
      rw [hop] at hsup
      have hl : e'.lvalue = true := hl
      rcases uop_named op hsup with hm | hm
      · rw [f2 hm] at hl
        cases hl
      · exact hu.bitField hm
    · obtain ⟨hi, ha⟩ := byAddress_bin x l o first id hf hq hb
      rw [hop] at ha
      exact ⟨hi, el, ⟨sl, hbo.lhs⟩, fun hna => ⟨fit2 op sl el hbo.cls hbo.lhs ha, hbo.bitField ha, hna⟩⟩
  · cases hf

namespace SampleAst

/-- `void g(){x++;}` where `x` is an ordinary variable, or one of which the address cannot be taken, or stands for
an element of a vector, whose parts are left out here. -/
def stepOf (noAddress : Bool) : Node :=
  tu [func false 0 20 [block 8 20 [node (.expr (facts (.unary .postInc) (some .int) false 9)) .plain 9 12
    [node (.expr { facts .other (some .int) true 9 with noAddress := noAddress }) .operand 9 10 []]]]]

end SampleAst

open SampleAst

theorem stepOf_fits (b : Bool) : OperatorTyping (stepOf b) ∧ NoGnuOperators (stepOf b) ∧ OperandsFit (stepOf b) := by
  refine ⟨?_, ?_, ?_⟩
  · intro p above s ks e hp
    refine (Everywhere.place (P := fun above n => ∀ s ks, n = .stmt s ks → ∀ e, s.kind = .expr e →
      (e.cls = .unary .addrOf → e.ty = none) ∧
      (e.cls = .unary .deref → ∀ s' e', childExpr .operand ks = some (s', e') → e'.ty = none) ∧
      (e.cls = .binary .ptrMemD → ∀ s' e', childExpr .rhs ks = some (s', e') → e'.ty = none) ∧
      (e.cls = .binary .ptrMemI → ∀ s' e', childExpr .rhs ks = some (s', e') → e'.ty = none) ∧
      (e.cls = .binary .cmp → e.ty = none) ∧
      e.cls ≠ .unary .coawait) ?_ hp).2 s ks rfl e
    simp [stepOf, tu, func, block, node, facts, Everywhere, EverywhereL]
  · intro p above s ks e hp
    refine (Everywhere.place (P := fun above n => ∀ s ks, n = .stmt s ks → ∀ e, s.kind = .expr e →
      e.cls ≠ .unary .extension ∧ e.cls ≠ .unary .real ∧ e.cls ≠ .unary .imag) ?_ hp).2 s ks rfl e
    simp [stepOf, tu, func, block, node, facts, Everywhere, EverywhereL]
  · intro p above s ks e hp
    refine (Everywhere.place (P := fun above n => ∀ s ks, n = .stmt s ks → ∀ e, s.kind = .expr e →
      (∀ op s' e', e.cls = .unary op → HasChild ks .operand s' e' →
        (op ∈ [.preInc, .preDec, .postInc, .postDec] → e'.lvalue = true) ∧
        (op ∈ [.minus, .not, .lnot] → e'.lvalue = false)) ∧
      (∀ op s' e', e.cls = .binary op → HasChild ks .lhs s' e' →
        op ∈ [.assign, .mulAssign, .divAssign, .remAssign, .addAssign, .subAssign, .shlAssign, .shrAssign,
          .andAssign, .xorAssign, .orAssign] → e'.lvalue = true)) ?_ hp).2 s ks rfl e
    simp only [← childExpr_iff]
    simp [stepOf, tu, func, block, node, facts, Everywhere, EverywhereL, childExpr, Node.expr?]

theorem stepOf_mutated (l : Lang) (hl : l = Sample.c ∨ l = Sample.cpp) (opt b : Bool) :
    ∃ m above s ks e fn q a, MutationAt l opt (stepOf b) [0, 0, 0] m ∧ Place (stepOf b) [0, 0, 0] above (.stmt s ks) ∧
      s.kind = .expr e ∧ fn ∈ (m.apply l Sample.opts 0 0).decls ∧ fn.params[0]? = some q ∧ q.ByAddress ∧
      PassedFirst m ks e a ∧ a.noAddress = b := by
  have h : ∀ l ∈ [Sample.c, Sample.cpp], ∀ opt b, ∃ x ∈ (visitTU l opt (stepOf b)).cur.post,
      x.1 = [0, 0, 0] ∧ (match x.2 with
        | .un y => decide (y.sub.lvalue = true ∧ y.sub.const = false ∧ y.sub.volatile = false)
        | _ => false) = true := by decide +kernel
  obtain ⟨⟨p, m⟩, h1, h2, h3⟩ := h l (by rcases hl with rfl | rfl <;> simp) opt b
  simp only at h2 h3
  subst h2
  cases m with
  | un y =>
    simp only [decide_eq_true_eq] at h3
    refine ⟨_, _, _, _, _, _, _, _, h1, ancestors_place _ _ _ _ rfl, rfl, List.mem_singleton.mpr rfl, rfl, ?_,
      ⟨_, childExpr_iff.mp rfl⟩, rfl⟩
    rcases hl with rfl | rfl
    · left
      simp [UnSite.inputTy, Sample.c, cTypeModifiers, h3]
    · right
      simp [UnSite.inputTy, Sample.cpp, cppTypeModifiers, h3]
  | _ => cases h3

/-- The hypotheses of `C87_partial` hold for an ordinary variable, in both languages. -/
example (l : Lang) (hl : l = Sample.c ∨ l = Sample.cpp) : OperatorTyping (stepOf false) ∧
    NoGnuOperators (stepOf false) ∧ OperandsFit (stepOf false) ∧
    ∃ m above s ks e fn q a, MutationAt l true (stepOf false) [0, 0, 0] m ∧
      Place (stepOf false) [0, 0, 0] above (.stmt s ks) ∧
      s.kind = .expr e ∧ fn ∈ (m.apply l Sample.opts 0 0).decls ∧ fn.params[0]? = some q ∧ q.ByAddress ∧
      PassedFirst m ks e a ∧ a.noAddress = false := by
  obtain ⟨h1, h2, h3⟩ := stepOf_fits false
  exact ⟨h1, h2, h3, stepOf_mutated l hl true false⟩

/-- C87 fails: `x++` for a variable declared `register` becomes a call with the argument `&(x)` in C, with and
without optimisation. -/
theorem C87_false_register (opt : Bool) : OperandsFit (stepOf true) ∧ ∃ p m above s ks e fn q a,
    MutationAt Sample.c opt (stepOf true) p m ∧ Place (stepOf true) p above (.stmt s ks) ∧ s.kind = .expr e ∧
    fn ∈ (m.apply Sample.c Sample.opts 0 0).decls ∧ fn.params[0]? = some q ∧ q.ByAddress ∧ PassedFirst m ks e a ∧
    ¬ HasAddress a := by
  obtain ⟨m, above, s, ks, e, fn, q, a, h1, h2, h3, h4, h5, h6, h7, h8⟩ :=
    stepOf_mutated Sample.c (.inl rfl) opt true
  exact ⟨(stepOf_fits true).2.2, _, m, above, s, ks, e, fn, q, a, h1, h2, h3, h4, h5, h6, h7,
    fun h => by rw [h.2.2] at h8; cases h8⟩

/-- C87 fails: `v[i]++` for an element of a vector is passed to a parameter of type `int&` in C++, with and without
optimisation. -/
theorem C87_false_vector (opt : Bool) : OperandsFit (stepOf true) ∧ ∃ p m above s ks e fn q a,
    MutationAt Sample.cpp opt (stepOf true) p m ∧ Place (stepOf true) p above (.stmt s ks) ∧ s.kind = .expr e ∧
    fn ∈ (m.apply Sample.cpp Sample.opts 0 0).decls ∧ fn.params[0]? = some q ∧ q.ByAddress ∧
    PassedFirst m ks e a ∧ ¬ HasAddress a := by
  obtain ⟨m, above, s, ks, e, fn, q, a, h1, h2, h3, h4, h5, h6, h7, h8⟩ :=
    stepOf_mutated Sample.cpp (.inr rfl) opt true
  exact ⟨(stepOf_fits true).2.2, _, m, above, s, ks, e, fn, q, a, h1, h2, h3, h4, h5, h6, h7,
    fun h => by rw [h.2.2] at h8; cases h8⟩

end Dredd
