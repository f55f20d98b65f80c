/-
C23: what is inserted at the prelude location.
-/
import Verif.Proofs.Decls
import Verif.Spec.Samples

namespace Dredd

/-- C23: the order of the definitions depends only on which definitions there
are, not on the order (or multiplicity) in which they were collected. -/
theorem C23_order_free (ds ds' : List Text) (h : ∀ t, t ∈ ds ↔ t ∈ ds') :
    sortedDecls ds = sortedDecls ds' :=
  sorted_unique (sortedDecls_sorted ds) (sortedDecls_sorted ds') fun x => by
    rw [mem_sortedDecls, mem_sortedDecls, h]

/-- C23: a list without repetitions in which each element is smaller than the
next ones (as strings) is determined by its elements. -/
theorem C23_determined (as bs : List Text) (ha : StrictlySorted as) (hb : StrictlySorted bs)
    (h : ∀ x, x ∈ as ↔ x ∈ bs) : as = bs ∧ as.Nodup := by
  refine ⟨sorted_unique ha hb h, ha.imp fun {a b} hab heq => ?_⟩
  subst heq
  rw [textLt_irrefl] at hab
  cases hab

theorem befores_decls (loc : Nat) (ds : List Text) (pt : Text) :
    befores (ds.map (fun d => Edit.before loc [.txt d]) ++ [.before loc [.txt pt]]) loc
      = pt ++ ds.reverse.flatten := by
  have key : ∀ d : Text, Edit.beforeAt loc (.before loc [.txt d]) = d := by
    intro d
    simp [renderPieces, Piece.render, Edit.beforeAt]
  have keys : ∀ xs : List Text,
      xs.flatMap (fun d => Edit.beforeAt loc (.before loc [.txt d])) = xs.flatten := by
    intro xs
    induction xs with
    | nil => rfl
    | cons x xs ih => rw [List.flatMap_cons, ih, key, List.flatten_cons]
  unfold befores
  rw [List.reverse_append, List.reverse_singleton, List.flatMap_append, List.flatMap_singleton,
    ← List.map_reverse, List.flatMap_map, key, keys]

/-- The points are numbered from `first` on: the number of a point is that of its first mutant. -/
def NumberedFrom (l : Lang) (opt : Bool) (first : Nat) (pts : List (Nat × Mutation)) : Prop :=
  ∀ a p b, pts = a ++ p :: b → p.1 = first + countAll l opt (a.map (·.2))

theorem numberedFrom_iff (l : Lang) (opt : Bool) (first : Nat) (pts : List (Nat × Mutation)) :
    NumberedFrom l opt first pts ↔ pts = numbered l opt first (pts.map (·.2)) := by
  induction pts generalizing first with
  | nil => simp [NumberedFrom, numbered]
  | cons p ps ih =>
    rw [List.map_cons, numbered, List.cons.injEq, ← ih]
    constructor
    · intro h
      refine ⟨?_, fun a q b e => ?_⟩
      · have := h [] p ps rfl
        simp [countAll] at this
        rw [← this]
      · have := h (p :: a) q b (by simp [e])
        simp [countAll] at this ⊢
        omega
    · rintro ⟨h1, h2⟩ a q b e
      cases a with
      | nil =>
        simp only [List.nil_append, List.cons.injEq] at e
        rw [← e.1, h1]
        simp [countAll]
      | cons a as =>
        simp only [List.cons_append, List.cons.injEq] at e
        have := h2 as q b e.2
        rw [← e.1]
        simp [countAll] at this ⊢
        omega

/-- C23: a mutated file is the file with all other changes, into which one piece
of text is inserted at the prelude location: the prelude followed by all
definitions that the instrumented points need, each once, the largest first.
Everything in front of that text comes from the part of the file in front of the
prelude location. -/
theorem C23_output (o : Options) (req : Bool) (first : Nat) (f : SourceFile) (out : Text)
    (h : (handleTU o req first f).output = some out)
    (hloc : f.preludeOff.getD 0 ≤ f.src.length) :
    ∃ (pts : List (Nat × Mutation)) (ds : List Text) (others : List Edit) (back : Text),
      let loc := f.preludeOff.getD 0
      let front := rewrite (f.src.take loc) (others.filter fun e => e.off < loc)
      pts.map (·.2) = f.tree.post ∧
      NumberedFrom f.lang o.optimise first pts ∧
      StrictlySorted ds ∧
      (∀ t, t ∈ ds ↔ ∃ p ∈ pts, ∃ fn ∈ (p.2.apply f.lang o first p.1).decls, t = fn.render) ∧
      others = pts.flatMap (fun p => (p.2.apply f.lang o first p.1).edits) ++
        f.consts.map (fun c => .replace c.span.b (c.span.e - c.span.b) (natDec c.value)) ∧
      rewrite f.src others = front ++ back ∧
      out = front
        ++ (preludeText f.lang o first ((handleTU o req first f).nextId - first)
            ++ ds.reverse.flatten)
        ++ back := by
  have hc : fileCount o.optimise f ≠ 0 := by
    intro h0
    rw [handleTU_eq, if_pos h0] at h
    cases h
  rw [handleTU_eq, if_neg hc] at h ⊢
  simp only [Option.some.injEq] at h
  let B : List Edit :=
    (sortedDecls ((declsFrom f.lang o first first f.tree.post).map MutFn.render)).map
        (fun d => Edit.before (f.preludeOff.getD 0) [.txt d])
      ++ [.before (f.preludeOff.getD 0)
          [.txt (preludeText f.lang o first (first + fileCount o.optimise f - first))]]
  let A : List Edit := editsFrom f.lang o first first f.tree.post
    ++ f.consts.map (fun c => .replace c.span.b (c.span.e - c.span.b) (natDec c.value))
  have hAB : fileEdits o first f = A ++ B := by
    simp only [fileEdits, finishEdits, A, B, List.append_assoc]
  have hB : OnlyBefore (f.preludeOff.getD 0) B := by
    intro e he
    simp only [B, List.mem_append, List.mem_map, List.mem_singleton] at he
    rcases he with ⟨d, -, rfl⟩ | rfl
    · exact ⟨_, rfl⟩
    · exact ⟨_, rfl⟩
  obtain ⟨back, e1, e2⟩ := rewriteFrom_insert (A := A) hB f.src 0 (Nat.zero_le _) (by simpa using hloc)
  refine ⟨numbered f.lang o.optimise first f.tree.post,
    sortedDecls ((declsFrom f.lang o first first f.tree.post).map MutFn.render), A, back,
    numbered_snd _ _ _ _, (numberedFrom_iff _ _ _ _).2 (by rw [numbered_snd]), sortedDecls_sorted _,
    ?_, ?_, ?_, ?_⟩
  · intro t
    rw [mem_sortedDecls, declsFrom_numbered, List.mem_map]
    simp only [List.mem_flatMap]
    constructor
    · rintro ⟨fn, ⟨p, hp, hfn⟩, rfl⟩
      exact ⟨p, hp, fn, hfn, rfl⟩
    · rintro ⟨p, hp, fn, hfn, rfl⟩
      exact ⟨fn, ⟨p, hp, hfn⟩, rfl⟩
  · simp only [A, editsFrom_numbered]
  · simpa [rewrite] using e2
  · rw [← h, hAB]
    have hT : befores B (f.preludeOff.getD 0)
        = preludeText f.lang o first (first + fileCount o.optimise f - first)
          ++ (sortedDecls ((declsFrom f.lang o first first f.tree.post).map
              MutFn.render)).reverse.flatten := befores_decls _ _ _
    rw [← hT]
    simpa [rewrite] using e1

/-- `s` occurs in `t`. -/
def Occurs (s t : Text) : Prop := ∃ p q, t = p ++ s ++ q

/-- The text begins a call of a function with this name, possibly behind a space
or an opened cast, and with a comment between name and parenthesis. -/
def BeginsCall (name t : Text) : Prop :=
  ∃ pre comment args, t = pre ++ name ++ comment ++ t!"(" ++ args ∧
    (pre = [] ∨ pre = t!" " ∨ ∃ cast, pre = cast ++ t!">(") ∧
    (comment = [] ∨ ∃ c, comment = t!"/*" ++ c ++ t!"*/")

theorem nodeComment_form (o : Options) (node : Text) :
    nodeComment o node = [] ∨ ∃ c, nodeComment o node = t!"/*" ++ c ++ t!"*/" := by
  unfold nodeComment
  split
  · exact .inr ⟨node, rfl⟩
  · exact .inl rfl

theorem BinSite.edits_call (s : BinSite) (l : Lang) (o : Options) (k : Nat) :
    ∃ args, .before s.lhsSpan.b [.txt (s.fnName l o.optimise ++ nodeComment o s.node ++ t!"(" ++ args)]
      ∈ s.replaceOperator l o k := by
  unfold BinSite.replaceOperator
  dsimp only
  exact ⟨_, List.mem_append_right _ (List.mem_cons_self ..)⟩

theorem replaceSymbol_before (a : Option Nat) (n : Nat) (t : Text) (p : Nat) (ps : List Piece) :
    .before p ps ∉ replaceSymbol a n t := by
  cases a <;> simp [replaceSymbol]

theorem UnSite.edits_call (s : UnSite) (l : Lang) (o : Options) (k : Nat) :
    ∃ args, .before s.span.b [.txt (s.fnName l o.optimise ++ nodeComment o s.node ++ t!"(" ++ args)]
      ∈ s.edits l o k := by
  unfold UnSite.edits
  dsimp only
  rw [List.append_assoc _ (Prod.fst _) (Prod.fst _)]
  exact ⟨_, List.mem_append_right _ (List.mem_cons_self ..)⟩

theorem ExprSite.edits_call (s : ExprSite) (l : Lang) (o : Options) (k : Nat) :
    ∃ args, .before s.span.b [.txt ((if s.precIdent then t!" " else []) ++
      (match s.initListCast with
        | some ty => t!"static_cast<" ++ ty.name l ++ t!">("
        | none => []) ++ s.fnName l o.optimise ++ nodeComment o s.node ++ t!"(" ++ args)]
      ∈ s.edits l o k := by
  unfold ExprSite.edits
  dsimp only
  refine ⟨(if l.cpp && s.self.sideEffects then exprLambdaPrefix s.self.cxx11Const (s.inputTy l)
      else []) ++
    (if !l.cpp && s.self.lvalue && (s.inputTy l).getLast? == some '*' then t!"&(" else []) ++
    (if s.binOp == some .comma then t!"(" else []), List.mem_cons.2 (.inl ?_)⟩
  generalize (l.cpp && s.self.sideEffects) = b1
  generalize (!l.cpp && s.self.lvalue && (s.inputTy l).getLast? == some '*') = b2
  generalize (s.binOp == some .comma) = b3
  cases b1 <;> cases b2 <;> cases b3 <;> cases s.initListCast <;> cases s.precIdent <;> simp

theorem ExprSite.call_prefix (s : ExprSite) (l : Lang) :
    let pre := (if s.precIdent then t!" " else []) ++
      (match s.initListCast with
        | some ty => t!"static_cast<" ++ ty.name l ++ t!">("
        | none => [])
    pre = [] ∨ pre = t!" " ∨ ∃ cast, pre = cast ++ t!">(" := by
  cases s.initListCast with
  | none => cases s.precIdent <;> simp
  | some ty =>
    exact .inr (.inr ⟨(if s.precIdent then t!" " else []) ++ (t!"static_cast<" ++ ty.name l),
      by simp only [List.append_assoc]⟩)

/-- C23: every function that a point adds to the definitions is called at that
point. -/
theorem C23_used (m : Mutation) (l : Lang) (o : Options) (first id : Nat) (fn : MutFn)
    (h : fn ∈ (m.apply l o first id).decls) :
    ∃ off t, .before off [.txt t] ∈ (m.apply l o first id).edits ∧ BeginsCall fn.name t := by
  cases m with
  | bin s =>
    simp only [Mutation.apply, BinSite.apply] at h ⊢
    split
    next hc =>
      rw [if_pos hc] at h
      simp only [BinSite.applyCLogical] at h ⊢
      cases ht : o.track
      · simp only [ht, Bool.false_eq_true, if_false, List.cons_append, List.nil_append,
          List.mem_cons, List.not_mem_nil, or_false] at h
        rcases h with rfl | rfl | rfl
        · exact ⟨_, _, by simp [wrapCall]; exact .inl ⟨rfl, rfl⟩, [], [], [],
            by simp [cLogicalLhsFn], .inl rfl, .inl rfl⟩
        · exact ⟨_, _, by simp [wrapCall]; exact .inr (.inl ⟨rfl, rfl⟩), [], [], [],
            by simp [cLogicalRhsFn], .inl rfl, .inl rfl⟩
        · exact ⟨_, _, by simp [wrapCall]; exact .inr (.inr ⟨rfl, rfl⟩), [], [], [],
            by simp [cLogicalOuterFn], .inl rfl, .inl rfl⟩
      · simp only [ht, if_true, List.nil_append, List.mem_singleton] at h
        subst h
        exact ⟨_, _, by simp [wrapCall]; exact ⟨rfl, rfl⟩, [], [], [],
            by simp [cLogicalOuterFn], .inl rfl, .inl rfl⟩
    next hc =>
      rw [if_neg hc] at h
      simp only [List.mem_singleton] at h
      subst h
      obtain ⟨args, ha⟩ := s.edits_call l o (id - first)
      exact ⟨_, _, ha, [], nodeComment o s.node, args, by simp [BinSite.genFn], .inl rfl,
        nodeComment_form _ _⟩
  | un s =>
    simp only [Mutation.apply, UnSite.apply, List.mem_singleton] at h ⊢
    subst h
    obtain ⟨args, ha⟩ := s.edits_call l o (id - first)
    exact ⟨_, _, ha, [], nodeComment o s.node, args, by simp [UnSite.genFn], .inl rfl,
      nodeComment_form _ _⟩
  | expr s =>
    simp only [Mutation.apply, ExprSite.apply, List.mem_singleton] at h ⊢
    subst h
    obtain ⟨args, ha⟩ := s.edits_call l o (id - first)
    refine ⟨_, _, ha, _, _, args, rfl, ?_, nodeComment_form _ _⟩
    exact s.call_prefix l
  | stmt s => simp [Mutation.apply, StmtSite.apply] at h

/-- C23: what is inserted in front of something at a point begins a call of a
function that the point adds to the definitions; or, for a statement, a call of a
function of the prelude; or it is empty or the beginning of the lambda expression
for the right operand of a binary operator. -/
theorem C23_defined (m : Mutation) (l : Lang) (o : Options) (first id : Nat) (off : Nat)
    (ps : List Piece) (h : .before off ps ∈ (m.apply l o first id).edits) :
    (∃ fn ∈ (m.apply l o first id).decls, ∃ t, ps = [.txt t] ∧ BeginsCall fn.name t) ∨
    (∃ s, m = .stmt s ∧ ∃ t rest, ps = .txt t :: rest ∧
      if o.track then BeginsCall t!"__dredd_record_covered_mutants" t
      else ∃ t', t = t!"if (!" ++ t' ∧ BeginsCall t!"__dredd_enabled_mutation" t') ∨
    (∃ s, m = .bin s ∧ (ps = [.txt []] ∨ ps = [.txt (lambdaPrefix (s.rhs.ty.name l))])) := by
  cases m with
  | bin s =>
    simp only [Mutation.apply, BinSite.apply] at h ⊢
    split
    next hc =>
      rw [if_pos hc] at h
      left
      simp only [BinSite.applyCLogical] at h ⊢
      cases ht : o.track
      · simp only [ht, Bool.false_eq_true, if_false, wrapCall] at h
        simp only [List.cons_append, List.nil_append, List.mem_cons, Edit.before.injEq,
          reduceCtorEq, List.not_mem_nil, or_false, false_or] at h
        rcases h with ⟨-, rfl⟩ | ⟨-, rfl⟩ | ⟨-, rfl⟩
        · exact ⟨cLogicalLhsFn s l o, by simp, _, rfl, [], [], [], by simp [cLogicalLhsFn],
            .inl rfl, .inl rfl⟩
        · exact ⟨cLogicalRhsFn s l o, by simp, _, rfl, [], [], [], by simp [cLogicalRhsFn],
            .inl rfl, .inl rfl⟩
        · exact ⟨cLogicalOuterFn s l o, by simp, _, rfl, [], [], [], by simp [cLogicalOuterFn],
            .inl rfl, .inl rfl⟩
      · simp only [ht, if_true, wrapCall] at h
        simp only [List.nil_append, List.mem_cons, Edit.before.injEq,
          reduceCtorEq, List.not_mem_nil, or_false] at h
        obtain ⟨-, rfl⟩ := h
        exact ⟨cLogicalOuterFn s l o, by simp, _, rfl, [], [], [], by simp [cLogicalOuterFn],
          .inl rfl, .inl rfl⟩
    next hc =>
      rw [if_neg hc] at h
      unfold BinSite.replaceOperator at h
      dsimp only at h
      simp only [List.mem_append, replaceSymbol_before, List.mem_cons, reduceCtorEq,
        Edit.before.injEq, List.not_mem_nil, or_false, false_or] at h
      rcases h with ⟨-, rfl⟩ | ⟨-, rfl⟩
      · exact .inl ⟨_, List.mem_singleton.2 rfl, _, rfl, [], nodeComment o s.node, _,
          by simp [BinSite.genFn]; rfl, .inl rfl, nodeComment_form _ _⟩
      · refine .inr (.inr ⟨s, rfl, ?_⟩)
        split
        · exact .inr rfl
        · exact .inl rfl
  | un s =>
    left
    simp only [Mutation.apply, UnSite.apply, UnSite.edits] at h ⊢
    simp only [List.mem_append, replaceSymbol_before, List.mem_cons, reduceCtorEq,
      Edit.before.injEq, List.not_mem_nil, or_false, false_or] at h
    obtain ⟨-, rfl⟩ := h
    rw [List.append_assoc _ (Prod.fst _) (Prod.fst _)]
    exact ⟨_, List.mem_singleton.2 rfl, _, rfl, [], nodeComment o s.node, _,
      by simp [UnSite.genFn]; rfl, .inl rfl, nodeComment_form _ _⟩
  | expr s =>
    left
    have h2 : ∀ ps', .before s.span.b ps' ∈ s.edits l o (id - first) →
        ∀ ps off, .before off ps ∈ s.edits l o (id - first) → ps = ps' := by
      unfold ExprSite.edits
      dsimp only
      intro ps' h' ps off h
      simp only [List.mem_cons, reduceCtorEq, Edit.before.injEq, List.not_mem_nil, or_false] at h h'
      rw [h.2, h'.2]
    obtain ⟨args, ha⟩ := s.edits_call l o (id - first)
    have := h2 _ ha ps off h
    subst this
    exact ⟨_, List.mem_singleton.2 rfl, _, rfl, _, _, args, rfl, s.call_prefix l,
      nodeComment_form _ _⟩
  | stmt s =>
    refine .inr (.inl ⟨s, rfl, ?_⟩)
    simp only [Mutation.apply, StmtSite.apply, StmtSite.edits] at h
    cases ht : o.track
    · rw [ht, if_neg (by decide)] at h
      simp only [List.mem_cons, reduceCtorEq, Edit.before.injEq, List.not_mem_nil, or_false] at h
      obtain ⟨-, rfl⟩ := h
      exact ⟨_, _, rfl, by
        rw [if_neg (by decide)]
        exact ⟨t!"__dredd_enabled_mutation" ++ nodeComment o s.node ++ t!"(", by simp, [],
          nodeComment o s.node, [], by simp, .inl rfl, nodeComment_form _ _⟩⟩
    · rw [ht, if_pos rfl] at h
      simp only [List.mem_cons, Edit.before.injEq, List.not_mem_nil, or_false] at h
      obtain ⟨-, rfl⟩ := h
      exact ⟨_, _, rfl, by
        rw [if_pos rfl]
        exact ⟨[], nodeComment o s.node, [], by simp, .inl rfl, nodeComment_form _ _⟩⟩

theorem Occurs.left {s t : Text} (h : Occurs s t) (u : Text) : Occurs s (t ++ u) := by
  obtain ⟨p, q, rfl⟩ := h
  exact ⟨p, q ++ u, by simp⟩

theorem Occurs.right {s t : Text} (h : Occurs s t) (u : Text) : Occurs s (u ++ t) := by
  obtain ⟨p, q, rfl⟩ := h
  exact ⟨u ++ p, q, by simp⟩

theorem Occurs.self (p s : Text) : Occurs s (p ++ s) := ⟨p, [], by simp⟩

/-- C23: the prelude defines the function that instrumented statements call, and
that the definitions rely on. -/
theorem C23_prelude (l : Lang) (o : Options) (first n : Nat) :
    Occurs (if o.track then
        t!"static void __dredd_record_covered_mutants(int local_mutation_id, int num_mutations) {\n"
      else t!"static bool __dredd_enabled_mutation(int local_mutation_id) {\n")
      (preludeText l o first n) := by
  unfold preludeText
  refine Occurs.right ?_ _
  cases l.cpp <;> cases o.track
  · simp only [if_true, Bool.false_eq_true, if_false]
    unfold regularPreludeC
    repeat' first
      | with_reducible exact Occurs.self _ t!"static bool __dredd_enabled_mutation(int local_mutation_id) {\n"
      | with_reducible refine Occurs.left ?_ _
  · simp only [if_true, Bool.false_eq_true, if_false]
    unfold trackingPreludeC
    repeat' first
      | with_reducible exact Occurs.self _ t!"static void __dredd_record_covered_mutants(int local_mutation_id, int num_mutations) {\n"
      | with_reducible refine Occurs.left ?_ _
  · simp only [if_true, Bool.false_eq_true, if_false]
    unfold regularPreludeCpp
    repeat' first
      | with_reducible exact Occurs.self _ t!"static bool __dredd_enabled_mutation(int local_mutation_id) {\n"
      | with_reducible refine Occurs.left ?_ _
  · simp only [if_true, Bool.false_eq_true, if_false]
    unfold trackingPreludeCpp
    repeat' first
      | with_reducible exact Occurs.self _ t!"static void __dredd_record_covered_mutants(int local_mutation_id, int num_mutations) {\n"
      | with_reducible refine Occurs.left ?_ _

/-- The hypotheses of `C23_output` can be met. -/
example : ∃ out, (handleTU Sample.opts true 5 (Sample.file t!"a.cc" Sample.cpp)).output = some out := by
  rw [handleTU_eq, if_neg (by decide)]
  exact ⟨_, rfl⟩

/-- Two different collections of the same definitions. -/
example : sortedDecls [t!"b", t!"a", t!"b"] = sortedDecls [t!"a", t!"b"] :=
  C23_order_free _ _ (by simp [or_comm])

example : sortedDecls [t!"b", t!"a", t!"b"] = [t!"a", t!"b"] := by decide

end Dredd
