/-
Comments that show the nodes of the syntax tree: helper lemmas.
-/
import Verif.Spec.CommentsAdded
import Verif.Spec.Each
import Verif.Proofs.LexGlue
import Verif.Proofs.CReadFns

namespace Dredd

/-! ### Texts with comments -/

theorem CommentsAdded.refl (t : Text) : CommentsAdded t t := by
  induction t with
  | nil => exact .nil
  | cons c t ih => exact .char c ih

theorem CommentsAdded.append {a b c d : Text} (h : CommentsAdded a b) (h' : CommentsAdded c d) :
    CommentsAdded (a ++ c) (b ++ d) := by
  induction h with
  | nil => exact h'
  | char x _ ih => exact .char x ih
  | @comment n a b hn _ ih =>
    rw [List.append_assoc (t!"/*" ++ n ++ t!"*/")]
    exact .comment n hn ih

/-- The second text is the first, with a comment between a word and a parenthesis. -/
def Shown (node t t' : Text) : Prop :=
  t = t' ∨ ∃ a c b, Plain (a ++ [c]) ∧ wordChar c = true ∧ t = a ++ [c] ++ (t!"(" ++ b) ∧
    t' = a ++ [c] ++ (t!"/*" ++ node ++ t!"*/" ++ (t!"(" ++ b))

theorem Shown.added {node t t' : Text} (h : Shown node t t') (hn : '*' ∉ node) : CommentsAdded t t' := by
  rcases h with rfl | ⟨a, c, b, -, -, rfl, rfl⟩
  · exact .refl _
  · exact (CommentsAdded.refl _).append (.comment node hn (.refl _))

theorem tokens_glue {a b : Text} (h : ∀ c cs, b = c :: cs → Ok (endSt a) c) :
    tokens (a ++ b) = tokens a ++ tokens b := by
  simp only [tokens, (lexemes_glue h).1, List.filter_append, List.map_append]

theorem lexFrom_shown (u n rest : Text) (hn : '*' ∉ n) (st : Bool) (hs : st = true → n.head? ≠ some '/') :
    lexFrom (.block st) u (n ++ t!"*/" ++ rest) = lexFrom .comment (u ++ n ++ t!"*/") rest := by
  induction n generalizing u st with
  | nil =>
    cases st
    · simp [lexFrom, Lexing.more]
    · simp [lexFrom, Lexing.more]
  | cons c cs ih =>
    have hc : c ≠ '*' := fun e => hn (by simp [e])
    have : (Lexing.block st).more c = some (.block false) := by
      have h : (c == '*') = false := by simp [hc]
      cases st
      · simp [Lexing.more, hc]
      · have := hs rfl
        simp at this
        simp [Lexing.more, hc, this]
    simp only [List.cons_append, lexFrom, this]
    rw [ih _ (fun h => hn (List.mem_cons_of_mem _ h)) _ (by simp)]
    simp

theorem lexemes_comment (n : Text) (hn : '*' ∉ n) :
    lexemes (t!"/*" ++ n ++ t!"*/") = [(.comment, t!"/*" ++ n ++ t!"*/")] := by
  have h0 : lexemes (t!"/*" ++ n ++ t!"*/") = lexFrom (.block false) t!"/*" (n ++ t!"*/" ++ []) := by
    simp [lexemes, lexFrom, Lexing.more, Lexing.start, wordChar]
  rw [h0, lexFrom_shown _ _ _ hn _ (by simp)]
  simp [lexFrom]

theorem endSt_comment (n : Text) (hn : '*' ∉ n) : endSt (t!"/*" ++ n ++ t!"*/") = some .comment := by
  have := lexemes_single (t!"/*" ++ n ++ t!"*/") (.comment, t!"/*" ++ n ++ t!"*/")
    (by rw [lexemes_comment n hn]; simp)
  exact this.2.2

theorem word_closed {a : Text} {c : Char} (hp : Plain (a ++ [c])) (hc : wordChar c = true) :
    ∃ s, endSt (a ++ [c]) = some s ∧ s.closed = true ∧ s ≠ .punct t!"/" := by
  obtain ⟨s, hs⟩ : ∃ s, endSt (a ++ [c]) = some s := by
    cases a <;> exact ⟨_, rfl⟩
  refine ⟨s, hs, s.closed_of_mode ((endSt_mode hs).trans hp), ?_⟩
  rintro rfl
  have hl : ∀ (s : Lexing) (t : Text), t ≠ [] → t.getLast? = some c → lexEnd s t ≠ .punct t!"/" := by
    intro s t
    induction t generalizing s with
    | nil => intro h; exact absurd rfl h
    | cons x xs ih =>
      intro _ hx
      cases xs with
      | cons y ys => exact ih _ (by simp) (by simpa using hx)
      | nil =>
        have : x = c := by simpa using hx
        subst this
        have hw := wordChar_ne hc
        show ((s.more x).getD (.start x)) ≠ _
        intro he
        have hst : Lexing.start x ≠ .punct t!"/" := by
          simp only [Lexing.start, hc, if_true]
          split
          · simp
          · split <;> simp
        cases hm : s.more x with
        | none => rw [hm] at he; exact hst he
        | some s' =>
          rw [hm] at he
          simp only [Option.getD_some] at he
          cases s <;> simp only [Lexing.more] at hm
          all_goals (repeat' split at hm)
          all_goals (try (injection hm with hm; rw [he] at hm))
          all_goals (try cases hm)
          injection hm with hm
          have := congrArg List.getLast? hm
          simp only [List.getLast?_append, List.getLast?_singleton] at this
          simp at this
          exact hw.1 this
  cases a with
  | nil =>
    simp only [List.nil_append, endSt, lexEnd, Option.some.injEq] at hs
    have := hl .white [c] (by simp) (by simp)
    simp only [lexEnd] at this
    exact this hs
  | cons x xs =>
    simp only [List.cons_append, endSt, Option.some.injEq] at hs
    exact hl _ (xs ++ [c]) (by simp) (by simp) hs

theorem Shown.tokens_eq {node t t' : Text} (h : Shown node t t') (hn : '*' ∉ node) :
    tokens t' = tokens t := by
  rcases h with rfl | ⟨a, c, b, hp, hc, rfl, rfl⟩
  · rfl
  · obtain ⟨s, hs, hcl, hne⟩ := word_closed hp hc
    have h1 : ∀ d ds, t!"(" ++ b = d :: ds → Ok (endSt (a ++ [c])) d := by
      intro d ds he x hx
      cases he
      rw [hs] at hx
      cases hx
      exact more_apart hcl (by decide)
    have h2 : ∀ d ds, t!"/*" ++ node ++ t!"*/" ++ (t!"(" ++ b) = d :: ds → Ok (endSt (a ++ [c])) d := by
      intro d ds he x hx
      cases he
      rw [hs] at hx
      cases hx
      exact more_slash hcl hne
    have h3 : ∀ d ds, t!"(" ++ b = d :: ds → Ok (endSt (t!"/*" ++ node ++ t!"*/")) d := by
      intro d ds he x hx
      rw [endSt_comment node hn] at hx
      cases hx
      rfl
    rw [tokens_glue h1, tokens_glue h2, tokens_glue h3]
    have : tokens (t!"/*" ++ node ++ t!"*/") = [] := by
      rw [tokens, lexemes_comment node hn]
      rfl
    rw [this, List.nil_append]

/-! ### Edits -/

/-- The same edit, or an insertion with a comment. -/
inductive EditShown (node : Text) : Edit → Edit → Prop
  | same (e : Edit) : EditShown node e e
  | before {p : Nat} {t t' : List Piece} : Shown node (renderPieces t) (renderPieces t') →
      EditShown node (.before p t) (.before p t')

/-- With comments. -/
def Options.shown (o : Options) : Options := { o with showAst := true }

theorem Each.same {α : Type} {R : α → α → Prop} (h : ∀ x, R x x) (xs : List α) : Each R xs xs := by
  induction xs with
  | nil => exact .nil
  | cons x xs ih => exact .cons (h x) ih

theorem Each.append {α β : Type} {R : α → β → Prop} {as cs : List α} {bs ds : List β} (h : Each R as bs)
    (h' : Each R cs ds) : Each R (as ++ cs) (bs ++ ds) := by
  induction h with
  | nil => exact h'
  | cons h _ ih => exact .cons h ih

theorem Each.imp {α β : Type} {R S : α → β → Prop} {as : List α} {bs : List β} (h : Each R as bs)
    (hi : ∀ a b, R a b → S a b) : Each S as bs := by
  induction h with
  | nil => exact .nil
  | cons h _ ih => exact .cons (hi _ _ h) ih

theorem word_snoc {t : Text} (h : wordText t = true) : ∃ a c, t = a ++ [c] ∧ wordChar c = true := by
  have hall : ∀ c ∈ t, wordChar c = true := List.all_eq_true.1 (by
    cases t with
    | nil => rfl
    | cons c cs => simp only [wordText, Bool.and_eq_true] at h; simp [h.1.1]; exact List.all_eq_true.1 h.2)
  have hne : t ≠ [] := by rintro rfl; cases h
  exact ⟨t.dropLast, t.getLast hne, (List.dropLast_concat_getLast hne).symm, hall _ (List.getLast_mem hne)⟩

theorem shown_call {node pre name post : Text} (hp : Plain pre) (hn : Plain name)
    (hw : wordText name = true) :
    Shown node (pre ++ name ++ (t!"(" ++ post))
      (pre ++ name ++ (t!"/*" ++ node ++ t!"*/" ++ (t!"(" ++ post))) := by
  obtain ⟨a, c, rfl, hc⟩ := word_snoc hw
  refine .inr ⟨pre ++ a, c, post, ?_, hc, ?_, ?_⟩
  · rw [List.append_assoc]
    exact hp.append hn
  · simp
  · simp

theorem nodeComment_off {o : Options} (h : o.showAst = false) (node : Text) : nodeComment o node = [] := by
  simp [nodeComment, h]

theorem nodeComment_shown (o : Options) (node : Text) :
    nodeComment o.shown node = t!"/*" ++ node ++ t!"*/" := rfl

theorem ExprSite.edits_around (s : ExprSite) (l : Lang) (opt : Bool) (n : Nat) :
    ∃ pre post tl, Plain pre ∧ ∀ o : Options, o.optimise = opt → s.edits l o n =
      [.before s.span.b [.txt (pre ++ s.fnName l opt ++ (nodeComment o s.node ++ (t!"(" ++ post)))], tl] := by
  let post1 := if l.cpp && s.self.sideEffects then exprLambdaPrefix s.self.cxx11Const (s.inputTy l) else []
  let suf1 := if l.cpp && s.self.sideEffects then exprLambdaSuffix s.self.cxx11Const else []
  let c2 := !l.cpp && s.self.lvalue && (s.inputTy l).getLast? == some '*'
  let post2 := post1 ++ if c2 then t!"&(" else []
  let suf2 := if c2 then t!")" ++ suf1 else suf1
  let post3 := post2 ++ if s.binOp == some .comma then t!"(" else []
  let suf3 := if s.binOp == some .comma then t!")" ++ suf2 else suf2
  let pre0 := match s.initListCast with
    | some ty => t!"static_cast<" ++ ty.name l ++ t!">("
    | none => []
  let castSuf := match s.initListCast with
    | some _ => t!")"
    | none => []
  refine ⟨(if s.precIdent then t!" " else []) ++ pre0, post3,
    .after s.span.e [.txt (suf3 ++ t!", "), .id n, .txt (t!")" ++ castSuf)], ?_, ?_⟩
  · refine Plain.append (by split <;> decide) ?_
    simp only [pre0]
    split
    · exact Plain.append (Plain.append (by decide) (BTy.name_plain l _)) (by decide)
    · exact .nil
  · rintro o rfl
    simp only [ExprSite.edits, post3, suf3, post2, suf2, post1, suf1, pre0, castSuf, c2]
    by_cases h1 : (l.cpp && s.self.sideEffects) = true <;>
    by_cases h2 : (!l.cpp && s.self.lvalue && (s.inputTy l).getLast? == some '*') = true <;>
    by_cases h3 : (s.binOp == some .comma) = true <;>
    cases s.initListCast <;> cases s.precIdent <;>
    simp only [h1, h2, h3, if_true, if_false, Bool.false_eq_true, List.append_assoc, List.nil_append,
      List.append_nil]

theorem Mutation.edits_shown (l : Lang) (o : Options) (first id : Nat) (m : Mutation)
    (ho : o.showAst = false) :
    Each (EditShown m.node) (m.apply l o first id).edits (m.apply l o.shown first id).edits := by
  have hs := fun t => (EditShown.same (node := m.node) t)
  cases m with
  | bin s =>
    simp only [Mutation.apply, BinSite.apply]
    split
    · exact .same hs _
    · simp only [BinSite.replaceOperator, nodeComment_off ho, nodeComment_shown]
      refine (Each.same hs _).append (.cons (.before ?_) (.same hs _))
      simp only [renderPieces, List.flatMap_cons, List.flatMap_nil, Piece.render, List.append_nil]
      have := shown_call (node := s.node) (post := (if l.cpp = true then
          if s.lhs.sideEffects = true then (lambdaPrefix (s.lhsTyText l), lambdaSuffix) else ([], [])
        else if s.op.isAssign = true then (t!"&(", t!")") else ([], [])).1) Plain.nil
        (s.fnName_plain l o.optimise) (s.name_word l o.optimise)
      simpa [Mutation.node, Options.shown] using this
  | un s =>
    simp only [Mutation.apply, UnSite.apply, UnSite.edits, nodeComment_off ho, nodeComment_shown]
    refine (Each.same hs _).append (.cons (.before ?_) (.same hs _))
    simp only [renderPieces, List.flatMap_cons, List.flatMap_nil, Piece.render, List.append_nil]
    have := fun post => shown_call (node := s.node) (post := post) Plain.nil
      (s.fnName_plain l o.optimise) (s.name_word l o.optimise)
    simpa [Mutation.node, Options.shown] using this _
  | expr s =>
    obtain ⟨pre, post, tl, hp, he⟩ := s.edits_around l o.optimise (id - first)
    simp only [Mutation.apply, ExprSite.apply]
    rw [he o rfl, he o.shown rfl, nodeComment_off ho, nodeComment_shown]
    refine .cons (.before ?_) (.same hs _)
    have := shown_call (node := s.node) (post := post) hp (s.fnName_plain l o.optimise)
      (s.name_word l o.optimise)
    simpa [renderPieces, Piece.render, Mutation.node] using this
  | stmt s =>
    simp only [Mutation.apply, StmtSite.apply, StmtSite.edits, nodeComment_off ho, nodeComment_shown]
    show Each _ _ (if o.track then _ else _)
    split
    · refine .cons (.before ?_) .nil
      have := shown_call (node := s.node) (post := natDec (id - first) ++ t!", 1); ") Plain.nil
        (name := t!"__dredd_record_covered_mutants") (by decide) (by decide)
      simpa [renderPieces, Piece.render, Mutation.node] using this
    · refine .cons (.before ?_) (.same hs _)
      have := shown_call (node := s.node) (post := natDec (id - first) ++ t!")) { ") (pre := t!"if (!")
        (by decide) (name := t!"__dredd_enabled_mutation") (by decide) (by decide)
      simpa [renderPieces, Piece.render, Mutation.node] using this

/-- The same edit, or an insertion with a comment. -/
def EditOk (e e' : Edit) : Prop := ∃ node, '*' ∉ node ∧ EditShown node e e'

theorem EditOk.refl (e : Edit) : EditOk e e := ⟨[], by simp, .same e⟩

theorem Mutation.decls_shown (l : Lang) (o : Options) (first id : Nat) (m : Mutation) :
    (m.apply l o.shown first id).decls = (m.apply l o first id).decls := by
  cases m with
  | bin s =>
    simp only [Mutation.apply, BinSite.apply]
    split <;> rfl
  | un s => rfl
  | expr s => rfl
  | stmt s => rfl

theorem preludeText_shown (l : Lang) (o : Options) (first n : Nat) :
    preludeText l o.shown first n = preludeText l o first n := rfl

theorem fileEdits_shown (o : Options) (first : Nat) (f : SourceFile) (ho : o.showAst = false)
    (hN : NodesOk o.shown f) : Each EditOk (fileEdits o first f) (fileEdits o.shown first f) := by
  have hd : ∀ id ms, declsFrom f.lang o.shown first id ms = declsFrom f.lang o first id ms := by
    intro id ms
    induction ms generalizing id with
    | nil => rfl
    | cons m ms ih =>
      simp only [declsFrom, m.decls_shown]
      rw [show o.shown.optimise = o.optimise from rfl, ih]
  have he : ∀ id ms, (∀ m ∈ ms, m ∈ f.tree.post) →
      Each EditOk (editsFrom f.lang o first id ms) (editsFrom f.lang o.shown first id ms) := by
    intro id ms hms
    induction ms generalizing id with
    | nil => exact .nil
    | cons m ms ih =>
      refine Each.append ((m.edits_shown f.lang o first id ho).imp fun a b h => ?_)
        (ih _ fun x hx => hms x (by simp [hx]))
      exact ⟨_, hN rfl m (hms m (by simp)), h⟩
  unfold fileEdits finishEdits
  dsimp only
  rw [hd, preludeText_shown]
  exact (((he first f.tree.post fun _ h => h).append (.same EditOk.refl _)).append
    (.same EditOk.refl _)).append (.same EditOk.refl _)

/-! ### What is put at an offset -/

theorem EditOk.same_else {e e' : Edit} (h : EditOk e e') (p : Nat) :
    e'.afterAt p = e.afterAt p ∧ e'.replaceAt p = e.replaceAt p ∧ e'.removesAt p = e.removesAt p := by
  obtain ⟨_, _, h⟩ := h
  cases h <;> exact ⟨rfl, rfl, rfl⟩

theorem EditOk.beforeAt {e e' : Edit} (h : EditOk e e') (p : Nat) :
    CommentsAdded (e.beforeAt p) (e'.beforeAt p) ∧ tokens (e'.beforeAt p) = tokens (e.beforeAt p) := by
  obtain ⟨node, hn, h⟩ := h
  cases h with
  | same => exact ⟨.refl _, rfl⟩
  | before h =>
    simp only [Edit.beforeAt]
    split
    · exact ⟨h.added hn, h.tokens_eq hn⟩
    · exact ⟨.nil, rfl⟩

theorem Each.same_else {es es' : List Edit} (h : Each EditOk es es') (p : Nat) :
    afters es' p = afters es p ∧ replacements es' p = replacements es p ∧ removed es' p = removed es p := by
  induction h with
  | nil => exact ⟨rfl, rfl, rfl⟩
  | cons h _ ih =>
    obtain ⟨h1, h2, h3⟩ := h.same_else p
    simp only [afters, replacements, removed, List.flatMap_cons, List.any_cons] at ih ⊢
    rw [h1, h2, h3, ih.1, ih.2.1, ih.2.2]
    exact ⟨rfl, rfl, rfl⟩

theorem Each.befores_added {es es' : List Edit} (h : Each EditOk es es') (p : Nat) :
    CommentsAdded (befores es p) (befores es' p) := by
  induction h with
  | nil => exact .nil
  | cons h _ ih =>
    rw [befores_cons, befores_cons]
    exact ih.append (h.beforeAt p).1

theorem Shut.tokens {a b : Text} (h : Shut a) : tokens (a ++ b) = tokens a ++ tokens b := by
  rcases h with rfl | h
  · rfl
  · obtain ⟨s, hs, hd⟩ := h.done
    refine tokens_glue fun c cs _ x hx => ?_
    rw [hs] at hx
    cases hx
    exact hd c

theorem Each.befores_tokens {es es' : List Edit} (h : Each EditOk es es') (p : Nat)
    (h1 : ∀ e ∈ es, Shut (e.beforeAt p)) (h2 : ∀ e ∈ es', Shut (e.beforeAt p)) :
    tokens (befores es' p) = tokens (befores es p) := by
  induction h with
  | nil => rfl
  | @cons e e' es es' h hh ih =>
    have s1 : Shut (befores es p) := Shut.flatMap fun x hx => h1 x (by simp [List.mem_reverse.1 hx])
    have s2 : Shut (befores es' p) := Shut.flatMap fun x hx => h2 x (by simp [List.mem_reverse.1 hx])
    rw [befores_cons, befores_cons, s1.tokens, s2.tokens, (h.beforeAt p).2,
      ih (fun x hx => h1 x (by simp [hx])) fun x hx => h2 x (by simp [hx])]

theorem Each.slot_added {es es' : List Edit} (h : Each EditOk es es') (p : Nat) :
    CommentsAdded (slot es p) (slot es' p) := by
  obtain ⟨h1, h2, -⟩ := h.same_else p
  unfold slot
  rw [h1, h2]
  exact ((h.befores_added p).append (.refl _)).append (.refl _)

theorem Each.rewrite_added {es es' : List Edit} (h : Each EditOk es es') (src : Text) :
    CommentsAdded (rewrite src es) (rewrite src es') := by
  have : ∀ o, CommentsAdded (rewriteFrom es o src) (rewriteFrom es' o src) := by
    induction src with
    | nil => exact fun o => h.slot_added o
    | cons c cs ih =>
      intro o
      rw [rewriteFrom, rewriteFrom, (h.same_else o).2.2]
      exact ((h.slot_added o).append (.refl _)).append (ih _)
  exact this 0

theorem itemsOf_tokens {es es' : List Edit} (h : ∀ p, tokens (slot es' p) = tokens (slot es p))
    (hr : ∀ p, removed es' p = removed es p) (L : List Lexeme) (o : Nat) :
    ((LItem.new (itemsOf es' o L)).filter fun x => x.1.isToken).map (·.2) =
      ((LItem.new (itemsOf es o L)).filter fun x => x.1.isToken).map (·.2) := by
  have h' := h
  unfold tokens at h
  induction L generalizing o with
  | nil => simpa [itemsOf, LItem.new] using h o
  | cons x L ih =>
    simp only [itemsOf, LItem.new, List.filter_append, List.map_append, h o, hr o]
    congr 1
    cases removed es o
    · simp only [Bool.false_eq_true, if_false, LItem.new, List.filter_cons]
      split
      · simp only [List.map_cons, ih]
      · exact ih _
    · exact ih _

theorem rewrite_tokens (o : Options) (first : Nat) (f : SourceFile) (ho : o.showAst = false)
    (hN : NodesOk o.shown f) (hT : Tokenised f) :
    tokens (rewrite f.src (fileEdits o.shown first f)) = tokens (rewrite f.src (fileEdits o first f)) := by
  have hN0 : NodesOk o f := fun h => by rw [ho] at h; cases h
  have hE := fileEdits_shown o first f ho hN
  simp only [tokens, fileEdits_items hN hT, fileEdits_items hN0 hT]
  refine itemsOf_tokens (fun p => ?_) (fun p => (hE.same_else p).2.2) _ _
  obtain ⟨h1, h2, -⟩ := hE.same_else p
  unfold slot
  rw [List.append_assoc, List.append_assoc, (befores_shut hN p).1.tokens, (befores_shut hN0 p).1.tokens,
    h1, h2, hE.befores_tokens p (fun e he => (before_at hN0 he p).1) fun e he => (before_at hN he p).1]

end Dredd
