/-
The texts that are inserted: none of them ends within a comment or literal, and nothing that
follows belongs to their last token.
-/
import Verif.Proofs.LexTexts
import Verif.Proofs.Run
import Verif.Spec.Align

namespace Dredd

theorem natDec_plain (n : Nat) : Plain (natDec n) := plain_of_dull (natDec_dull n)

theorem BTy.name_dull (l : Lang) (t : BTy) : (t.name l).all dullChar = true := by
  cases t <;> simp only [BTy.name] <;> first | decide | (split <;> decide)

theorem BTy.name_plain (l : Lang) (t : BTy) : Plain (t.name l) := plain_of_dull (t.name_dull l)

theorem underscore_dull {t : Text} (h : t.all dullChar = true) :
    (spaceToUnderscore t).all dullChar = true := by
  rw [List.all_eq_true] at h ⊢
  intro c hc
  simp only [spaceToUnderscore, List.mem_map] at hc
  obtain ⟨d, hd, rfl⟩ := hc
  split
  · decide
  · exact h d hd

theorem dull_append {a b : Text} (ha : a.all dullChar = true) (hb : b.all dullChar = true) :
    (a ++ b).all dullChar = true := by
  rw [List.all_append, ha, hb]; rfl

theorem underscore_name (l : Lang) (t : BTy) : Plain (spaceToUnderscore (t.name l)) :=
  plain_of_dull (underscore_dull (t.name_dull l))

theorem BOp.fnName_plain (op : BOp) : Plain op.fnName := by cases op <;> decide
theorem UOp.fnName_plain (op : UOp) : Plain op.fnName := by cases op <;> decide

/-- Goals that say that a text built from parts begins and ends outside of comments and
literals. -/
macro "plain" : tactic => `(tactic| repeat' first
  | with_reducible assumption
  | with_reducible exact natDec_plain _
  | with_reducible exact BTy.name_plain _ _
  | with_reducible exact underscore_name _ _
  | with_reducible exact BOp.fnName_plain _
  | with_reducible exact UOp.fnName_plain _
  | with_reducible exact Plain.nil
  | with_reducible apply Plain.append
  | split
  | decide)

theorem operandSuffix_plain (e : ExprInfo) {a b c : Text} (ha : Plain a) (hb : Plain b) (hc : Plain c) :
    Plain (operandSuffix e a b c) := by
  unfold operandSuffix; plain

theorem BinSite.fnName_plain (s : BinSite) (l : Lang) (opt : Bool) : Plain (s.fnName l opt) := by
  unfold BinSite.fnName
  have h : Plain (spaceToUnderscore
      ((if s.op.isAssign && s.lhs.volatile then t!"volatile " else []) ++ s.lhs.ty.name l)) := by
    refine plain_of_dull (underscore_dull (dull_append ?_ (s.lhs.ty.name_dull l)))
    split <;> decide
  plain
  all_goals exact operandSuffix_plain _ (by decide) (by decide) (by decide)

theorem UnSite.fnName_plain (s : UnSite) (l : Lang) (opt : Bool) : Plain (s.fnName l opt) := by
  unfold UnSite.fnName; plain

theorem ExprSite.fnName_plain (s : ExprSite) (l : Lang) (opt : Bool) : Plain (s.fnName l opt) := by
  unfold ExprSite.fnName ExprSite.optSpecifier; plain

theorem nodeComment_plain (o : Options) (node : Text) (h : o.showAst = true → '*' ∉ node) :
    Plain (nodeComment o node) := by
  unfold nodeComment
  split
  · rename_i hs
    have h := h hs
    have : ∀ t : Text, '*' ∉ t → LexMode.run (.block false) t = .block false := by
      intro t ht
      induction t with
      | nil => rfl
      | cons c cs ih =>
        have hc : c ≠ '*' := fun e => ht (by simp [e])
        have : LexMode.step (.block false) c = .block false := by simp [LexMode.step, hc]
        show LexMode.run (LexMode.step (.block false) c) cs = _
        rw [this]
        exact ih fun hm => ht (List.mem_cons_of_mem _ hm)
    unfold Plain
    rw [LexMode.run_append, LexMode.run_append, show LexMode.run .code t!"/*" = .block false from rfl, this _ h]
    rfl
  · rfl

theorem cppTypeModifiers_plain (e : ExprInfo) {t : Text} (h : Plain t) :
    Plain (cppTypeModifiers e t) := by
  unfold cppTypeModifiers; plain

theorem cTypeModifiers_plain (e : ExprInfo) {t : Text} (h : Plain t) :
    Plain (cTypeModifiers e t) := by
  unfold cTypeModifiers; plain

theorem BinSite.lhsTyText_plain (s : BinSite) (l : Lang) : Plain (s.lhsTyText l) := by
  unfold BinSite.lhsTyText; dsimp only; plain

theorem BinSite.resTyText_plain (s : BinSite) (l : Lang) : Plain (s.resTyText l) := by
  unfold BinSite.resTyText; dsimp only; plain

theorem UnSite.inputTy_plain (s : UnSite) (l : Lang) : Plain (s.inputTy l) := by
  unfold UnSite.inputTy
  split
  · exact cppTypeModifiers_plain _ (BTy.name_plain ..)
  · exact cTypeModifiers_plain _ (BTy.name_plain ..)

theorem UnSite.resTyText_plain (s : UnSite) (l : Lang) : Plain (s.resTyText l) := by
  unfold UnSite.resTyText
  split
  · exact cppTypeModifiers_plain _ (BTy.name_plain ..)
  · exact BTy.name_plain ..

theorem ExprSite.inputTy_plain (s : ExprSite) (l : Lang) : Plain (s.inputTy l) := by
  unfold ExprSite.inputTy
  split
  · exact cppTypeModifiers_plain _ (BTy.name_plain ..)
  · exact cTypeModifiers_plain _ (BTy.name_plain ..)

/-! ### Texts put before and after -/

/-- Characters with which the texts that are put before something begin. -/
def headChar (c : Char) : Bool := c == '_' || c == 's' || c == 'i' || c == '[' || c == ' '

/-- Empty, or a text that begins with one of these characters and seals. -/
def HeadTxt (t : Text) : Prop := t = [] ∨ (Seals t ∧ ∃ c cs, t = c :: cs ∧ headChar c = true)

/-- Empty, or a text that seals and begins with a character that seals. -/
def TailTxt (t : Text) : Prop := t = [] ∨ (Seals t ∧ ∃ c cs, t = c :: cs ∧ sealChar c = true)

theorem HeadTxt.nil : HeadTxt [] := .inl rfl
theorem TailTxt.nil : TailTxt [] := .inl rfl

theorem HeadTxt.append {a b : Text} (ha : HeadTxt a) (hb : HeadTxt b) : HeadTxt (a ++ b) := by
  rcases ha with rfl | ⟨h1, c, cs, rfl, h2⟩
  · exact hb
  · rcases hb with rfl | ⟨h3, -⟩
    · rw [List.append_nil]; exact .inr ⟨h1, c, cs, rfl, h2⟩
    · exact .inr ⟨Seals.append h1.plain h3, c, cs ++ b, rfl, h2⟩

theorem TailTxt.append {a b : Text} (ha : TailTxt a) (hb : TailTxt b) : TailTxt (a ++ b) := by
  rcases ha with rfl | ⟨h1, c, cs, rfl, h2⟩
  · exact hb
  · rcases hb with rfl | ⟨h3, -⟩
    · rw [List.append_nil]; exact .inr ⟨h1, c, cs, rfl, h2⟩
    · exact .inr ⟨Seals.append h1.plain h3, c, cs ++ b, rfl, h2⟩

theorem seals_char {c : Char} (h : sealChar c = true) : Seals [c] := ⟨[], c, rfl, rfl, h⟩

theorem seals_paren : Seals t!"(" := seals_char (by decide)

theorem lambdaPrefix_seals {t : Text} (h : Plain t) : Seals (lambdaPrefix t) := by
  refine ⟨t!"[&]() -> " ++ t ++ t!" { return static_cast<" ++ t ++ t!">", '(', ?_, by plain, by decide⟩
  simp [lambdaPrefix]

theorem exprLambdaPrefix_seals {t : Text} (k : Bool) (h : Plain t) : Seals (exprLambdaPrefix k t) := by
  unfold exprLambdaPrefix
  cases k
  · exact ⟨t!"[&]() -> " ++ t ++ t!" { return " ++ t!"static_cast<" ++ t ++ t!">", '(', by simp,
      by plain, by decide⟩
  · exact ⟨t!"[&]() -> " ++ t ++ t!" { return", ' ', by simp, by plain, by decide⟩

theorem callId_tail {a z : Text} (n : Nat) (ha : TailTxt a) (hz : TailTxt z) :
    TailTxt (renderPieces [.txt (a ++ t!", "), .id n, .txt (t!")" ++ z)]) := by
  have e : renderPieces [.txt (a ++ t!", "), .id n, .txt (t!")" ++ z)] =
      a ++ ((t!", " ++ natDec n ++ t!")") ++ z) := by simp [renderPieces, Piece.render]
  rw [e]
  refine ha.append (TailTxt.append (.inr ⟨⟨t!", " ++ natDec n, ')', rfl, by plain, by decide⟩, ',',
    _, rfl, by decide⟩) hz)

theorem callId_tail' {a : Text} (n : Nat) (ha : TailTxt a) :
    TailTxt (renderPieces [.txt (a ++ t!", "), .id n, .txt t!")"]) := callId_tail n ha .nil

theorem call_head {name z : Text} (hn : Plain name) (hz : HeadTxt z ∨ Seals z)
    (hc : ∃ c cs, name = c :: cs ∧ headChar c = true) :
    HeadTxt (renderPieces [.txt (name ++ t!"(" ++ z)]) ∧
      renderPieces [.txt (name ++ t!"(" ++ z)] ≠ [] := by
  have e : renderPieces [.txt (name ++ t!"(" ++ z)] = name ++ t!"(" ++ z := by
    simp [renderPieces, Piece.render]
  rw [e]
  obtain ⟨c, cs, rfl, h⟩ := hc
  refine ⟨.inr ⟨?_, c, _, rfl, h⟩, by simp⟩
  have h1 : Seals ((c :: cs) ++ t!"(") := Seals.append hn seals_paren
  have hz' : z = [] ∨ Seals z := by
    rcases hz with (hz | ⟨hz, -⟩) | hz
    · exact .inl hz
    · exact .inr hz
    · exact .inr hz
  rcases hz' with rfl | hz'
  · rw [List.append_nil]; exact h1
  · exact Seals.append h1.plain hz'

theorem BinSite.fnName_head (s : BinSite) (l : Lang) (opt : Bool) :
    ∃ c cs, s.fnName l opt = c :: cs ∧ headChar c = true := by
  refine ⟨'_', _, rfl, by decide⟩

theorem UnSite.fnName_head (s : UnSite) (l : Lang) (opt : Bool) :
    ∃ c cs, s.fnName l opt = c :: cs ∧ headChar c = true := by
  refine ⟨'_', _, rfl, by decide⟩

theorem ExprSite.fnName_head (s : ExprSite) (l : Lang) (opt : Bool) :
    ∃ c cs, s.fnName l opt = c :: cs ∧ headChar c = true := by
  refine ⟨'_', _, rfl, by decide⟩

theorem head_append {a b : Text} (h : ∃ c cs, a = c :: cs ∧ headChar c = true) :
    ∃ c cs, a ++ b = c :: cs ∧ headChar c = true := by
  obtain ⟨c, cs, rfl, h⟩ := h
  exact ⟨c, cs ++ b, rfl, h⟩

/-- The kinds of edits. -/
inductive EditKind (l : Lang) (o : Options) (m : Mutation) : Edit → Prop
  | before {p t} : p ∈ m.opensAt → HeadTxt (renderPieces t) → EditKind l o m (.before p t)
  | after {p t} : p ∈ m.closesAt → TailTxt (renderPieces t) → EditKind l o m (.after p t)
  | closing {s t} : m = .stmt s → o.track = false → TailTxt (renderPieces t) →
      (s.extComment = true → s.extSemi = false → ∃ cs, renderPieces t = '\n' :: cs) →
      EditKind l o m (.after s.extEnd t)
  | comma {s q} : m = .bin s → s.opOff = some q → m.symbol l = some ⟨q, q + s.op.str.length⟩ →
      EditKind l o m (.replace q s.op.str.length t!",")
  | drop {s q} : m = .un s → s.opOff = some q → m.symbol l = some ⟨q, q + s.op.str.length⟩ →
      EditKind l o m (.replace q s.op.str.length [])

theorem lambdaSuffix_tail : TailTxt lambdaSuffix :=
  .inr ⟨⟨t!"); ", '}', rfl, by decide, by decide⟩, ')', _, rfl, by decide⟩

theorem exprLambdaSuffix_tail (k : Bool) : TailTxt (exprLambdaSuffix k) := by
  cases k
  · exact .inr ⟨⟨t!"); ", '}', rfl, by decide, by decide⟩, ')', _, rfl, by decide⟩
  · exact .inr ⟨⟨t!"; ", '}', rfl, by decide, by decide⟩, ';', _, rfl, by decide⟩

theorem paren_tail : TailTxt t!")" := .inr ⟨seals_char (by decide), ')', _, rfl, by decide⟩

theorem amp_seals : Seals t!"&(" := ⟨t!"&", '(', rfl, by decide, by decide⟩

theorem wrapCall_kind {l : Lang} {o : Options} {s : BinSite} {sp : Span} (n : Nat) (suf : Text)
    (hsuf : Plain suf) (hb : sp.b ∈ (Mutation.bin s).opensAt) (he : sp.e ∈ (Mutation.bin s).closesAt) :
    ∀ e ∈ wrapCall (s.fnName l o.optimise ++ suf) sp n, EditKind l o (.bin s) e := by
  intro e h
  simp only [wrapCall, List.mem_cons, List.not_mem_nil, or_false] at h
  rcases h with rfl | rfl
  · refine .before hb ?_
    have := (call_head (z := []) ((s.fnName_plain l o.optimise).append hsuf) (.inl .nil)
      (head_append (s.fnName_head l o.optimise))).1
    simpa using this
  · refine .after he ?_
    exact callId_tail' (a := []) n .nil

/-- The text put before a mutated expression. -/
theorem ExprSite.edits_texts (s : ExprSite) (l : Lang) (o : Options) (n : Nat)
    (hn : o.showAst = true → '*' ∉ s.node) :
    ∃ pre suf, s.edits l o n = [.before s.span.b pre, .after s.span.e suf] ∧
      HeadTxt (renderPieces pre) ∧ renderPieces pre ≠ [] ∧ TailTxt (renderPieces suf) ∧
      (s.precIdent = true → ∃ cs, renderPieces pre = ' ' :: cs) := by
  have hq : Plain (s.fnName l o.optimise ++ nodeComment o s.node) :=
    (s.fnName_plain l o.optimise).append (nodeComment_plain o s.node hn)
  have hty := s.inputTy_plain l
  -- the prefix up to the comma case
  have key : ∀ (P3 S3 : Text), HeadTxt P3 → P3 ≠ [] → TailTxt S3 →
      ∀ es, es = (
        let (prefix4, castSuf) : Text × Text :=
          match s.initListCast with
          | some ty => (t!"static_cast<" ++ ty.name l ++ t!">(" ++ P3, t!")")
          | none => (P3, [])
        let prefix5 := if s.precIdent then t!" " ++ prefix4 else prefix4
        ([ .before s.span.b [.txt prefix5],
          .after s.span.e [.txt (S3 ++ t!", "), .id n, .txt (t!")" ++ castSuf)] ] : List Edit)) →
      ∃ pre suf, es = [.before s.span.b pre, .after s.span.e suf] ∧
        HeadTxt (renderPieces pre) ∧ renderPieces pre ≠ [] ∧ TailTxt (renderPieces suf) ∧
        (s.precIdent = true → ∃ cs, renderPieces pre = ' ' :: cs) := by
    intro P3 S3 hP hne hS es hes
    have hsp : HeadTxt t!" " := .inr ⟨seals_char (by decide), _, _, rfl, by decide⟩
    have e1 : ∀ t : Text, renderPieces [.txt t] = t := by simp [renderPieces, Piece.render]
    cases hc : s.initListCast with
    | none =>
      rw [hc] at hes
      refine ⟨_, _, hes, ?_, ?_, callId_tail n hS .nil, ?_⟩ <;> rw [e1]
      · split
        · exact hsp.append hP
        · exact hP
      · split
        · simp
        · exact hne
      · intro h; rw [if_pos h]; exact ⟨_, rfl⟩
    | some ty =>
      rw [hc] at hes
      have hP4 : HeadTxt (t!"static_cast<" ++ ty.name l ++ t!">(" ++ P3) :=
        HeadTxt.append (.inr ⟨⟨t!"static_cast<" ++ ty.name l ++ t!">", '(', by simp, by plain,
          by decide⟩, 's', _, rfl, by decide⟩) hP
      refine ⟨_, _, hes, ?_, ?_, callId_tail n hS paren_tail, ?_⟩ <;> rw [e1]
      · split
        · exact hsp.append hP4
        · exact hP4
      · split <;> simp
      · intro h; rw [if_pos h]; exact ⟨_, rfl⟩
  have grow : ∀ {a b : Text}, HeadTxt a ∧ a ≠ [] → Seals b → HeadTxt (a ++ b) ∧ a ++ b ≠ [] := by
    rintro a b ⟨h1, h2⟩ hb
    rcases h1 with rfl | ⟨h1, c, cs, rfl, h3⟩
    · exact absurd rfl h2
    · exact ⟨.inr ⟨Seals.append h1.plain hb, c, _, rfl, h3⟩, by simp⟩
  have h0 : HeadTxt (s.fnName l o.optimise ++ nodeComment o s.node ++ t!"(") ∧
      s.fnName l o.optimise ++ nodeComment o s.node ++ t!"(" ≠ [] := by
    obtain ⟨c, cs, e, h⟩ := head_append (b := nodeComment o s.node ++ t!"(") (s.fnName_head l o.optimise)
    rw [List.append_assoc] 
    refine ⟨.inr ⟨?_, c, cs, e, h⟩, by rw [e]; simp⟩
    rw [← List.append_assoc]
    exact Seals.append hq seals_paren
  have hL := exprLambdaPrefix_seals s.self.cxx11Const hty
  have hLs := exprLambdaSuffix_tail s.self.cxx11Const
  unfold ExprSite.edits
  dsimp only
  by_cases c1 : (l.cpp && s.self.sideEffects) = true <;>
  by_cases c2 : (!l.cpp && s.self.lvalue && (s.inputTy l).getLast? == some '*') = true <;>
  by_cases c3 : (s.binOp == some .comma) = true <;>
  simp only [c1, c2, c3, if_true, if_false, Bool.false_eq_true]
  · exact key _ _ (grow (grow (grow h0 hL) amp_seals) seals_paren).1
      (grow (grow (grow h0 hL) amp_seals) seals_paren).2
      (paren_tail.append (paren_tail.append hLs)) _ rfl
  · exact key _ _ (grow (grow h0 hL) amp_seals).1 (grow (grow h0 hL) amp_seals).2
      (paren_tail.append hLs) _ rfl
  · exact key _ _ (grow (grow h0 hL) seals_paren).1 (grow (grow h0 hL) seals_paren).2
      (paren_tail.append hLs) _ rfl
  · exact key _ _ (grow h0 hL).1 (grow h0 hL).2 hLs _ rfl
  · exact key _ _ (grow (grow h0 amp_seals) seals_paren).1
      (grow (grow h0 amp_seals) seals_paren).2 (paren_tail.append (paren_tail.append .nil)) _ rfl
  · exact key _ _ (grow h0 amp_seals).1 (grow h0 amp_seals).2 (paren_tail.append .nil) _ rfl
  · exact key _ _ (grow h0 seals_paren).1 (grow h0 seals_paren).2 (paren_tail.append .nil) _ rfl
  · exact key _ _ h0.1 h0.2 .nil _ rfl

/-- The texts put before and after a mutated unary operator. -/
theorem UnSite.edits_texts (s : UnSite) (l : Lang) (o : Options) (n : Nat)
    (hn : o.showAst = true → '*' ∉ s.node) :
    ∃ pre suf, s.edits l o n = replaceSymbol s.opOff s.op.str.length [] ++
        [.before s.span.b pre, .after s.span.e suf] ∧
      HeadTxt (renderPieces pre) ∧ renderPieces pre ≠ [] ∧
      TailTxt (renderPieces suf) ∧ renderPieces suf ≠ [] := by
  have hq : Plain (s.fnName l o.optimise ++ nodeComment o s.node) :=
    (s.fnName_plain l o.optimise).append (nodeComment_plain o s.node hn)
  have hL := exprLambdaPrefix_seals s.sub.cxx11Const (s.inputTy_plain l)
  have hLs := exprLambdaSuffix_tail s.sub.cxx11Const
  unfold UnSite.edits
  dsimp only
  have call : ∀ z, z = [] ∨ Seals z → HeadTxt (renderPieces
      [.txt (s.fnName l o.optimise ++ nodeComment o s.node ++ t!"(" ++ z)]) ∧
      renderPieces [.txt (s.fnName l o.optimise ++ nodeComment o s.node ++ t!"(" ++ z)] ≠ [] := by
    intro z hz
    refine call_head hq ?_ (head_append (s.fnName_head l o.optimise))
    rcases hz with rfl | hz
    · exact .inl .nil
    · exact .inr hz
  by_cases c1 : (l.cpp && s.self.sideEffects) = true <;>
  by_cases c2 : (!l.cpp && s.op.isIncDec) = true <;>
  simp only [c1, c2, if_true, if_false, Bool.false_eq_true, List.append_nil]
  · simp only [Bool.and_eq_true, Bool.not_eq_true'] at c1 c2
    rw [c1.1] at c2; simp at c2
  · exact ⟨_, _, rfl, (call _ (.inr hL)).1, (call _ (.inr hL)).2, callId_tail' n hLs,
      by simp [renderPieces, Piece.render]⟩
  · have := call _ (.inr amp_seals)
    refine ⟨_, _, rfl, ?_, ?_, ?_, ?_⟩
    · simpa using this.1
    · simpa using this.2
    · exact callId_tail' n paren_tail
    · simp [renderPieces, Piece.render]
  · have := call [] (.inl rfl)
    refine ⟨_, _, rfl, ?_, ?_, ?_, ?_⟩
    · simpa using this.1
    · simpa using this.2
    · exact callId_tail' (a := []) n .nil
    · simp [renderPieces, Piece.render]

theorem Mutation.edit_kind (l : Lang) (o : Options) (first id : Nat) (m : Mutation)
    (hn : o.showAst = true → '*' ∉ m.node) :
    ∀ e ∈ (m.apply l o first id).edits, EditKind l o m e := by
  intro e he
  cases m with
  | expr s =>
    obtain ⟨pre, suf, h1, h2, -, h3, -⟩ := s.edits_texts l o (id - first) hn
    have he : e ∈ s.edits l o (id - first) := he
    rw [h1] at he
    simp only [List.mem_cons, List.not_mem_nil, or_false] at he
    rcases he with rfl | rfl
    · exact .before (by simp [Mutation.opensAt]) h2
    · exact .after (by simp [Mutation.closesAt]) h3
  | stmt s =>
    have hq := nodeComment_plain o s.node hn
    simp only [Mutation.apply, StmtSite.apply, StmtSite.edits] at he
    split at he
    · obtain rfl := List.mem_singleton.1 he
      refine .before (by simp [Mutation.opensAt]) (.inr ⟨⟨t!"__dredd_record_covered_mutants" ++
        nodeComment o s.node ++ t!"(" ++ natDec (id - first) ++ t!", 1);", ' ', ?_, by plain, by decide⟩,
        '_', _, rfl, by decide⟩)
      simp [renderPieces, Piece.render]
    · rename_i ht
      simp only [List.mem_cons, List.not_mem_nil, or_false] at he
      rcases he with rfl | rfl
      · refine .before (by simp [Mutation.opensAt]) (.inr ⟨⟨t!"if (!__dredd_enabled_mutation" ++
          nodeComment o s.node ++ t!"(" ++ natDec (id - first) ++ t!")) {", ' ', ?_, by plain, by decide⟩,
          'i', _, rfl, by decide⟩)
        simp [renderPieces, Piece.render]
      · refine .closing rfl (by simpa using ht) ?_ ?_
        · unfold StmtSite.closing
          dsimp only
          split <;> split
          · exact .inr ⟨⟨t!"\n;  ", '}', rfl, by decide, by decide⟩, _, _, rfl, by decide⟩
          · exact .inr ⟨⟨t!"\n ", '}', rfl, by decide, by decide⟩, _, _, rfl, by decide⟩
          · exact .inr ⟨⟨t!";  ", '}', rfl, by decide, by decide⟩, _, _, rfl, by decide⟩
          · exact .inr ⟨⟨t!" ", '}', rfl, by decide, by decide⟩, _, _, rfl, by decide⟩
        · intro h1 h2
          simp [StmtSite.closing, h1, h2, renderPieces, Piece.render]
  | un s =>
    obtain ⟨pre, suf, h1, h2, -, h3, -⟩ := s.edits_texts l o (id - first) hn
    have he : e ∈ s.edits l o (id - first) := he
    rw [h1] at he
    rcases List.mem_append.1 he with he | he
    · cases hq : s.opOff with
      | none => rw [hq] at he; cases he
      | some q =>
        rw [hq] at he
        obtain rfl := List.mem_singleton.1 he
        exact .drop rfl hq (by simp [Mutation.symbol, hq])
    · simp only [List.mem_cons, List.not_mem_nil, or_false] at he
      rcases he with rfl | rfl
      · exact .before (by simp [Mutation.opensAt]) h2
      · exact .after (by simp [Mutation.closesAt]) h3
  | bin s =>
    simp only [Mutation.apply, BinSite.apply] at he
    by_cases hc : (!l.cpp && s.op.isLogical) = true
    · rw [if_pos hc] at he
      simp only [BinSite.applyCLogical] at he
      have w1 := wrapCall_kind (l := l) (o := o) (s := s) (sp := s.lhsSpan) (id - first) t!"_lhs" (by decide)
        (by simp [Mutation.opensAt]) (by simp [Mutation.closesAt])
      have w2 := wrapCall_kind (l := l) (o := o) (s := s) (sp := s.rhsSpan) (id - first) t!"_rhs" (by decide)
        (by simp [Mutation.opensAt]) (by simp [Mutation.closesAt])
      have w3 := wrapCall_kind (l := l) (o := o) (s := s) (sp := s.span) (id - first) t!"_outer" (by decide)
        (by simp [Mutation.opensAt]) (by simp [Mutation.closesAt])
      rcases List.mem_append.1 he with he | he
      · split at he
        · cases he
        · rcases List.mem_append.1 he with he | he
          · exact w1 e he
          · exact w2 e he
      · exact w3 e he
    · rw [if_neg hc] at he
      have hq : Plain (s.fnName l o.optimise ++ nodeComment o s.node) :=
        (s.fnName_plain l o.optimise).append (nodeComment_plain o s.node hn)
      have hL := lambdaPrefix_seals (s.lhsTyText_plain l)
      have hR := lambdaPrefix_seals (BTy.name_plain l s.rhs.ty)
      simp only [BinSite.replaceOperator] at he
      rcases List.mem_append.1 he with he | he
      · cases hq : s.opOff with
        | none => rw [hq] at he; cases he
        | some q =>
          rw [hq] at he
          obtain rfl := List.mem_singleton.1 he
          exact .comma rfl hq (by simp only [Mutation.symbol, hq, if_neg hc]; rfl)
      · simp only [List.mem_cons, List.not_mem_nil, or_false] at he
        have e1 : ∀ t : Text, renderPieces [.txt t] = t := by simp [renderPieces, Piece.render]
        rcases he with rfl | rfl | rfl | rfl
        · refine .before (by simp [Mutation.opensAt]) (call_head hq ?_
            (head_append (s.fnName_head l o.optimise))).1
          split <;> split
          · exact .inr hL
          · exact .inl .nil
          · exact .inr amp_seals
          · exact .inl .nil
        · refine .after (by simp [Mutation.closesAt]) ?_
          rw [e1]
          split <;> split
          · exact lambdaSuffix_tail
          · exact .nil
          · exact paren_tail
          · exact .nil
        · refine .before (by simp [Mutation.opensAt]) ?_
          rw [e1]
          split
          · exact .inr ⟨hR, _, _, rfl, by decide⟩
          · exact .nil
        · refine .after (by simp [Mutation.closesAt]) (callId_tail' _ ?_)
          split
          · exact lambdaSuffix_tail
          · exact .nil

end Dredd
