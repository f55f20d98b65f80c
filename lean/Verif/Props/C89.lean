/-
C89: the replacement that the query script shows reads as the operator that is applied, with the
operands of the original expression.
-/
import Verif.Spec.Reading
import Verif.Props.C84
import Verif.Proofs.Comments
import Verif.Proofs.GrammarLex

namespace Dredd
open Query

/-! ### Tokens of what is shown -/

theorem ends_ok {t : Text} (h : EndsWithToken t) {c : Char} (hc : c = ' ' ∨ c = '\n' ∨ c = ')') :
    Ok (endSt t) c := by
  obtain ⟨s, hs, ht, hq⟩ := h
  rw [lastLex_endSt] at hs
  intro x hx
  rw [hs] at hx
  cases hx
  cases s with
  | punct u =>
    have hl : ∀ v ∈ longPuncts, ∀ c, (c = ' ' ∨ c = '\n' ∨ c = ')') → v.getLast? ≠ some c := by
      intro v hv c hc
      rcases hc with rfl | rfl | rfl <;> revert v <;> decide +kernel
    have : (u ++ [c]) ∉ longPuncts := fun hm => hl _ hm c hc (by simp)
    simp only [Lexing.more]
    rcases hc with rfl | rfl | rfl <;> simp_all
  | quote q e => exact absurd rfl (hq q e)
  | white | line | comment => cases ht
  | block b => cases ht
  | word | literal => rcases hc with rfl | rfl | rfl <;> rfl
  | number e => rcases hc with rfl | rfl | rfl <;> cases e <;> rfl

theorem ends_tokens {t : Text} (h : EndsWithToken t) {c : Char} (hc : c = ' ' ∨ c = '\n' ∨ c = ')')
    (R : Text) : tokens (t ++ c :: R) = tokens t ++ tokens (c :: R) :=
  tokens_ok t R c (ends_ok h hc)

theorem sealed_open : Sealed t!"(" := by
  intro c x hx
  have : endSt t!"(" = some (.punct t!"(") := by decide
  rw [this] at hx
  cases hx
  have hl : ∀ v ∈ longPuncts, v.head? ≠ some '(' := by decide +kernel
  have hn : (t!"(" ++ [c]) ∉ longPuncts := fun hm => hl _ hm (by simp)
  simp only [Lexing.more]
  simp_all

theorem ends_paren {t : Text} (h : EndsWithToken t) : EndsWithToken (t!"(" ++ t ++ t!")") := by
  refine ⟨.punct t!")", ?_, rfl, by simp⟩
  rw [lastLex_endSt, List.append_assoc]
  have hne : t ≠ [] := by
    rintro rfl
    obtain ⟨s, hs, -⟩ := h
    cases hs
  cases t with
  | nil => exact absurd rfl hne
  | cons d ds =>
    rw [List.cons_append (a := d), endSt_append _ _ d (sealed_open d), ← List.cons_append,
      endSt_append (d :: ds) [] ')' (ends_ok h (.inr (.inr rfl)))]
    decide

theorem paren_tokens {t : Text} (h : EndsWithToken t) :
    tokens (t!"(" ++ t ++ t!")") = t!"(" :: (tokens t ++ [t!")"]) := by
  rw [List.append_assoc, sealed_open.tokens, ends_tokens h (.inr (.inr rfl))]
  rfl

theorem tokens_blank (n : Nat) (R : Text) : tokens (List.replicate n ' ' ++ R) = tokens R := by
  induction n with
  | zero => rfl
  | succ n ih => rw [List.replicate_succ, List.cons_append, tokens_white, ih]

theorem shown_blank {src : Text} {b e : Loc} {x : Query.Shown} (h : textForRange src b e = some x) :
    ∃ n, x.blank = List.replicate n ' ' := by
  unfold textForRange at h
  simp only [] at h
  split at h
  · simp only [Option.bind_eq_bind, Option.bind_eq_some_iff] at h
    obtain ⟨l, -, h⟩ := h
    cases h
    exact ⟨0, rfl⟩
  · simp only [Option.bind_eq_bind, Option.bind_eq_some_iff] at h
    obtain ⟨l, -, m, -, l', -, h⟩ := h
    cases h
    exact ⟨_, rfl⟩

#guard symbolChars == operatorChars

/-- An operand as it is shown is a phrase by itself. -/
theorem operand_shown {G : Grammar} (hG : G.Ops) {t : Text} {x : Tree} (hx : IsExprText G t x)
    (ht : TightIfPlain t x) : ∃ x' j ks, x.Bracketed x' ∧ x' = .node (.expr j) ks ∧ 16 ≤ j ∧
      x'.Valid G ∧ tokens (parenthesise t) = x'.yield ∧ EndsWithToken (parenthesise t) := by
  by_cases hp : parenthesise t = t!"(" ++ t ++ t!")"
  · obtain ⟨k, ks, rfl⟩ := hx.expr
    refine ⟨.paren (.node (.expr k) ks), 17, _, .inr rfl, rfl, by omega, ?_, ?_, ?_⟩
    · refine ⟨⟨_, hG.paren, rfl, ?_, rfl, trivial⟩, trivial, hx.valid, trivial, trivial⟩
      simp [Phrase.fits]
    · rw [hp, paren_tokens hx.ends, hx.tokens]
      simp [Tree.paren, Tree.yield, Tree.yieldL]
    · rw [hp]
      exact ends_paren hx.ends
  · obtain ⟨he, hc⟩ := C37_unparenthesised t hp
    obtain ⟨k, ks, rfl, hk⟩ := ht hc
    exact ⟨_, k, ks, .inl rfl, rfl, hk, hx.valid, by rw [he]; exact hx.tokens, by rw [he]; exact hx.ends⟩

theorem prefix_read {G : Grammar} (hG : G.Ops) {t blank : Text} {x : Tree} (hx : IsExprText G t x)
    (ht : TightIfPlain t x) (hb : ∃ n, blank = List.replicate n ' ') {op : Text}
    (hop : op ∈ [t!"++", t!"--", t!"-", t!"~", t!"!"]) :
    ∃ T, PrefixOf op x T ∧ T.Valid G ∧
      tokens (blank ++ op ++ t!" " ++ parenthesise t) = T.yield := by
  obtain ⟨n, rfl⟩ := hb
  obtain ⟨x', j, ks, hb, rfl, hj, hv, hy, -⟩ := operand_shown hG hx ht
  refine ⟨_, ⟨_, hb, rfl⟩, ⟨⟨_, hG.pre op hop, rfl, ?_, trivial⟩, trivial, hv, trivial⟩, ?_⟩
  · simp [Phrase.fits]; omega
  · rw [List.append_assoc, List.append_assoc, tokens_blank, ← List.append_assoc]
    have h1 : Sealed (op ++ t!" ") := sealed_white (by revert hop op; decide)
    have h2 : tokens (op ++ t!" ") = [op] := by clear h1; revert hop op; decide
    rw [h1.tokens, h2, hy]
    simp [Tree.yield, Tree.yieldL]

theorem postfix_read {G : Grammar} (hG : G.Ops) {t blank : Text} {x : Tree} (hx : IsExprText G t x)
    (ht : TightIfPlain t x) (hb : ∃ n, blank = List.replicate n ' ') {op : Text}
    (hop : op ∈ [t!"++", t!"--"]) :
    ∃ T : Tree, (∃ x', x.Bracketed x' ∧ T = .node (.expr 16) [x', .tok op]) ∧ T.Valid G ∧
      tokens (blank ++ parenthesise t ++ t!" " ++ op) = T.yield := by
  obtain ⟨n, rfl⟩ := hb
  obtain ⟨x', j, ks, hb, rfl, hj, hv, hy, he⟩ := operand_shown hG hx ht
  refine ⟨_, ⟨_, hb, rfl⟩, ⟨⟨_, hG.post op hop, ?_, rfl, trivial⟩, hv, trivial, trivial⟩, ?_⟩
  · simp [Phrase.fits]; omega
  · rw [List.append_assoc, List.append_assoc, tokens_blank]
    have h2 : tokens (t!" " ++ op) = [op] := by revert hop op; decide
    have h3 := ends_tokens he (c := ' ') (.inl rfl) op
    rw [show parenthesise t ++ (t!" " ++ op) = parenthesise t ++ ' ' :: op from rfl, h3,
      show ' ' :: op = t!" " ++ op from rfl, h2, hy]
    simp [Tree.yield, Tree.yieldL]

theorem levels_tight (o : BOp) : o.levels.2.1 ≤ 16 ∧ o.levels.2.2 ≤ 16 := by
  cases o <;> decide

theorem binary_read {G : Grammar} (hG : G.Ops) {s t bs bt : Text} {x y : Tree} (hx : IsExprText G s x)
    (hsx : TightIfPlain s x) (hy : IsExprText G t y) (hty : TightIfPlain t y)
    (hbs : ∃ n, bs = List.replicate n ' ') (hbt : ∃ n, bt = List.replicate n ' ') (b : Bool) (o : BOp) :
    ∃ T, (BChange.op o).ReadAs x y T ∧ T.Valid G ∧
      tokens (bs ++ parenthesise s ++ (if b then t!" " else t!"\n") ++ o.str ++ (if b then t!" " else t!"\n")
        ++ bt ++ parenthesise t) = T.yield := by
  obtain ⟨m, rfl⟩ := hbs
  obtain ⟨n, rfl⟩ := hbt
  obtain ⟨x', j, ks, hb, rfl, hj, hv, hy1, he⟩ := operand_shown hG hx hsx
  obtain ⟨y', j', ks', hb', rfl, hj', hv', hy2, -⟩ := operand_shown hG hy hty
  have hl := levels_tight o
  refine ⟨_, ⟨_, _, hb, hb', rfl⟩, ⟨⟨_, hG.binary o, ?_, rfl, ?_, trivial⟩, hv, trivial, hv', trivial⟩, ?_⟩
  · simp [Phrase.fits]; omega
  · simp [Phrase.fits]; omega
  · have h1 : ∀ R, tokens (parenthesise s ++ ((if b then t!" " else t!"\n") ++ R)) =
        tokens (parenthesise s) ++ tokens ((if b then t!" " else t!"\n") ++ R) := by
      intro R
      cases b
      · exact ends_tokens he (.inr (.inl rfl)) R
      · exact ends_tokens he (.inl rfl) R
    have h2 : Sealed ((if b then t!" " else t!"\n") ++ o.str ++ (if b then t!" " else t!"\n")) :=
      sealed_white (by cases b <;> cases o <;> decide)
    have h3 : tokens ((if b then t!" " else t!"\n") ++ o.str ++ (if b then t!" " else t!"\n")) = [o.str] := by
      cases b <;> cases o <;> decide
    simp only [List.append_assoc] at h2 h3 ⊢
    rw [tokens_blank, h1]
    have h4 := h2.tokens (List.replicate n ' ' ++ parenthesise t)
    simp only [List.append_assoc] at h4
    rw [h4, h3, tokens_blank, hy1, hy2]
    simp [Tree.yield, Tree.yieldL]

/-! ### C89 -/

/-- C89 for operators that are put in front of an expression.  Not proved (and false, see
`C89_false`): for expressions with operators that are spelled with letters. -/
theorem C89_insert_partial (G : Grammar) (hG : G.Ops) (o : Options) (fs : List SourceFile) (f : FileInfo)
    (r : RangeInfo) (is : List (Nat × EAct)) (id : Nat) (a : EAct) (op : UOp)
    (h : Listed o fs f (.replaceExpr r is) id (some (EAct.instJson true (id, a))))
    (ha : a.change true = .insert op) (pre post src : Text) (read : Text → Option Text)
    (hr : read (originalFile pre post f.filename) = some src) (e : Query.Shown)
    (he : textForRange src r.start r.fin = some e) (x : Tree) (hx : IsExprText G e.text x)
    (ht : TightIfPlain e.text x) :
    ∃ orig shown T, showInfo (infoFile (runTool o true fs).info) id pre post read =
        some (some ⟨orig, some shown⟩) ∧
      T.Valid G ∧ tokens shown = T.yield ∧ PrefixOf op.str x T := by
  have hop : op.str ∈ [t!"++", t!"--", t!"-", t!"~", t!"!"] := by
    cases a <;> simp only [EAct.change] at ha <;> cases ha <;> decide
  obtain ⟨T, h1, h2, h3⟩ := prefix_read hG hx ht (shown_blank he) hop
  exact ⟨_, _, T, by rw [C37_expr o fs f r is id a h pre post src read hr e he, ha]; rfl, h2, h3, h1⟩

/-- C89 for unary operators; see above for what is missing. -/
theorem C89_unary_partial (G : Grammar) (hG : G.Ops) (o : Options) (fs : List SourceFile) (f : FileInfo)
    (op : PUOp) (r sub : RangeInfo) (is : List (Nat × UAct)) (id : Nat) (a : UAct)
    (h : Listed o fs f (.replaceUn op r sub is) id (some (UAct.instJson true (id, a))))
    (pre post src : Text) (read : Text → Option Text)
    (hr : read (originalFile pre post f.filename) = some src) (e s : Query.Shown)
    (he : textForRange src r.start r.fin = some e) (hs : textForRange src sub.start sub.fin = some s)
    (x : Tree) (hx : IsExprText G s.text x) (ht : TightIfPlain s.text x) :
    ∃ orig shown T, showInfo (infoFile (runTool o true fs).info) id pre post read =
        some (some ⟨orig, some shown⟩) ∧
      T.Valid G ∧ tokens shown = T.yield ∧ a.change.ReadAs x T := by
  have key : ∃ T, T.Valid G ∧ tokens (a.change.display s) = T.yield ∧ a.change.ReadAs x T := by
    have hb := shown_blank hs
    cases hc : a.change with
    | operand =>
      obtain ⟨n, hn⟩ := hb
      exact ⟨x, hx.valid, by rw [UChange.display, hn, tokens_blank]; exact hx.tokens, rfl⟩
    | op u =>
      cases hp : u.isPrefix with
      | true =>
        have hop : u.str ∈ [t!"++", t!"--", t!"-", t!"~", t!"!"] := by
          cases a <;> simp only [UAct.change] at hc <;> cases hc <;> first | decide | cases hp
        obtain ⟨T, h1, h2, h3⟩ := prefix_read hG hx ht hb hop
        exact ⟨T, h2, by simp only [UChange.display, hp, if_true]; exact h3,
          by simp only [UChange.ReadAs, hp, if_true]; exact h1⟩
      | false =>
        have hop : u.str ∈ [t!"++", t!"--"] := by
          cases u <;> first | decide | cases hp
        obtain ⟨T, h1, h2, h3⟩ := postfix_read hG hx ht hb hop
        exact ⟨T, h2, by simp only [UChange.display, hp, Bool.false_eq_true, if_false]; exact h3,
          by simp only [UChange.ReadAs, hp, Bool.false_eq_true, if_false]; exact h1⟩
  obtain ⟨T, h1, h2, h3⟩ := key
  exact ⟨_, _, T, C37_unary o fs f op r sub is id a h pre post src read hr e s he hs, h1, h2, h3⟩

/-- C89 for binary operators; see above for what is missing. -/
theorem C89_binary_partial (G : Grammar) (hG : G.Ops) (o : Options) (fs : List SourceFile) (f : FileInfo)
    (op : PBOp) (r lhs rhs : RangeInfo) (is : List (Nat × BAct)) (id : Nat) (a : BAct)
    (h : Listed o fs f (.replaceBin op r lhs rhs is) id (some (BAct.instJson true (id, a))))
    (pre post src : Text) (read : Text → Option Text)
    (hr : read (originalFile pre post f.filename) = some src) (e s t : Query.Shown)
    (he : textForRange src r.start r.fin = some e) (hs : textForRange src lhs.start lhs.fin = some s)
    (ht : textForRange src rhs.start rhs.fin = some t)
    (x y : Tree) (hx : IsExprText G s.text x) (hsx : TightIfPlain s.text x)
    (hy : IsExprText G t.text y) (hty : TightIfPlain t.text y) :
    ∃ orig shown T, showInfo (infoFile (runTool o true fs).info) id pre post read =
        some (some ⟨orig, some shown⟩) ∧
      T.Valid G ∧ tokens shown = T.yield ∧ a.change.ReadAs x y T := by
  have key : ∃ T, T.Valid G ∧
      tokens (a.change.display s t (if e.singleLine then t!" " else t!"\n")) = T.yield ∧
      a.change.ReadAs x y T := by
    have hb := shown_blank hs
    have hb' := shown_blank ht
    cases hc : a.change with
    | lhs =>
      obtain ⟨n, hn⟩ := hb
      exact ⟨x, hx.valid, by rw [BChange.display, hn, tokens_blank]; exact hx.tokens, rfl⟩
    | rhs =>
      obtain ⟨n, hn⟩ := hb'
      exact ⟨y, hy.valid, by rw [BChange.display, hn, tokens_blank]; exact hy.tokens, rfl⟩
    | op u =>
      obtain ⟨T, h1, h2, h3⟩ := binary_read hG hx hsx hy hty hb hb' e.singleLine u
      exact ⟨T, h2, h3, h1⟩
  obtain ⟨T, h1, h2, h3⟩ := key
  exact ⟨_, _, T, C37_binary o fs f op r lhs rhs is id a h pre post src read hr e s t he hs ht, h1, h2, h3⟩

/-- The hypothesis on the grammar. -/
theorem cGrammar_ops (cpp : Bool) : (cGrammar cpp).Ops where
  paren := .paren
  pre := fun op h => .pre op (by revert h op; decide)
  post := fun op h => .post op h
  binary := .binary

theorem wordGrammar_ops : wordGrammar.Ops where
  paren := .inl .paren
  pre := fun op h => .inl (.pre op (by revert h op; decide))
  post := fun op h => .inl (.post op h)
  binary := fun op => .inl (.binary op)

theorem token_chars {t u : Text} (h : u ∈ tokens t) {c : Char} (hc : c ∈ u) : c ∈ t := by
  obtain ⟨x, hx, rfl⟩ := List.mem_map.1 h
  rw [← lexemes_text t]
  exact List.mem_flatMap.2 ⟨x, (List.mem_filter.1 hx).1, hc⟩

theorem match_tok {ks : List Tree} {ss : List Sym} (h : Tree.Match ks ss) {u : Text} (hu : Sym.tok u ∈ ss) :
    u ∈ Tree.yieldL ks := by
  induction ss generalizing ks with
  | nil => cases hu
  | cons s ss ih =>
    cases ks with
    | nil => cases s <;> cases h
    | cons k ks =>
      rw [Tree.yieldL, List.mem_append]
      cases s with
      | tok w =>
        cases k with
        | node p l => cases h
        | tok v =>
          obtain ⟨rfl, h⟩ := h
          rcases List.mem_cons.1 hu with he | hu
          · cases he
            exact .inl (by simp [Tree.yield])
          · exact .inr (ih h hu)
      | nt p =>
        cases k with
        | tok v => cases h
        | node q l =>
          rcases List.mem_cons.1 hu with he | hu
          · cases he
          · exact .inr (ih h.2 hu)

theorem op_symbol (o : BOp) : ∃ c ∈ o.str, c ∈ symbolChars := by
  cases o <;> decide

/-- In the grammar of C and C++ without operators that are spelled with letters, the hypothesis on
operands always holds: C89 holds for all expressions. -/
theorem C89_symbols (cpp : Bool) (t : Text) (x : Tree) (hx : IsExprText (cGrammar cpp) t x) :
    TightIfPlain t x := by
  intro hc
  obtain ⟨k, ks, rfl⟩ := hx.expr
  refine ⟨k, ks, rfl, ?_⟩
  obtain ⟨⟨ss, hr, hm⟩, -⟩ := hx.valid
  have key : ∀ u, Sym.tok u ∈ ss → ∀ c ∈ u, c ∉ symbolChars := by
    intro u hu c hcu
    refine hc c (token_chars (u := u) ?_ hcu)
    rw [hx.tokens]
    exact match_tok hm hu
  generalize hp : Phrase.expr k = p at hr
  change CRule cpp p ss at hr
  cases hr <;> first | (cases hp; omega) | cases hp | skip
  case pre op hop =>
    have h1 : ∃ c ∈ op, c ∈ symbolChars := by
      clear hm key
      revert hop op
      decide
    obtain ⟨c, h1, h2⟩ := h1
    exact absurd h2 (key op (by simp) c h1)
  case binary op =>
    obtain ⟨c, h1, h2⟩ := op_symbol op
    exact absurd h2 (key op.str (by simp) c h1)
  case cond => exact absurd (by decide) (key t!"?" (by simp) '?' (by simp))
  case ifElse h => simp at h
  case while_ h => simp at h

namespace SampleSrc
open SampleAst (facts)

/-- A file with `a bitand b`. -/
def wordParsed : ParsedFile :=
  { name := t!"m/a.cc", lang := Sample.cpp, src := t!"void g(){p=a bitand b;}", hasErrors := false
    ast := (Node.decl ⟨.tu, none⟩ [.decl ⟨.func false none, some ⟨0, 23⟩⟩
      [.stmt ⟨.compound, .plain, some ⟨8, 23⟩, Sample.info, [], 23, false, false, false⟩
        [.stmt ⟨.expr (facts (.binary .assign) none true 9), .plain, some ⟨9, 21⟩, Sample.info, [], 22, false,
            true, false⟩
          [.stmt ⟨.expr (facts .other none true 9), .lhs, some ⟨9, 10⟩, Sample.info, [], 10, false, false,
              false⟩ [],
           .stmt ⟨.expr (facts (.binary .and) (some .int) false 11), .rhs, some ⟨11, 21⟩, Sample.info, [], 21,
              false, false, false⟩
            [SampleAst.read .lhs 11 12, SampleAst.read .rhs 20 21]]]]]).withInfo t!"void g(){p=a bitand b;}"
              fun e => e - 1 }

/-- How `a bitand b` is read. -/
def wordTree : Tree := .node (.expr 7) [.name t!"a", .tok t!"bitand", .name t!"b"]

theorem wordTree_text : IsExprText wordGrammar t!"a bitand b" wordTree where
  valid := ⟨⟨_, .inr ⟨.and, t!"bitand", by decide, rfl, rfl⟩, rfl, rfl, rfl, trivial⟩,
    ⟨⟨_, .inl (.word t!"a" (by decide) (by decide)), rfl, trivial⟩, trivial, trivial⟩, trivial,
    ⟨⟨_, .inl (.word t!"b" (by decide) (by decide)), rfl, trivial⟩, trivial, trivial⟩, trivial⟩
  expr := ⟨_, _, rfl⟩
  tokens := by decide
  ends := ⟨.word, by decide, rfl, by simp⟩

end SampleSrc

/-- C89 is false for operators that are spelled with letters: for the negation of `a bitand b` the script
shows `- a bitand b`, which cannot be read as an operator in front of `a bitand b`. -/
theorem C89_false :
    ∃ (o : Options) (f : ParsedFile) (id : Nat) (pre post : Text) (read : Text → Option Text)
      (orig shown : Text) (x : Tree),
      id < (runTool o true ([f].map (analyse o.optimise))).nextId ∧
      read (originalFile pre post f.name) = some f.src ∧
      showInfo (infoFile (runTool o true ([f].map (analyse o.optimise))).info) id pre post read =
        some (some ⟨orig, some shown⟩) ∧
      (∃ r is, .replaceExpr r is ∈
          ((runTool o true ([f].map (analyse o.optimise))).info.flatMap (·.nodes)).flatMap (·.groups) ∧
        (id, EAct.InsertMinus) ∈ is) ∧
      IsExprText wordGrammar orig x ∧
      ∀ T op, T.Valid wordGrammar → tokens shown = T.yield → ¬ PrefixOf op x T := by
  refine ⟨Sample.opts, SampleSrc.wordParsed, 22, t!"m", t!"o", fun _ => some SampleSrc.wordParsed.src,
    t!"a bitand b", t!"- a bitand b", SampleSrc.wordTree, by decide +kernel, rfl, by decide +kernel,
    ⟨⟨⟨1, 12⟩, ⟨1, 22⟩, t!"a bitand b"⟩,
      [(20, .InsertLNot), (21, .InsertNot), (22, .InsertMinus), (23, .ReplaceWithZeroInt),
       (24, .ReplaceWithOneInt), (25, .ReplaceWithMinusOneInt)], by decide +kernel, by decide⟩,
    SampleSrc.wordTree_text, ?_⟩
  rintro T op hv hy ⟨x', hx | hx, rfl⟩
  · subst hx
    obtain ⟨⟨ss, hr, hm⟩, -⟩ := hv
    generalize hp : Phrase.expr 15 = p at hr
    rcases hr with hr | ⟨o, w, -, rfl, -⟩
    · cases hr
      case pre => exact absurd hm.2.1 (by decide)
      case binary o => cases o <;> cases hp
      case ifElse h => subst hp; simp at h
      case while_ h => subst hp; simp at h
      all_goals cases hp
    · cases o <;> cases hp
  · subst hx
    have : (tokens t!"- a bitand b").length = 4 := by decide
    rw [hy] at this
    simp [Tree.paren, Tree.yield, Tree.yieldL, SampleSrc.wordTree, Tree.name] at this

/-! ### Examples -/

namespace SampleSrc

/-- How `x` is read. -/
theorem x_text : IsExprText (cGrammar true) t!"x" (.name t!"x") where
  valid := ⟨⟨_, .word t!"x" (by decide) (by decide), rfl, trivial⟩, trivial, trivial⟩
  expr := ⟨_, _, rfl⟩
  tokens := by decide
  ends := ⟨.word, by decide, rfl, by simp⟩

/-- How `-b` is read. -/
theorem minus_text : IsExprText (cGrammar true) t!"-b" (.node (.expr 15) [.tok t!"-", .name t!"b"]) where
  valid := ⟨⟨_, .pre t!"-" (by decide), rfl, rfl, trivial⟩, trivial,
    ⟨⟨_, .word t!"b" (by decide) (by decide), rfl, trivial⟩, trivial, trivial⟩, trivial⟩
  expr := ⟨_, _, rfl⟩
  tokens := by decide
  ends := ⟨.word, by decide, rfl, by simp⟩

/-- The hypotheses of `C89_binary_partial` hold for mutant 18 of the sample of C84, which is shown as
`x /= (-b)`. -/
example : ∃ f op r lhs rhs is e s t,
    Listed Sample.opts ([infoParsed].map (analyse Sample.opts.optimise)) f (.replaceBin op r lhs rhs is) 18
      (some (BAct.instJson true (18, .ReplaceWithDivAssign))) ∧
    queriedFile (originalFile t!"m" t!"o" f.filename) = some infoParsed.src ∧
    textForRange infoParsed.src r.start r.fin = some e ∧
    textForRange infoParsed.src lhs.start lhs.fin = some s ∧
    textForRange infoParsed.src rhs.start rhs.fin = some t ∧ s.text = t!"x" ∧ t.text = t!"-b" ∧
    TightIfPlain s.text (.name t!"x") ∧
    TightIfPlain t.text (.node (.expr 15) [.tok t!"-", .name t!"b"]) := by
  refine ⟨(runTool Sample.opts true ([infoParsed].map (analyse Sample.opts.optimise))).info.headD ⟨[], []⟩,
    .Assign, ⟨⟨1, 10⟩, ⟨1, 16⟩, t!"x = -b"⟩, ⟨⟨1, 10⟩, ⟨1, 11⟩, t!"x"⟩, ⟨⟨1, 14⟩, ⟨1, 16⟩, t!"-b"⟩,
    [(16, .ReplaceWithAddAssign), (17, .ReplaceWithAndAssign), (18, .ReplaceWithDivAssign),
     (19, .ReplaceWithMulAssign), (20, .ReplaceWithOrAssign), (21, .ReplaceWithRemAssign),
     (22, .ReplaceWithShlAssign), (23, .ReplaceWithShrAssign), (24, .ReplaceWithSubAssign),
     (25, .ReplaceWithXorAssign)], ⟨true, [], t!"x = -b"⟩, ⟨true, [], t!"x"⟩, ⟨true, [], t!"-b"⟩,
    ⟨by decide +kernel, by decide +kernel, ?_⟩, by decide +kernel, by decide +kernel, by decide +kernel,
    by decide +kernel, rfl, rfl, C89_symbols _ _ _ x_text, C89_symbols _ _ _ minus_text⟩
  exact List.mem_map.2 ⟨(18, .ReplaceWithDivAssign), by decide, rfl⟩

end SampleSrc

end Dredd
