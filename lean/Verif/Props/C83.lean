/-
C83: a call that is put in the place of an expression does not go together with the word before it.

The second part uses it for C58: whether a word comes just before an expression, and where a statement
ends, is what the code reads from the text.
-/
import Verif.Props.C58Source
import Verif.Proofs.StmtEndLex

namespace Dredd

/-- Where a token begins that is not the first, a lexeme ends. -/
theorem Starts.before {src : Text} {b : Nat} (h : Starts src b) : b = 0 ∨ ∃ x, EndsAt src b x := by
  obtain ⟨x, hx, -⟩ := h
  obtain ⟨pre, suf, h1, rfl⟩ := placed_split hx
  rcases List.eq_nil_or_concat pre with rfl | ⟨pre', y, rfl⟩
  · exact .inl rfl
  · refine .inr ⟨y, (lexText pre').length, ?_, by simp [lexText]⟩
    rw [places, h1]
    simp [placed_append, placed]

/-- The text before an expression that is replaced. -/
theorem ExprSite.before_text (s : ExprSite) (l : Lang) (o : Options) (n : Nat)
    (hn : o.showAst = true → '*' ∉ s.node) :
    ∃ pre suf, s.edits l o n = [.before s.span.b pre, .after s.span.e suf] ∧
      HeadTxt (renderPieces pre) ∧
      ∃ c cs, renderPieces pre = c :: cs ∧ headChar c = true ∧ (c = ' ' ↔ s.precIdent = true) := by
  obtain ⟨pre, suf, h1, h2, h3, -, h5⟩ := s.edits_texts l o n hn
  refine ⟨pre, suf, h1, h2, ?_⟩
  rcases h2 with h2 | ⟨-, c, cs, hc, hh⟩
  · exact absurd h2 h3
  · refine ⟨c, cs, hc, hh, fun h => ?_, fun h => ?_⟩
    · obtain ⟨args, ha⟩ := s.edits_call l o n
      rw [h1] at ha
      simp only [List.mem_cons, Edit.before.injEq, true_and, reduceCtorEq, List.not_mem_nil, or_false] at ha
      rw [← ha] at hc
      cases hp : s.precIdent with
      | true => rfl
      | false =>
        cases hi : s.initListCast with
        | none =>
          simp [hp, hi, ExprSite.fnName, renderPieces, Piece.render] at hc
          rw [h] at hc
          exact absurd hc.1 (by decide)
        | some ty =>
          simp [hp, hi, renderPieces, Piece.render] at hc
          rw [h] at hc
          exact absurd hc.1 (by decide)
    · obtain ⟨cs', hcs⟩ := h5 h
      rw [hcs] at hc
      injection hc with hc _
      exact hc.symm

/-- C83: let a token begin where an expression is replaced.  The text that is put before the expression
begins with a space just if a letter, digit or underscore comes before; and it is read on its own, as
after a blank, unless there is a literal or a number that does not end with such a character. -/
theorem C83 (s : ExprSite) (l : Lang) (o : Options) (n : Nat) (src : Text)
    (hn : o.showAst = true → '*' ∉ s.node) (hread : s.precIdent = precedingIsIdent src s.span.b)
    (hs : Starts src s.span.b) :
    ∃ pre suf, s.edits l o n = [.before s.span.b pre, .after s.span.e suf] ∧
      ((∃ cs, renderPieces pre = ' ' :: cs) ↔
        ∃ c, (src.take s.span.b).getLast? = some c ∧ wordChar c = true) ∧
      ((∀ x, EndsAt src s.span.b x → x.1 = .literal ∨ (∃ e, x.1 = .number e) →
          ∃ c, x.2.getLast? = some c ∧ wordChar c = true) →
        lexemes (src.take s.span.b ++ renderPieces pre) =
          lexemes (src.take s.span.b) ++ lexemes (renderPieces pre)) := by
  obtain ⟨pre, suf, h1, h2, c, cs, hc, hh, hsp⟩ := s.before_text l o n hn
  have hle : s.span.b ≤ src.length := by
    obtain ⟨x, hx, -⟩ := hs
    have := (placed_range hx).2
    rw [lexemes_text] at this
    omega
  refine ⟨pre, suf, h1, ?_, fun hlit => ?_⟩
  · rw [← precedingIsIdent_iff _ _ hle, ← hread, ← hsp, hc]
    simp
  · refine (lexemes_glue fun d ds hd => ?_).1
    rw [hc] at hd
    injection hd with hd _
    subst hd
    intro y hy
    rcases hs.before with h0 | ⟨x, hx⟩
    · rw [h0] at hy; cases hy
    · obtain ⟨-, -, -, -, -, -, hend, -⟩ := hx.cut
      rw [hend, Option.some.injEq] at hy
      subst hy
      have hcl := closed_before hs hx
      by_cases hw : x.1.isWord = true
      · have hl : ∃ c, x.2.getLast? = some c ∧ wordChar c = true := by
          obtain ⟨q, hq, -⟩ := id hx
          cases hk : x.1 with
          | word => exact lexemes_wordEnd src x (placed_mem hq) hk
          | number e => exact hlit x hx (.inr ⟨e, hk⟩)
          | literal => exact hlit x hx (.inl hk)
          | _ => rw [hk] at hw; cases hw
        have : c = ' ' := hsp.2 (by rw [hread]; exact hx.preceding.2 hl)
        rw [this]
        exact more_space hcl
      · exact more_head hcl (by simpa using hw) hh

/-! ### For parsed source text -/

/-- What the visitor records about the text before an expression. -/
theorem TextRead.site {opt : Bool} {f : ParsedFile} (h : TextRead f) {p : List Nat} {x : ExprSite}
    (hm : MutationAt f.lang opt f.ast p (.expr x)) : x.precIdent = precedingIsIdent f.src x.span.b := by
  obtain ⟨above, s, ks, hp, ⟨e, sp, t, hok, h'⟩ | ⟨sp, hcn, hr, h'⟩⟩ := C56 _ _ _ _ _ hm
  · rcases h' with ⟨-, y, hy, -, e2, -, -, -, -, -, e8, -⟩ | ⟨op, e', t', hu, y, hy, -⟩ |
      ⟨op, sl, el, tl, sr, er, tr, hb, y, hy, -⟩
    · cases hy
      rw [e8, e2]
      exact h.before _ _ _ _ _ _ hp hok.kind hok.range
    · cases hy
    · cases hy
  · obtain ⟨y, hy, -⟩ := h'
    cases hy

/-- C83, for the mutations of parsed source text. -/
theorem C83_source (opt : Bool) (f : ParsedFile) (hr : TextRead f) (p : List Nat) (x : ExprSite)
    (hm : MutationAt f.lang opt f.ast p (.expr x)) (o : Options) (n : Nat)
    (hn : o.showAst = true → '*' ∉ x.node) (hs : Starts f.src x.span.b) :
    ∃ pre suf, x.edits f.lang o n = [.before x.span.b pre, .after x.span.e suf] ∧
      ((∃ cs, renderPieces pre = ' ' :: cs) ↔
        ∃ c, (f.src.take x.span.b).getLast? = some c ∧ wordChar c = true) ∧
      ((∀ y, EndsAt f.src x.span.b y → y.1 = .literal ∨ (∃ e, y.1 = .number e) →
          ∃ c, y.2.getLast? = some c ∧ wordChar c = true) →
        lexemes (f.src.take x.span.b ++ renderPieces pre) =
          lexemes (f.src.take x.span.b) ++ lexemes (renderPieces pre)) :=
  C83 x f.lang o n f.src hn (hr.site hm) hs

/-- Words before expressions are known if they are read from the text. -/
theorem TextRead.wordsKnown {opt : Bool} {f : ParsedFile} (h : TextRead f) (hw : WordsReplaced opt f) :
    WordsKnown opt f := by
  rintro p above s xs e sp t hp hok hch ⟨x, hx, hxw⟩
  obtain ⟨hl, p', above', s', xs', e', sp', t', h1, h2, h3, h4, h5, h6⟩ :=
    hw p above s xs e sp t x hp hok hch hx hxw
  refine ⟨p', above', s', xs', e', sp', t', h1, h2, h3, h4, h5, h6, ?_⟩
  rw [h.before _ _ _ _ _ _ h2 h3.kind h3.range, h6]
  refine hx.preceding.2 (hl.elim (fun hk => ?_) id)
  obtain ⟨q, hq, -⟩ := hx
  exact lexemes_wordEnd f.src x (placed_mem hq) hk

/-- The extent of a statement is made of tokens if it is read from the text. -/
theorem TextRead.lexed {f : ParsedFile} {ks : List ConstRewrite} (h : TextRead f) (hp : PlainLines f.src)
    (ht : LexedNodes f ks) : LexedTree f ks := by
  refine { ht with extents := fun p above s xs sp hpl hi hr => ?_ }
  obtain ⟨e1, e2, e3, -⟩ := h.behind _ _ _ _ _ hpl hi hr
  rw [e1, e2, e3]
  exact stmtEnd_ends hp (ht.ranges _ _ _ _ _ hpl hr).2

/-- C58, for parsed source text with the facts that the code reads from the text: a word before an
expression that may change is allowed if it is followed by an expression that may be replaced as a whole.

The full property has no hypothesis `WordsReplaced`; `C58_text_false` shows that it does not hold
without, with all the others. -/
theorem C58_text_partial (o : Options) (req : Bool) (first : Nat) (f : ParsedFile) (out : Text) (p : Src)
    (h : (handleTU o req first (analyse o.optimise f)).output = some out)
    (hast : p.nodes = [f.ast]) (hsrc : p.str = f.src) (hl : p.Laid 0)
    (hc : (analyse o.optimise f).consts.Perm (p.consts 0)) (hw : WellFormed f.ast)
    (hN : o.showAst = true → ∀ q above s ks, Place f.ast q above (.stmt s ks) → '*' ∉ s.node)
    (hread : TextRead f) (hplain : PlainLines f.src)
    (ht : LexedNodes f (p.consts 0)) (hwords : WordsReplaced o.optimise f) :
    ∃ items : List LItem, LItem.old items = lexemes f.src ∧ LItem.new items = lexemes out ∧
      ∀ q x, (q, x) ∈ LItem.gone 0 items ↔ (q, x) ∈ places f.src ∧
        (InSymbol (analyse o.optimise f) q ∨ ∃ k ∈ p.consts 0, k.span.has q) :=
  C58_source_partial o req first f out p h hast hsrc hl hc hw hN (hread.lexed hplain ht)
    (hread.wordsKnown hwords)


/-! ### Samples -/

mutual
/-- All nodes of a tree, with their paths, pass a check. -/
def Node.everyAt (P : List Nat → Node → Bool) (p : List Nat) : Node → Bool
  | .decl d ks => P p (.decl d ks) && Node.everyAtL P p 0 ks
  | .stmt s ks => P p (.stmt s ks) && Node.everyAtL P p 0 ks
  | .other k ks => P p (.other k ks) && Node.everyAtL P p 0 ks

def Node.everyAtL (P : List Nat → Node → Bool) (p : List Nat) (i : Nat) : List Node → Bool
  | [] => true
  | k :: ks => k.everyAt P (p ++ [i]) && Node.everyAtL P p (i + 1) ks
end

theorem Node.everyAtL_get {P : List Nat → Node → Bool} {p : List Nat} {ks : List Node} {j i : Nat} {k : Node}
    (h : Node.everyAtL P p j ks = true) (hk : ks[i]? = some k) : k.everyAt P (p ++ [j + i]) = true := by
  induction ks generalizing i j with
  | nil => simp at hk
  | cons k' ks ih =>
    simp only [Node.everyAtL, Bool.and_eq_true] at h
    cases i with
    | zero =>
      simp only [List.getElem?_cons_zero, Option.some.injEq] at hk
      exact hk ▸ h.1
    | succ i =>
      rw [show j + (i + 1) = j + 1 + i by omega]
      exact ih h.2 hk

theorem Node.everyAt_iff {P : List Nat → Node → Bool} {p : List Nat} (n : Node) :
    n.everyAt P p = true ↔ P p n = true ∧ Node.everyAtL P p 0 n.kids = true := by
  cases n <;> simp [Node.everyAt, Node.kids]

theorem Node.everyAt_place {P : List Nat → Node → Bool} {root : Node} (h : root.everyAt P [] = true) {p above n}
    (hp : Place root p above n) : P p n = true := by
  suffices n.everyAt P p = true from (n.everyAt_iff.1 this).1
  induction hp with
  | root => exact h
  | kid _ hk ih =>
    have := Node.everyAtL_get (Node.everyAt_iff _ |>.1 ih).2 hk
    simpa using this

namespace SampleSrc
open SampleAst

/-- `int f(){return-b;}` -/
def returnFile : Src :=
  .node (.decl ⟨.tu, none⟩)
    [.node (.decl ⟨.func false none, some ⟨0, 18⟩⟩)
      [.tok t!"int f()",
       node .compound .plain 7 18 18
        [.tok t!"{",
         node .other .plain 8 16 17
          [.tok t!"return",
           node (.expr { facts (.unary .minus) (some .int) false 14 with opOff := some 14, precIdent := true })
            .plain 14 16 17 [.tok t!"-", read .operand 15 16 t!"b"]],
         .tok t!";}"]]]

def returnParsed : ParsedFile :=
  { name := t!"a.cc", lang := Sample.cpp, src := returnFile.str, hasErrors := false
    ast := (returnFile.nodes).headD (.other .other []) }

theorem return_laid : returnFile.Laid 0 := by
  refine ⟨trivial, .inl ⟨rfl, rfl, ⟨trivial, .inl ⟨rfl, by simp [Src.Laid], rfl, ?_, trivial⟩⟩, trivial⟩⟩
  refine ⟨⟨.inr ⟨rfl, by decide, by decide, by simp⟩, by simp⟩, .inr ⟨rfl, by simp [Src.Laid], by decide,
      rfl, rfl, ?_, by simp [Src.Laid], by decide, rfl⟩⟩
  refine ⟨⟨.inr ⟨rfl, by decide, by decide, by simp⟩, by simp⟩, .inl ⟨rfl, by simp [Src.Laid], rfl, ?_, trivial⟩⟩
  refine ⟨⟨.inr ⟨rfl, by decide, by decide, ?_⟩, by simp⟩, .inl ⟨rfl, by simp [Src.Laid], rfl,
    read_laid _ _ _, trivial⟩⟩
  intro e he
  injection he with he
  subst he
  exact .inl ⟨[], _, rfl, ⟨_, _, _, rfl, rfl, rfl⟩, rfl⟩

/-- What is said about the text before an expression is right. -/
def beforeCheck (src : Text) : Node → Bool
  | .stmt s _ => match s.kind, s.range with
    | .expr e, some sp => e.precIdent == precedingIsIdent src sp.b
    | _, _ => true
  | _ => true

/-- What is said about the text behind a part of a block or a labelled statement is right. -/
def behindCheck (src : Text) : Node → Bool
  | .stmt s ks => (s.kind != .compound && s.kind != .case_ && s.kind != .default_) ||
    ks.all (placedCheck fun s sp =>
      let e := stmtEnd (src.drop sp.e)
      s.extEnd == sp.e + e.len && s.extComment == e.comment && s.extSemi == e.semi && s.nextHash == e.hash)
  | _ => true

theorem parent_of {root : Node} {p above s xs} (hp : Place root p above (.stmt s xs))
    (hi : ItemOfBlock above) : ∃ p' above' s2 ks2, Place root p' above' (.stmt s2 ks2) ∧
      .stmt s xs ∈ ks2 ∧ (s2.kind = .compound ∨ s2.kind = .case_ ∨ s2.kind = .default_) := by
  obtain ⟨labels, s1, ks1, i1, post, he, hk1, hl⟩ := hi
  generalize hnode : Node.stmt s xs = node at hp
  cases hp with
  | root => simp at he
  | @kid p' above' n i _ hp' hk =>
    cases labels with
    | nil =>
      simp only [List.nil_append, List.cons.injEq, Prod.mk.injEq] at he
      obtain ⟨⟨rfl, -⟩, -⟩ := he
      exact ⟨_, _, _, _, hp', List.mem_of_getElem? hk, .inl hk1⟩
    | cons x r =>
      simp only [List.cons_append, List.cons.injEq] at he
      obtain ⟨s2, ks2, h1, h2⟩ := hl x List.mem_cons_self
      have hn : n = .stmt s2 ks2 := by rw [← h1, ← he.1]
      subst hn
      exact ⟨_, _, _, _, hp', List.mem_of_getElem? hk, .inr h2⟩

theorem textRead_of {f : ParsedFile} (h1 : f.ast.every (beforeCheck f.src) = true)
    (h2 : f.ast.every (behindCheck f.src) = true) : TextRead f := by
  refine ⟨?_, ?_⟩
  · intro p above s ks e sp hp hk hr
    have := Node.every_place h1 hp
    simpa [beforeCheck, hk, hr] using this
  · intro p above s ks sp hp hi hr
    obtain ⟨p', above', s2, ks2, hp', hmem, hk⟩ := parent_of hp hi
    have := Node.every_place h2 hp'
    have hall : ks2.all (placedCheck fun s sp =>
        let e := stmtEnd (f.src.drop sp.e)
        s.extEnd == sp.e + e.len && s.extComment == e.comment && s.extSemi == e.semi &&
          s.nextHash == e.hash) = true := by
      rcases hk with hk | hk | hk <;> simpa [behindCheck, hk] using this
    have := List.all_eq_true.1 hall _ hmem
    simpa [placedCheck, hr, and_assoc] using this

/-- Nothing is declared. -/
def noVar : Node → Bool
  | .decl d _ => match d.kind with
    | .var _ | .varLike _ => false
    | _ => true
  | _ => true

/-- A word comes just before the operand of `return`. -/
theorem return_words : WordsReplaced Sample.opts.optimise returnParsed := by
  intro p above s xs e sp t x hp hok hch hx hxw
  have hw : EndsWord returnParsed.src sp.b := ⟨x, hx, hxw⟩
  have hkey : returnParsed.ast.everyAt (fun p n => match n with
      | .stmt s _ => s.range.all fun sp => !decide (EndsWord returnParsed.src sp.b) || (p == [0, 0, 0, 0] && sp.b == 14)
      | _ => true) [] = true := by decide +kernel
  have h1 := Node.everyAt_place hkey hp
  simp only [hok.range, Option.all_some, Bool.or_eq_true, Bool.not_eq_true', decide_eq_false_iff_not,
    Bool.and_eq_true, beq_iff_eq] at h1
  obtain ⟨rfl, hb⟩ := h1.resolve_left (fun h => h hw)
  rw [hb] at hx
  have hxe : ∀ q ∈ places returnParsed.src, q.1 + q.2.2.length = 14 → q.2.1 = .word := by decide +kernel
  refine ⟨.inl (by obtain ⟨q, hq, he⟩ := hx; exact hxe (q, x) hq he), ?_⟩
  have hm : ∃ y : ExprSite, MutationAt returnParsed.lang Sample.opts.optimise returnParsed.ast [0, 0, 0, 0]
      (.expr y) ∧ y.span.b = 14 := by
    have h : ((visitTU returnParsed.lang Sample.opts.optimise returnParsed.ast).cur.post.any fun q =>
        q.1 == [0, 0, 0, 0] && match q.2 with
          | .expr y => y.span.b == 14
          | _ => false) = true := by decide +kernel
    obtain ⟨⟨q, m⟩, hq, h⟩ := List.any_eq_true.1 h
    cases m <;> simp at h
    rename_i y
    obtain ⟨rfl, h⟩ := h
    exact ⟨y, hq, h⟩
  obtain ⟨y, hm, hyb⟩ := hm
  obtain ⟨above', s', ks', hp', ⟨e', sp', t', hok', h'⟩ | ⟨sp', hcn, hr, h'⟩⟩ := C56 _ _ _ _ _ hm
  · rcases h' with ⟨hr, z, hz, -, e2, -⟩ | ⟨op, e', t', hu, z, hz, -⟩ |
      ⟨op, sl, el, tl, sr, er, tr, hb, z, hz, -⟩
    · cases hz
      refine ⟨_, _, _, _, _, _, _, List.prefix_rfl, hp', hok', hr, ?_, by rw [hb, ← hyb, e2]⟩
      rintro ⟨p, above, d, ks, hpd, hd⟩
      have hall : returnParsed.ast.every noVar = true := by decide +kernel
      have := Node.every_place hall hpd
      rcases hd with ⟨v, hd, -⟩ | hd <;> simp [noVar, hd] at this
    · cases hz
    · cases hz
  · obtain ⟨z, hz, -⟩ := h'
    cases hz

theorem return_lexed : LexedNodes returnParsed [] := by
  refine (lexed_of (by decide +kernel) (by decide +kernel) (by decide +kernel) (by decide +kernel) ?_ ?_
    (by simp)).toLexedNodes
  · intro p above s xs e op s' e' sp' hp hk hc _ _
    have h : returnParsed.ast.every noBinary = true := by decide +kernel
    have := Node.every_place h hp
    simp [noBinary, hk, hc] at this
  · intro p above s xs sp hp hi hr
    have h : returnParsed.ast.every (itemCheck returnParsed.src) = true := by decide +kernel
    exact items_of h hp hi hr

/-- The hypotheses of `C58_text_partial` and `C83_source` hold for `int f(){return-b;}`, in which a word
comes just before an expression that is mutated. -/
example : returnParsed.src = t!"int f(){return-b;}" ∧ returnFile.nodes = [returnParsed.ast] ∧
    returnFile.str = returnParsed.src ∧ returnFile.Laid 0 ∧ WellFormed returnParsed.ast ∧
    (analyse Sample.opts.optimise returnParsed).consts = [] ∧ returnFile.consts 0 = [] ∧
    TextRead returnParsed ∧ PlainLines returnParsed.src ∧ LexedNodes returnParsed [] ∧
    WordsReplaced Sample.opts.optimise returnParsed ∧ EndsWord returnParsed.src 14 ∧
    precedingIsIdent returnParsed.src 14 = true :=
  ⟨by decide, rfl, rfl, return_laid, wellFormed_of (by decide +kernel), by decide +kernel, by decide +kernel,
    textRead_of (by decide +kernel) (by decide +kernel), ⟨by decide, by decide, by decide⟩, return_lexed,
    return_words, by decide +kernel, by decide⟩

/-- The sample of C54 says about the text what is there. -/
example : TextRead parsed ∧ PlainLines parsed.src :=
  ⟨textRead_of (by decide +kernel) (by decide +kernel), ⟨by decide, by decide, by decide⟩⟩

theorem else_textRead : TextRead elseParsed := textRead_of (by decide +kernel) (by decide +kernel)

end SampleSrc

/-- `C58_text_partial` without `WordsReplaced`: all other hypotheses hold for `else++x;`, and the keyword
is no longer a token of the output. -/
theorem C58_text_false :
    ∃ (o : Options) (f : ParsedFile) (p : Src) (out : Text),
      (handleTU o true 0 (analyse o.optimise f)).output = some out ∧
      p.nodes = [f.ast] ∧ p.str = f.src ∧ p.Laid 0 ∧ (analyse o.optimise f).consts.Perm (p.consts 0) ∧
      WellFormed f.ast ∧ TextRead f ∧ PlainLines f.src ∧ LexedNodes f (p.consts 0) ∧ o.showAst = false ∧
      t!"else" ∈ tokens f.src ∧ t!"else" ∉ tokens out := by
  have hk : SampleSrc.elseFile.consts 0 = [] := by decide +kernel
  refine ⟨Sample.opts, SampleSrc.elseParsed, SampleSrc.elseFile, _, rfl, rfl, rfl, SampleSrc.else_laid, ?_,
    SampleSrc.wellFormed_of (by decide +kernel), SampleSrc.else_textRead, ⟨by decide, by decide, by decide⟩,
    ?_, rfl, by decide +kernel, by decide +kernel⟩
  · have h1 : (analyse Sample.opts.optimise SampleSrc.elseParsed).consts = [] := by decide +kernel
    rw [h1, hk]
  · rw [hk]
    refine (SampleSrc.lexed_of (by decide +kernel) (by decide +kernel) (by decide +kernel) (by decide +kernel)
      ?_ ?_ (by simp)).toLexedNodes
    · intro p above s xs e op s' e' sp' hp hk hc _ _
      have h : SampleSrc.elseParsed.ast.every SampleSrc.noBinary = true := by decide +kernel
      have := Node.every_place h hp
      simp [SampleSrc.noBinary, hk, hc] at this
    · intro p above s xs sp hp hi hr
      have h : SampleSrc.elseParsed.ast.every (SampleSrc.itemCheck SampleSrc.elseParsed.src) = true := by
        decide +kernel
      exact SampleSrc.items_of h hp hi hr

end Dredd
