/-
C58: the lexical structure of the original is kept.
-/
import Verif.Proofs.LexGlue
import Verif.Spec.Samples
import Verif.Props.C54

namespace Dredd

/-- C58: the lexemes of the original (white space, comments, tokens) and those of the output can
be compared such that lexemes are kept, or are gone, or new text is inserted that is read on its
own.  The ones that are gone are exactly those in the symbols of operators that are mutated and in
constants that are rewritten.

The full property has no hypothesis `Tokenised.words`; `C58_false` shows that it does not hold
without. -/
theorem C58_partial (o : Options) (req : Bool) (first : Nat) (f : SourceFile) (out : Text)
    (h : (handleTU o req first f).output = some out) (hN : NodesOk o f) (hT : Tokenised f) :
    ∃ items : List LItem, LItem.old items = lexemes f.src ∧ LItem.new items = lexemes out ∧
      ∀ p x, (p, x) ∈ LItem.gone 0 items ↔ (p, x) ∈ places f.src ∧ (InSymbol f p ∨ InConst f p) := by
  have hn : fileCount o.optimise f ≠ 0 := by
    intro h0
    rw [handleTU_eq, if_pos h0] at h
    cases h
  rw [handleTU_eq, if_neg hn] at h
  simp only [Option.some.injEq] at h
  obtain ⟨items, h1, h2, h3⟩ := fileEdits_lexemes (o := o) (first := first) hN hT
  exact ⟨items, h1, by rw [← h, h2], h3⟩

theorem LItem.kept_sublist (P : Nat → Prop) [DecidablePred P] (items : List LItem) (k : Nat)
    (h : ∀ p x, (p, x) ∈ LItem.gone k items → P p) :
    (((placed k (LItem.old items)).filter fun q => q.2.1.isToken && !decide (P q.1)).map (·.2.2)).Sublist
      (((LItem.new items).filter fun x => x.1.isToken).map (·.2)) := by
  induction items generalizing k with
  | nil => simp [LItem.old, placed]
  | cons i r ih =>
    cases i with
    | keep x =>
      have := ih (k + x.2.length) h
      simp only [LItem.old, LItem.new, placed, List.filter_cons]
      by_cases hx : x.1.isToken = true
      · by_cases hp : P k
        · simp [hx, hp]
          exact .cons _ (by simpa using this)
        · simp [hx, hp]
          simpa using this
      · simp [hx]
        simpa using this
    | del x =>
      have := ih (k + x.2.length) fun p y hy => h p y (List.mem_cons_of_mem _ hy)
      have hk := h k x List.mem_cons_self
      simp [LItem.old, LItem.new, placed, List.filter_cons, hk]
      simpa using this
    | ins t =>
      have := ih k h
      simp only [LItem.old, LItem.new, List.filter_append, List.map_append]
      exact this.trans (List.sublist_append_right _ _)

open Classical in
/-- C58: the tokens of the original outside of these symbols and constants are tokens of the
output, in the same order. -/
theorem C58_tokens (o : Options) (req : Bool) (first : Nat) (f : SourceFile) (out : Text)
    (h : (handleTU o req first f).output = some out) (hN : NodesOk o f) (hT : Tokenised f) :
    (((places f.src).filter fun q => q.2.1.isToken && !decide (InSymbol f q.1 ∨ InConst f q.1)).map
      (·.2.2)).Sublist (tokens out) := by
  obtain ⟨items, h1, h2, h3⟩ := C58_partial o req first f out h hN hT
  rw [tokens, ← h2, places, ← h1]
  exact LItem.kept_sublist _ _ _ fun p x hx => ((h3 p x).1 hx).2

/-! ### Decidability, for the examples -/

instance (f : SourceFile) (p : Nat) : Decidable (InSymbol f p) :=
  decidable_of_iff (f.tree.post.any fun m => (m.symbol f.lang).any fun sp => decide (sp.b ≤ p ∧ p < sp.e)) <| by
    simp only [List.any_eq_true, Option.any_eq_true, decide_eq_true_eq, InSymbol, Span.has]

instance (f : SourceFile) (p : Nat) : Decidable (InConst f p) :=
  decidable_of_iff (f.consts.any fun k => decide (k.span.b ≤ p ∧ p < k.span.e)) <| by
    simp only [List.any_eq_true, decide_eq_true_eq, InConst, Span.has]

instance (src : Text) (p : Nat) : Decidable (Starts src p) :=
  decidable_of_iff ((places src).any fun q => q.1 == p && q.2.1.isToken) <| by
    simp only [List.any_eq_true, Bool.and_eq_true, beq_iff_eq, Starts]
    exact ⟨fun ⟨q, h, e, h'⟩ => ⟨q.2, by rw [← e]; exact h, h'⟩, fun ⟨x, h, h'⟩ => ⟨(p, x), h, rfl, h'⟩⟩

theorem endsAt_iff (src : Text) (p : Nat) (P : Lexeme → Prop) [DecidablePred P] :
    ((places src).any fun q => q.1 + q.2.2.length == p && decide (P q.2)) = true ↔
      ∃ x, EndsAt src p x ∧ P x := by
  simp only [List.any_eq_true, Bool.and_eq_true, beq_iff_eq, decide_eq_true_eq, EndsAt]
  exact ⟨fun ⟨q, h, e, h'⟩ => ⟨q.2, ⟨q.1, h, e⟩, h'⟩, fun ⟨x, ⟨q, h, e⟩, h'⟩ => ⟨(q, x), h, e, h'⟩⟩

instance (src : Text) (p : Nat) : Decidable (Ends src p) :=
  decidable_of_iff _ (endsAt_iff src p fun x => x.1.isWhole = true)

instance (src : Text) (p : Nat) : Decidable (EndsWord src p) :=
  decidable_of_iff _ (endsAt_iff src p fun x => x.1.isWord = true)

/-! ### Words -/

namespace SampleSrc
open SampleAst

/-- `else++x` in a file: `void f(){if(x);else++x;}` -/
def elseFile : Src :=
  .node (.decl ⟨.tu, none⟩)
    [.node (.decl ⟨.func false none, some ⟨0, 24⟩⟩)
      [.tok t!"void f()",
       node .compound .plain 8 24 24
        [.tok t!"{",
         node (.if_ false) .plain 9 22 23
          [.tok t!"if(", read .plain 12 13 t!"x", .tok t!")",
           node .null .plain 14 15 15 [.tok t!";"],
           .tok t!"else",
           node (.expr { facts (.unary .preInc) (some .int) true 19 with opOff := some 19, precIdent := true })
            .plain 19 22 23
            [.tok t!"++", var .operand 21 22 t!"x"]],
         .tok t!";}"]]]

def elseParsed : ParsedFile :=
  { name := t!"a.cc", lang := Sample.cpp, src := elseFile.str, hasErrors := false
    ast := (elseFile.nodes).headD (.other .other []) }

theorem else_laid : elseFile.Laid 0 := by
  refine ⟨trivial, .inl ⟨rfl, rfl, ⟨trivial, .inl ⟨rfl, by simp [Src.Laid], rfl, ?_, trivial⟩⟩, trivial⟩⟩
  refine ⟨⟨.inr ⟨rfl, by decide, by decide, by simp⟩, by simp⟩, .inr ⟨rfl, by simp [Src.Laid], by decide,
      rfl, rfl, ?_, by simp [Src.Laid], by decide, rfl⟩⟩
  refine ⟨⟨.inr ⟨rfl, by decide, by decide, by simp⟩, by simp⟩, .inl ⟨rfl, by simp [Src.Laid], rfl,
    read_laid _ _ _, by simp [Src.Laid], rfl, ?_, by simp [Src.Laid], rfl, ?_, trivial⟩⟩
  · exact ⟨⟨.inr ⟨rfl, by decide, by decide, by simp⟩, by simp⟩, .inl ⟨rfl, by simp [Src.Laid], trivial⟩⟩
  · refine ⟨⟨.inr ⟨rfl, by decide, by decide, ?_⟩, by simp⟩, .inl ⟨rfl, by simp [Src.Laid], rfl,
      var_laid _ _ _, trivial⟩⟩
    intro e he
    injection he with he
    subst he
    exact .inl ⟨[], _, rfl, ⟨_, _, _, rfl, rfl, rfl⟩, rfl⟩

end SampleSrc

/-- C58 fails if a word comes just before an operator that is mutated: the keyword of `else++x;` is
no longer a token, because the name of the function that stands for `++` is put next to it.  (Space
is only inserted for expressions that are replaced as a whole.) -/
theorem C58_false :
    ∃ (o : Options) (f : ParsedFile) (p : Src) (out : Text),
      p.nodes = [f.ast] ∧ p.str = f.src ∧ p.Laid 0 ∧ f.src = t!"void f(){if(x);else++x;}" ∧
      (handleTU o true 0 (analyse o.optimise f)).output = some out ∧
      (∃ a b, out = a ++ t!"else__dredd_replace_unary_operator_PreInc_int" ++ b) ∧
      t!"else" ∈ tokens f.src ∧ ¬ t!"else" ∈ tokens out ∧
      ∀ q x, (q, x) ∈ places f.src → x.2 = t!"else" →
        ¬ (InSymbol (analyse o.optimise f) q ∨ InConst (analyse o.optimise f) q) := by
  refine ⟨Sample.opts, SampleSrc.elseParsed, SampleSrc.elseFile, _, rfl, rfl, SampleSrc.else_laid,
    by decide, rfl, ?_, by decide +kernel, ?_, ?_⟩
  · have h : t!"else__dredd_replace_unary_operator_PreInc_int" <:+:
        rewrite SampleSrc.elseParsed.src
          (fileEdits Sample.opts 0 (analyse Sample.opts.optimise SampleSrc.elseParsed)) := by
      decide +kernel
    obtain ⟨a, b, h⟩ := h
    exact ⟨a, b, h.symm⟩
  · decide +kernel
  · have : ∀ q ∈ places SampleSrc.elseParsed.src, q.2.2 = t!"else" →
        ¬ (InSymbol (analyse Sample.opts.optimise SampleSrc.elseParsed) q.1 ∨
          InConst (analyse Sample.opts.optimise SampleSrc.elseParsed) q.1) := by decide +kernel
    exact fun q x h => this (q, x) h

/-- An addition that is a statement, and an array. -/
def Sample.lexFile : SourceFile :=
  { Sample.file t!"a.cc" Sample.cpp with src := t!"int f(){a + b;}int x[N];", consts := [⟨⟨21, 22⟩, 3⟩] }

theorem Sample.lexFile_tokenised : Tokenised Sample.lexFile where
  opens := by decide +kernel
  closes := by decide +kernel
  stmts := by
    have : ∀ m ∈ Sample.lexFile.tree.post, ∀ s, m = .stmt s → s = Sample.stmt := by
      simp [Sample.lexFile, Sample.file, Sample.tree, MTree.post, MTree.postL]
    intro s hs
    cases this _ hs s rfl
    exact .inl (by decide +kernel)
  symbols := by
    have : ∀ m ∈ Sample.lexFile.tree.post, ∀ sp, m.symbol Sample.lexFile.lang = some sp →
        sp = ⟨10, 11⟩ := by decide
    intro m hm sp hsp
    cases this m hm sp hsp
    exact ⟨(.punct t!"+", t!"+"), by decide +kernel, rfl, rfl⟩
  unary := by simp [Sample.lexFile, Sample.file, Sample.tree, MTree.post, MTree.postL]
  consts := by
    intro k hk
    cases List.mem_singleton.1 hk
    refine ⟨by decide, by decide +kernel, by decide +kernel, ?_, ?_, ?_, by decide, by decide⟩
    · have : ∀ q ∈ places Sample.lexFile.src, q.1 + q.2.2.length = 21 →
          q.2.1.isWord = false ∧ q.2.2 ≠ t!"." := by decide +kernel
      exact fun x ⟨q, hq, e⟩ => this (q, x) hq e
    · have : ∀ q ∈ places Sample.lexFile.src, q.1 = 22 → q.2.2 = t!"]" := by decide +kernel
      intro x hx c cs h
      have := this _ hx rfl
      simp only at this
      rw [this] at h
      cases h
      decide
    · have h1 : ∀ m ∈ Sample.lexFile.tree.post, (∀ p ∈ m.opensAt, p ≤ 21) ∧ (∀ p ∈ m.closesAt, p ≤ 21) ∧
          ∀ sp, m.symbol Sample.lexFile.lang = some sp → sp.e ≤ 21 := by decide
      have h2 : ∀ m ∈ Sample.lexFile.tree.post, ∀ s, m = .stmt s → s.extEnd ≤ 21 := by
        simp [Sample.lexFile, Sample.file, Sample.tree, MTree.post, MTree.postL, Sample.stmt]
      exact fun m hm => ⟨fun p hp => .inl ((h1 m hm).1 p hp), fun p hp => .inl ((h1 m hm).2.1 p hp),
        fun sp hsp => .inl ((h1 m hm).2.2 sp hsp), fun s hs => .inl (h2 m hm s hs)⟩
  prelude := .inl rfl
  words := by
    have : ∀ m ∈ Sample.lexFile.tree.post, ∀ p ∈ m.opensAt, ¬ EndsWord Sample.lexFile.src p := by
      decide +kernel
    intro xs m ys h p hp hw
    exact absurd hw (this m (h ▸ List.mem_append_right xs List.mem_cons_self) p hp)

/-- The hypotheses of `C58_partial` hold for a file with five mutations and a constant. -/
example :
    (handleTU Sample.opts true 0 Sample.lexFile).output.isSome ∧ NodesOk Sample.opts Sample.lexFile ∧
    Tokenised Sample.lexFile ∧ Sample.lexFile.tree.post.length = 5 ∧
    (tokens Sample.lexFile.src).length = 16 :=
  ⟨by decide +kernel, by simp [NodesOk, Sample.opts], Sample.lexFile_tokenised, by decide,
    by decide +kernel⟩

end Dredd
