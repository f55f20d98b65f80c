/-
C62: instrumented programs are programs of the same grammar.
-/
import Verif.Proofs.GrammarLex
import Verif.Proofs.LexFile
import Verif.Proofs.CGrammar
import Verif.Props.C30
import Verif.Props.C59

namespace Dredd

/-- C62: let parsed source text be instrumented, for any grammar that has the rules of C or C++ that
matter.  The tokens of the new text are those of the trees that say what the instrumentation is to be
(`Syn.instr`), every node of these trees is made by a rule of the grammar, and what was one phrase is
one phrase, which may stand wherever the original may stand.  (An item of a block may become two of
them.) -/
theorem C62 (G : Grammar) (l : Lang) (o : Options) (id : Nat) (x : Syn) (hG : G.Has l.cpp)
    (hp : x.Parsed G l.cpp) (hx : x.Lexed none)
    (hm : ∀ m ∈ Lay.mutsL x.lay, m.Readable l ∧ (o.showAst = true → '*' ∉ m.node)) :
    tokens (Lay.outL l o id x.lay) = Tree.yieldL (x.instr l o id) ∧
    Tree.ValidL G (x.instr l o id) ∧
    ∀ p, x.phrase = some p →
      (p ≠ .item → ∃ q ks, x.instr l o id = [.node q ks] ∧
        ∀ w, p.fits w = true → (∀ k, w = .expr k → k ≤ 16) → q.fits w = true) ∧
      (p = .item → x.instr l o id ≠ [] ∧
        ∀ t ∈ x.instr l o id, ∃ q ks, t = .node q ks ∧ q.fits .item = true) := by
  obtain ⟨h1, h2⟩ := Syn.instr_fine hG o x id hp fun m h => (hm m h).1
  refine ⟨(Syn.reads hG o x id none hp hx hm known_none).1.toks, h1, fun p hph => ⟨fun hi => ?_, fun hi => ?_⟩⟩
  · rcases h2 p hph with ⟨q, ks, h, hs⟩ | ⟨h, -⟩
    · exact ⟨q, ks, h, hs⟩
    · exact absurd h hi
  · rcases h2 p hph with ⟨q, ks, h, hs⟩ | ⟨-, h, hs⟩
    · rw [h]
      refine ⟨by simp, fun t ht => ?_⟩
      rw [List.mem_singleton] at ht
      exact ⟨q, ks, ht, hs _ (by rw [hi]; rfl) (by intro k hk; cases hk)⟩
    · exact ⟨h, hs⟩

theorem pre_reads {pre : Text}
    (h : pre = [] ∨ lastLex pre = some .white ∨ lastLex pre = some .comment) :
    Reads none pre (tokens pre) none := by
  rw [lastLex_endSt] at h
  rcases h with rfl | h | h
  · exact Reads.nil none
  · exact Reads.done (fun c _ _ => ok_none c) h fun _ => rfl
  · exact Reads.done (fun c _ _ => ok_none c) h fun _ => rfl

/-- The parts of the output. -/
theorem file_trees (o : Options) (req : Bool) (first : Nat) (f : SourceFile) (out pre : Text) (G : Grammar)
    (x : Syn) (h : (handleTU o req first f).output = some out)
    (hpre : pre = [] ∨ lastLex pre = some .white ∨ lastLex pre = some .comment)
    (hsrc : f.src = pre ++ Lay.srcL x.lay) (hloc : f.preludeOff.getD 0 = pre.length)
    (hm : f.tree.post = Lay.mutsL x.lay) (hc : f.consts.Perm (Lay.constsL pre.length x.lay))
    (hf : Lay.FitsL pre.length x.lay) (hs : Lay.spaced x.lay) (ha : Lay.ApartL x.lay)
    (hG : G.Has f.lang.cpp) (hp : x.Parsed G f.lang.cpp) (hx : x.Lexed none)
    (hr : ∀ m ∈ f.tree.post, m.Readable f.lang ∧ (o.showAst = true → '*' ∉ m.node)) :
    ∃ (pts : List (Nat × Mutation)) (ds : List Text),
      pts.map (·.2) = f.tree.post ∧ StrictlySorted ds ∧
      (∀ t, t ∈ ds ↔ ∃ p ∈ pts, ∃ fn ∈ (p.2.apply f.lang o first p.1).decls, t = fn.render) ∧
      out = pre ++ (preludeText f.lang o first ((handleTU o req first f).nextId - first) ++
        ds.reverse.flatten) ++ Lay.outL f.lang o 0 x.lay ∧
      tokens out = tokens pre ++
        tokens (preludeText f.lang o first ((handleTU o req first f).nextId - first)) ++
        tokens ds.reverse.flatten ++ Tree.yieldL (x.instr f.lang o 0) ∧
      Tree.ValidL G (x.instr f.lang o 0) := by
  obtain ⟨pts, ds, others, back, hpts, hnum, hso, hmem, ho, e1, e2⟩ := C23_output o req first f out h
    (by rw [hloc, hsrc]; simp)
  have hout : (rewrite (f.src.take (f.preludeOff.getD 0))
        (others.filter fun e => e.off < f.preludeOff.getD 0)) = pre ∧ back = Lay.outL f.lang o 0 x.lay := by
    by_cases h0 : pre = []
    · subst h0
      obtain ⟨h3, -⟩ := others_out o first f x.lay pts hpts hnum hsrc hm hc hf hs ha others ho
      have : rewrite (f.src.take (f.preludeOff.getD 0))
          (others.filter fun e => e.off < f.preludeOff.getD 0) = [] := by
        rw [hloc]
        have : others.filter (fun e => decide (e.off < 0)) = [] := by simp
        simp only [List.length_nil, this, List.take_zero]
        rfl
      rw [h3, this] at e1
      exact ⟨this, e1.symm⟩
    · have hsp : Lay.spaced (.text pre :: x.lay) := by
        cases hl : x.lay with
        | nil => rfl
        | cons y ys =>
          rw [hl] at hs
          simp [Lay.spaced, Lay.isNode, hs]
      obtain ⟨h3, h4⟩ := others_out o first f (.text pre :: x.lay) pts hpts hnum hsrc
        (by simpa [Lay.mutsL, Lay.muts] using hm)
        (by simpa [Lay.constsL, Lay.consts, Lay.src] using hc)
        ⟨trivial, by simpa [Lay.src] using hf⟩ hsp ⟨h0, ha⟩ others ho
      have h4 := h4 pre x.lay rfl
      rw [← hloc] at h4
      rw [h3, h4] at e1
      have : Lay.outL f.lang o 0 (.text pre :: x.lay) = pre ++ Lay.outL f.lang o 0 x.lay := by
        simp [Lay.outL, Lay.out, Lay.muts, countAll]
      rw [this] at e1
      exact ⟨h4, (List.append_cancel_left e1).symm⟩
  rw [hout.1, hout.2] at e2
  have hshut : Shut ds.reverse.flatten := by
    rw [← List.flatMap_id]
    refine Shut.flatMap fun t ht => ?_
    obtain ⟨p, hp, fn, hfn, rfl⟩ := (hmem t).1 (List.mem_reverse.1 ht)
    exact (fn.render_head (p.2.decls_proper f.lang o first p.1 fn hfn)).1.shut
  obtain ⟨hv, -⟩ := Syn.instr_fine hG o x 0 hp fun m h => (hr m (by rw [hm]; exact h)).1
  refine ⟨pts, ds, hpts, hso, hmem, e2, ?_, hv⟩
  obtain ⟨s, hs1, hs2⟩ := (preludeText_seals f.lang o first
    ((handleTU o req first f).nextId - first)).done
  have r1 := Reads.done (st := none) (fun c _ _ => ok_none c) hs1 hs2
  have r2 : Reads none ds.reverse.flatten (tokens ds.reverse.flatten) none := by
    rcases hshut with h | h
    · rw [h]; exact Reads.nil none
    · obtain ⟨s, hs1, hs2⟩ := h.done
      exact Reads.done (st := none) (fun c _ _ => ok_none c) hs1 hs2
  have r3 := (Syn.reads hG o x 0 none hp hx (fun m h => hr m (by rw [hm]; exact h)) known_none).1
  have := ((pre_reads hpre).append (r1.append r2)).append r3
  rw [e2, this.toks]
  simp

/-- C62: a file that begins with white space, comments and directives (`pre`), in front of the
prelude location, and is parsed behind it.  If it is mutated, the output has this text, the prelude,
definitions of functions that give to every instrumented point its meaning (as in C59), and a
program whose tokens are those of the trees.  (`out` is compared as a list of tokens; the prelude is
read as text, C09 and C12 are about it.) -/
theorem C62_file (o : Options) (req : Bool) (first : Nat) (f : SourceFile) (out pre : Text) (G : Grammar)
    (x : Syn) (h : (handleTU o req first f).output = some out)
    (hpre : pre = [] ∨ lastLex pre = some .white ∨ lastLex pre = some .comment)
    (hsrc : f.src = pre ++ Lay.srcL x.lay) (hloc : f.preludeOff.getD 0 = pre.length)
    (hm : f.tree.post = Lay.mutsL x.lay) (hc : f.consts.Perm (Lay.constsL pre.length x.lay))
    (hf : Lay.FitsL pre.length x.lay) (hs : Lay.spaced x.lay) (ha : Lay.ApartL x.lay)
    (hG : G.Has f.lang.cpp) (hp : x.Parsed G f.lang.cpp) (hx : x.Lexed none)
    (hr : ∀ m ∈ f.tree.post, m.Readable f.lang ∧ (o.showAst = true → '*' ∉ m.node)) :
    ∃ defs fs,
      out = pre ++ (preludeText f.lang o first ((handleTU o req first f).nextId - first) ++ defs) ++
        Lay.outL f.lang o 0 x.lay ∧
      readFns defs = some fs ∧ (∀ m ∈ f.tree.post, m.MeaningIn fs f.lang o) ∧
      tokens out = tokens pre ++
        tokens (preludeText f.lang o first ((handleTU o req first f).nextId - first)) ++ tokens defs ++
        Tree.yieldL (x.instr f.lang o 0) ∧
      Tree.ValidL G (x.instr f.lang o 0) := by
  obtain ⟨pts, ds, hpts, hso, hmem, e, ht, hv⟩ :=
    file_trees o req first f out pre G x h hpre hsrc hloc hm hc hf hs ha hG hp hx hr
  obtain ⟨fs, h1, h2, -⟩ := defs_read o first f (fun m h => (hr m h).1) pts ds hpts hso hmem
  exact ⟨_, fs, e, h1, h2, ht, hv⟩

/-! ### An example -/

instance decApart (st : Option Lexing) (t : Text) : Decidable (apart st t) :=
  match st, t with
  | none, _ => isTrue fun _ _ _ h => by cases h
  | _, [] => isTrue fun _ _ _ _ h => by cases h
  | some s, c :: _ =>
    if h : s.more c = none then isTrue fun _ _ _ h1 h2 => by cases h1; cases h2; exact h
    else isFalse fun h' => h (h' s c _ rfl rfl)

instance decIsGap (g : Text) : Decidable (IsGap g) := inferInstanceAs (Decidable (_ ∧ _))

instance decNoWord (st : Option Lexing) : Decidable (NoWord st) :=
  match st with
  | none => isTrue fun _ h => by cases h
  | some s =>
    if h : s.isWord = false ∧ s ≠ .line then isTrue fun _ h1 => by cases h1; exact h
    else isFalse fun h' => h (h' s rfl)

instance Syn.decEnds (x : Syn) : Decidable x.Ends := inferInstanceAs (Decidable (_ ≠ _))

instance decOneLex (t : Text) : Decidable (∃ s, lexemes t = [(s, t)] ∧ s.isWhole = true) :=
  match h : lexemes t with
  | [(s, u)] =>
    if h' : u = t ∧ s.isWhole = true then isTrue ⟨s, by rw [h'.1], h'.2⟩
    else isFalse fun ⟨v, h1, h2⟩ => h' (by
      simp only [List.cons.injEq, Prod.mk.injEq, and_true] at h1
      exact ⟨h1.2, h1.1 ▸ h2⟩)
  | [] => isFalse fun ⟨_, h1, _⟩ => by cases h1
  | _ :: _ :: _ => isFalse fun ⟨_, h1, _⟩ => by cases h1

mutual
def Syn.decLexed (st : Option Lexing) : (x : Syn) → Decidable (x.Lexed st)
  | .tok t => inferInstanceAs (Decidable (_ ∧ _))
  | .gap g => inferInstanceAs (Decidable (_ ∧ _))
  | .node _ ks => Syn.decLexedL st ks
  | .const _ v => inferInstanceAs (Decidable (apart st (natDec v)))
  | .expr s x =>
    have := x.decLexed none
    inferInstanceAs (Decidable ((NoWord st ∨ s.precIdent = true ∧ st ≠ some .line) ∧ x.Lexed none ∧ x.Ends))
  | .bin s a g1 g2 b =>
    have := a.decLexed none
    have := b.decLexed none
    inferInstanceAs (Decidable (NoWord st ∧ a.Lexed none ∧ a.Ends ∧ apart (a.after none) (g1 ++ s.op.str) ∧
      IsGap g1 ∧ IsGap g2 ∧ b.Lexed none ∧ b.Ends))
  | .pre _ g x =>
    have := x.decLexed none
    inferInstanceAs (Decidable (NoWord st ∧ IsGap g ∧ x.Lexed none ∧ x.Ends))
  | .post _ x g =>
    have := x.decLexed none
    inferInstanceAs (Decidable (NoWord st ∧ x.Lexed none ∧ x.Ends ∧ apart (x.after none) g ∧ IsGap g))
  | .stmt s x ext =>
    have := x.decLexed none
    inferInstanceAs (Decidable (NoWord st ∧ x.Lexed none ∧ x.Ends ∧ apart (x.after none) ext ∧
      (ext = [] ∨ lastLex ext = some .white ∨ lastLex ext = some .comment ∨
        lastLex ext = some (.punct t!";") ∨
        lastLex ext = some .line ∧ s.extComment = true ∧ s.extSemi = false)))

def Syn.decLexedL (st : Option Lexing) : (xs : List Syn) → Decidable (Syn.LexedL st xs)
  | [] => isTrue trivial
  | k :: ks =>
    have := k.decLexed st
    have := Syn.decLexedL (k.after st) ks
    inferInstanceAs (Decidable (k.Lexed st ∧ Syn.LexedL (k.after st) ks))
end

instance Syn.instLexed (st : Option Lexing) (x : Syn) : Decidable (x.Lexed st) := x.decLexed st

namespace Sample

def stmtA : StmtSite := ⟨⟨14, 17⟩, 18, false, true, false, info, []⟩
def stmtB : StmtSite := ⟨⟨19, 23⟩, 24, false, true, false, info, []⟩
def assignX : BinSite :=
  ⟨.assign, intVar, intVal, .int, some 20, ⟨19, 23⟩, ⟨19, 20⟩, ⟨21, 23⟩, info, info, info, []⟩
def minusB : UnSite := ⟨.minus, intVal, intVal, some 21, ⟨21, 23⟩, info, info, []⟩
def exprMinusB : ExprSite := ⟨intVal, none, false, true, none, false, ⟨21, 23⟩, info, []⟩
def exprB : ExprSite := ⟨intVal, none, false, true, none, false, ⟨22, 23⟩, info, []⟩

/-- A name. -/
def nameS (x : Text) : Syn := .node (.expr 17) [.tok x]

/-- `void f(){a(); x=-b;}`, parsed, at offset 5, with mutations of both statements, of the
assignment, of the minus, of `-b` and of `b`. -/
def funSyn : Syn :=
  .node (.other t!"function") [.tok t!"void", .gap t!" ", .tok t!"f", .tok t!"(", .tok t!")",
    .node .closed [.tok t!"{",
      .stmt stmtA (.node (.expr 16) [nameS t!"a", .tok t!"(", .tok t!")"]) t!";", .gap t!" ",
      .stmt stmtB (.bin assignX (nameS t!"x") [] []
        (.expr exprMinusB (.pre minusB [] (.expr exprB (nameS t!"b"))))) t!";",
      .tok t!"}"]]

def funFile : SourceFile :=
  { name := t!"a.cc", lang := cpp, src := t!"// f\nvoid f(){a(); x=-b;}", hasErrors := false
    tree := .node []
      [.node [.stmt stmtA] [],
       .node [.stmt stmtB]
        [.node [.bin assignX] [.node [.un minusB, .expr exprMinusB] [.node [.expr exprB] []]]]]
    consts := [], preludeOff := some 5 }

theorem name_parsed {cpp : Bool} (x : Text) (h : x ≠ []) (hw : x.all wordChar = true) :
    (nameS x).Parsed (cGrammar cpp) cpp :=
  ⟨⟨_, .word x h hw, rfl, trivial⟩, fun k h => by cases h; omega, trivial, trivial⟩

theorem funSyn_parsed : funSyn.Parsed (cGrammar true) true := by
  refine ⟨⟨_, .function t!"f", rfl, rfl, rfl, rfl, ⟨_, rfl, rfl⟩, trivial⟩, by simp, trivial, trivial,
    trivial, trivial, trivial, ⟨⟨_, .block 2, rfl, ⟨_, rfl, rfl⟩, ⟨_, rfl, rfl⟩, rfl, trivial⟩, by simp, trivial,
      ?_, trivial, ?_, trivial, trivial⟩, trivial⟩
  · refine ⟨by decide, ⟨_, rfl, .inl ⟨rfl, by decide⟩⟩, ⟨_, .call 0, ⟨_, rfl, by decide⟩, rfl, rfl, trivial⟩,
      by simp, name_parsed _ (by decide) (by decide), trivial, trivial, trivial⟩
  · refine ⟨by decide, ⟨_, rfl, .inl ⟨rfl, by decide⟩⟩, ⟨_, rfl, by decide, by decide⟩, ⟨_, rfl, by decide, by decide⟩,
      name_parsed _ (by decide) (by decide), .inl ⟨_, rfl, by decide, by decide⟩, by simp [exprMinusB],
      ⟨_, rfl, by decide, by decide⟩, .inl ⟨_, rfl, by decide, by decide⟩, by simp [exprB],
      name_parsed _ (by decide) (by decide)⟩

theorem funSyn_lexed : funSyn.Lexed none := by
  decide +kernel

end Sample

/-- The hypotheses of `C62_file` (and of `C62`) hold for `void f(){a(); x=-b;}` with a comment. -/
example :
    (cGrammar Sample.cpp.cpp).Has Sample.cpp.cpp ∧ Sample.funSyn.Parsed (cGrammar true) true ∧
    Sample.funSyn.Lexed none ∧
    (handleTU Sample.opts true 5 Sample.funFile).output.isSome ∧
    lastLex t!"// f\n" = some .white ∧ Sample.funFile.src = t!"// f\n" ++ Lay.srcL Sample.funSyn.lay ∧
    Sample.funFile.tree.post = Lay.mutsL Sample.funSyn.lay ∧
    Sample.funFile.consts.Perm (Lay.constsL 5 Sample.funSyn.lay) ∧
    Lay.FitsL 5 Sample.funSyn.lay ∧ Lay.spaced Sample.funSyn.lay ∧ Lay.ApartL Sample.funSyn.lay ∧
    (∀ m ∈ Sample.funFile.tree.post, m.Readable Sample.cpp ∧ (Sample.opts.showAst = true → '*' ∉ m.node)) ∧
    Tree.yieldL (Sample.funSyn.instr Sample.cpp Sample.opts 0) = tokens
      (t!"void f(){if (!__dredd_enabled_mutation(0)) { a(); } " ++
       t!"if (!__dredd_enabled_mutation(25)) { " ++
       t!"__dredd_replace_binary_operator_Assign_arg1_int_arg2_int(x," ++
       t!"__dredd_replace_expr_int(__dredd_replace_unary_operator_Minus_int(" ++
       t!"__dredd_replace_expr_int(b, 1), 7), 9), 15); }}") := by
  refine ⟨cGrammar_has _, Sample.funSyn_parsed, Sample.funSyn_lexed, by decide, by decide, by decide, by decide,
    .refl _, ?_, by decide, ?_, ?_, by decide +kernel⟩
  · refine ⟨trivial, trivial, trivial, trivial, trivial, trivial, ?_⟩
    simp [Syn.lay, Syn.layL, gapLay, Sample.nameS, Sample.stmtA, Sample.stmtB, Sample.assignX, Sample.minusB,
      Sample.exprMinusB, Sample.exprB, Lay.FitsL, Lay.Fits, Lay.srcL, Lay.src]
    decide
  · simp [Sample.funSyn, Syn.lay, Syn.layL, gapLay, Sample.nameS, Lay.ApartL, Lay.Apart, Lay.spaced, Lay.isNode]
  · intro m hm
    have : m ∈ [Mutation.stmt Sample.stmtA, .expr Sample.exprB, .un Sample.minusB,
      .expr Sample.exprMinusB, .bin Sample.assignX, .stmt Sample.stmtB] := hm
    simp only [List.mem_cons, List.not_mem_nil, or_false] at this
    rcases this with rfl | rfl | rfl | rfl | rfl | rfl <;>
      simp [Mutation.Readable, Sample.minusB, Sample.assignX, UOp.fnName?, BOp.fnName?, Sample.cpp,
        Sample.opts]

end Dredd
