/-
C57: what clang's rewriter writes.
-/
import Verif.Proofs.LayoutClear
import Verif.Props.C54
import Verif.Spec.Align

namespace Dredd

/-- The offsets at which text is inserted for a mutation: where an instrumented
expression, operand or statement begins or ends. -/
def Mutation.ends : Mutation → List Nat
  | .bin s => s.ends
  | .un s => [s.span.b, s.span.e]
  | .expr s => [s.span.b, s.span.e]
  | .stmt s => [s.span.b, s.extEnd]

theorem Mutation.edits_shape (l : Lang) (o : Options) (first id : Nat) (m : Mutation) :
    ∀ e ∈ (m.apply l o first id).edits,
      (∃ q ∈ m.ends, e.InsertsAt q) ∨
        ∃ b n t sp, e = .replace b n t ∧ m.symbol l = some sp ∧ sp.b = b ∧ sp.e = b + n := by
  intro e he
  cases m with
  | expr s =>
    rcases s.edits_shape l o _ e he with h | h
    · exact .inl ⟨_, by simp [Mutation.ends], h⟩
    · exact .inl ⟨_, by simp [Mutation.ends], h⟩
  | stmt s =>
    rcases s.edits_shape o _ e he with h | h
    · exact .inl ⟨_, by simp [Mutation.ends], h⟩
    · exact .inl ⟨_, by simp [Mutation.ends], h⟩
  | un s =>
    obtain ⟨ws, h1, h2⟩ := s.edits_shape l o (id - first)
    have he : e ∈ s.edits l o (id - first) := he
    rw [h1] at he
    rcases List.mem_append.1 he with he | he
    · cases hq : s.opOff with
      | none => rw [hq] at he; cases he
      | some q =>
        rw [hq] at he
        obtain rfl := List.mem_singleton.1 he
        refine .inr ⟨_, _, _, ⟨q, q + s.op.str.length⟩, rfl, ?_, rfl, rfl⟩
        simp [Mutation.symbol, hq]
    · rcases h2 e he with h | h
      · exact .inl ⟨_, by simp [Mutation.ends], h⟩
      · exact .inl ⟨_, by simp [Mutation.ends], h⟩
  | bin s =>
    by_cases hc : (!l.cpp && s.op.isLogical) = true
    · obtain ⟨rs, ws, h1, h2, h3⟩ := s.edits_shape l o first id
      have he' : e ∈ (s.apply l o first id).edits := he
      rcases h2 with rfl | ⟨q, -, rfl⟩
      · rw [h1] at he'
        exact .inl (h3 e he')
      · exfalso
        have : Dredd.replacements (s.apply l o first id).edits q = [] := by
          unfold BinSite.apply
          rw [if_pos hc]
          unfold BinSite.applyCLogical wrapCall
          dsimp only
          split <;> simp [Dredd.replacements, Edit.replaceAt]
        rw [h1] at this
        simp [Dredd.replacements, Edit.replaceAt] at this
    · obtain ⟨rs, ws, h1, h2, h3⟩ := s.edits_shape l o first id
      have he' : e ∈ (s.apply l o first id).edits := he
      rw [h1] at he'
      rcases List.mem_append.1 he' with he' | he'
      · rcases h2 with rfl | ⟨q, hq, rfl⟩
        · cases he'
        · rw [List.mem_singleton] at he'
          refine .inr ⟨_, _, _, ⟨q, q + s.op.str.length⟩, he', ?_, rfl, rfl⟩
          simp only [Mutation.symbol, if_neg hc, hq, Option.map_some]
      · exact .inl (h3 e he')

theorem mem_editsFrom {l : Lang} {o : Options} {first : Nat} {ms : List Mutation} {id : Nat} {e : Edit}
    (h : e ∈ editsFrom l o first id ms) : ∃ m ∈ ms, ∃ id', e ∈ (m.apply l o first id').edits := by
  induction ms generalizing id with
  | nil => cases h
  | cons m ms ih =>
    rw [editsFrom] at h
    rcases List.mem_append.1 h with h | h
    · exact ⟨m, List.mem_cons_self .., _, h⟩
    · obtain ⟨m', h1, h2⟩ := ih h
      exact ⟨m', List.mem_cons_of_mem _ h1, h2⟩

theorem handleTUBuffer_eq (tok : Nat → Nat) (o : Options) (req : Bool) (id : Nat) (f : SourceFile) :
    handleTUBuffer tok o req id f =
      if fileCount o.optimise f = 0 then none
      else some (bufferText f.src (rewriterCalls tok f o id
        { nextId := id + fileCount o.optimise f, nodes := []
          edits := editsFrom f.lang o id id f.tree.post
          decls := declsFrom f.lang o id id f.tree.post })) := by
  unfold handleTUBuffer
  cases he : f.hasErrors
  · have h := applyMutations_eq f.lang o id req f.tree.tidyUp [] { nextId := id, nodes := [{}] } rfl
    simp only [List.length_nil] at h
    simp only [Bool.false_eq_true, if_false, h]
    have hc : fileCount o.optimise f = countAll f.lang o.optimise f.tree.post := by
      simp [fileCount, he]
    simp only [MTree.tidyUp_post, hc]
    by_cases h0 : countAll f.lang o.optimise f.tree.post = 0
    · simp [h0]
    · rw [if_neg (by omega), if_neg h0]
      simp only [List.nil_append, rewriterCalls]
  · simp [fileCount, he]

theorem CallsFor.of {src : Text} (ps : List (RwCall × Edit)) (pre : List Edit)
    (h1 : ∀ p ∈ ps, p.1.Does p.2 ∧ p.2.Inside src.length)
    (h2 : ∀ e ∈ pre, ∀ p ∈ ps, e.Clear p.1.isRange p.2)
    (h3 : ps.Pairwise fun a b => a.2.Clear b.1.isRange b.2) :
    CallsFor src pre (ps.map (·.1)) (ps.map (·.2)) := by
  induction ps generalizing pre with
  | nil => exact .nil _
  | cons p ps ih =>
    have ⟨h4, h5⟩ := List.pairwise_cons.1 h3
    have hp := h1 p (List.mem_cons_self ..)
    refine .cons hp.1 hp.2 (fun e he => h2 e he p (List.mem_cons_self ..)) (ih _ ?_ ?_ h5)
    · exact fun q hq => h1 q (List.mem_cons_of_mem _ hq)
    · intro e he q hq
      rcases List.mem_append.1 he with he | he
      · exact h2 e he q (List.mem_cons_of_mem _ hq)
      · rw [List.mem_singleton.1 he]
        exact h4 q hq

theorem Edit.In.inside {e : Edit} {n : Nat} (h : e.In 0 n) : e.Inside n := by
  cases e with
  | before p t => exact h.2
  | after p t => exact h.2
  | replace p m t => exact ⟨h.1, h.2.2⟩

theorem Edit.toCall_does (tok : Nat → Nat) (htok : ∀ p, tok p ≤ p) (e : Edit) : (e.toCall tok).Does e := by
  cases e with
  | before p t => exact .before p t
  | after p t =>
    have := RwCall.Does.after (p - tok p) (tok p) t
    rwa [Nat.sub_add_cancel (htok p)] at this
  | replace p n t => exact .replace p n t

theorem Edit.toCall_isRange (tok : Nat → Nat) (e : Edit) : (e.toCall tok).isRange = false := by
  cases e <;> rfl

/-- C57, for a file that is made up of pieces: `tok p` is the length of the token that ends at
`p`.  If no instrumented expression, operand or statement begins or ends where a rewritten
constant begins, and the prelude location is not inside an operator symbol or a constant, then
the rewrite buffer holds, after all calls, the text that the rest of the properties are about. -/
theorem C57_layout (tok : Nat → Nat) (o : Options) (req : Bool) (first : Nat) (f : SourceFile)
    (ls : List Lay) (hsrc : f.src = Lay.srcL ls) (hm : f.tree.post = Lay.mutsL ls)
    (hc : f.consts.Perm (Lay.constsL 0 ls)) (hf : Lay.FitsL 0 ls) (ha : Lay.ApartL ls)
    (htok : ∀ p, tok p ≤ p)
    (hlast : ∀ c ∈ f.consts, 0 < tok c.span.e ∧ c.span.b + tok c.span.e ≤ c.span.e)
    (hfree : ∀ c ∈ f.consts, ∀ m ∈ f.tree.post, c.span.b ∉ m.ends)
    (hloc : f.preludeOff.getD 0 ≤ f.src.length)
    (hsym : ∀ m ∈ f.tree.post, ∀ sp, m.symbol f.lang = some sp →
      f.preludeOff.getD 0 ≤ sp.b ∨ sp.e ≤ f.preludeOff.getD 0)
    (hcon : ∀ c ∈ f.consts, f.preludeOff.getD 0 ≤ c.span.b ∨ c.span.e ≤ f.preludeOff.getD 0) :
    handleTUBuffer tok o req first f = (handleTU o req first f).output := by
  rw [handleTUBuffer_eq, handleTU_eq]
  by_cases h0 : fileCount o.optimise f = 0
  · rw [if_pos h0, if_pos h0]
  rw [if_neg h0, if_neg h0]
  congr 1
  let loc := f.preludeOff.getD 0
  let A := editsFrom f.lang o first first f.tree.post
  let ds := sortedDecls ((declsFrom f.lang o first first f.tree.post).map MutFn.render)
  let pr := preludeText f.lang o first (first + fileCount o.optimise f - first)
  let ps : List (RwCall × Edit) :=
    A.map (fun e => (e.toCall tok, e))
    ++ f.consts.map (fun c => (c.toCall tok,
        .replace c.span.b (c.span.e - c.span.b) (natDec c.value)))
    ++ ds.map (fun d => (.insertBefore loc d, .before loc [.txt d]))
    ++ [(.insertBefore loc pr, .before loc [.txt pr])]
  have e1 : ps.map (·.1) = rewriterCalls tok f o first
        { nextId := first + fileCount o.optimise f, nodes := []
          edits := editsFrom f.lang o first first f.tree.post
          decls := declsFrom f.lang o first first f.tree.post } := by
    simp only [ps, rewriterCalls, List.map_append, List.map_map, List.map_cons, List.map_nil]
    rfl
  have e2 : ps.map (·.2) = fileEdits o first f := by
    simp only [ps, fileEdits, finishEdits, List.map_append, List.map_map, List.map_cons, List.map_nil]
    congr 3
    exact List.map_id _
  -- the edits of the mutations and of the constants
  have hT : Orderly (A ++ constEdits f.consts) 0 f.src.length := by
    have h := Lay.orderlyL f.lang o first ls 0 0 hf ha
    rw [Nat.zero_add, ← hsrc] at h
    refine h.perm ?_
    simp only [Lay.editsL, A, hm, Nat.add_zero]
    exact List.Perm.append_left _ (hc.symm.map _)
  have hTA := List.pairwise_append.1 hT.clear
  have hcE : ∀ c : ConstRewrite, c ∈ f.consts →
      Edit.replace c.span.b (c.span.e - c.span.b) (natDec c.value) ∈ constEdits f.consts := fun c hc =>
    List.mem_map.2 ⟨c, hc, rfl⟩
  have hrend : ∀ d : Text, renderPieces [.txt d] = d := fun d => by simp [renderPieces, Piece.render]
  have hloc' : ∀ d, ∀ x ∈ A ++ constEdits f.consts, x.Clear false (.before loc [.txt d]) := by
    intro d x hx
    rcases List.mem_append.1 hx with hx | hx
    · obtain ⟨m, hmm, id', hx⟩ := mem_editsFrom hx
      rcases m.edits_shape f.lang o first id' x hx with ⟨q, -, t, rfl | rfl⟩ | ⟨b, n, t, sp, rfl, hs, rfl, he⟩
      · trivial
      · trivial
      · have := hsym m hmm sp hs
        rw [he] at this
        exact this
    · obtain ⟨c, hcm, rfl⟩ := List.mem_map.1 hx
      have := hcon c hcm
      have := hlast c hcm
      show loc ≤ c.span.b ∨ c.span.b + (c.span.e - c.span.b) ≤ loc
      omega
  rw [← e1, ← e2]
  refine bufferText_eq (CallsFor.of ps [] ?_ (by simp) ?_)
  · intro p hp
    simp only [ps, List.mem_append, List.mem_map, List.mem_singleton] at hp
    rcases hp with ((⟨e, he, rfl⟩ | ⟨c, hcm, rfl⟩) | ⟨d, -, rfl⟩) | rfl
    · exact ⟨e.toCall_does tok htok, (hT.within e (List.mem_append_left _ he)).inside⟩
    · refine ⟨?_, (hT.within _ (List.mem_append_right _ (hcE c hcm))).inside⟩
      have hl := hlast c hcm
      have := RwCall.Does.range c.span.b (c.span.e - tok c.span.e - c.span.b) (tok c.span.e)
        (natDec c.value) hl.1
      rw [show c.span.b + (c.span.e - tok c.span.e - c.span.b) = c.span.e - tok c.span.e by omega,
        show c.span.e - tok c.span.e - c.span.b + tok c.span.e = c.span.e - c.span.b by omega] at this
      exact this
    · refine ⟨?_, hloc⟩
      have := RwCall.Does.before loc [.txt d]
      rwa [hrend] at this
    · refine ⟨?_, hloc⟩
      have := RwCall.Does.before loc [.txt pr]
      rwa [hrend] at this
  · have hins : ∀ x : RwCall × Edit, (∃ d, x = (.insertBefore loc d, .before loc [.txt d])) →
        ∀ y : RwCall × Edit, (∃ d, y = (.insertBefore loc d, .before loc [.txt d])) →
        x.2.Clear y.1.isRange y.2 := by
      rintro _ ⟨d, rfl⟩ _ ⟨d', rfl⟩
      trivial
    simp only [ps, List.append_assoc]
    rw [List.pairwise_append]
    refine ⟨?_, ?_, ?_⟩
    · rw [List.pairwise_map]
      simp only [Edit.toCall_isRange]
      exact hTA.1
    · rw [List.pairwise_append]
      refine ⟨?_, ?_, ?_⟩
      · rw [List.pairwise_map]
        have h := hTA.2.1
        rw [constEdits, List.pairwise_map] at h
        refine h.imp fun {c d} h => ?_
        exact h
      · rw [List.pairwise_append]
        refine ⟨?_, List.pairwise_singleton _ _, ?_⟩
        · rw [List.pairwise_map]
          exact List.pairwise_of_forall fun _ _ => trivial
        · intro x hx y hy
          obtain ⟨d, -, rfl⟩ := List.mem_map.1 hx
          rw [List.mem_singleton] at hy
          exact hins _ ⟨d, rfl⟩ _ ⟨pr, hy⟩
      · intro x hx y hy
        obtain ⟨c, hcm, rfl⟩ := List.mem_map.1 hx
        have hcl := fun d => hloc' d _ (List.mem_append_right _ (hcE c hcm))
        rcases List.mem_append.1 hy with hy | hy
        · obtain ⟨d, -, rfl⟩ := List.mem_map.1 hy
          exact hcl d
        · rw [List.mem_singleton.1 hy]
          exact hcl pr
    · intro x hx y hy
      obtain ⟨e, he, rfl⟩ := List.mem_map.1 hx
      rcases List.mem_append.1 hy with hy | hy
      · obtain ⟨c, hcm, rfl⟩ := List.mem_map.1 hy
        have hclr := hTA.2.2 e he _ (hcE c hcm)
        obtain ⟨m, hmm, id', hx⟩ := mem_editsFrom he
        rcases m.edits_shape f.lang o first id' e hx with ⟨q, hq, t, rfl | rfl⟩ | ⟨b, n, t, sp, rfl, -⟩
        · have hne : c.span.b ≠ q := fun h => hfree c hcm m hmm (h ▸ hq)
          have : q ≤ c.span.b ∨ c.span.b + (c.span.e - c.span.b) ≤ q := hclr
          show q < c.span.b ∨ c.span.b + (c.span.e - c.span.b) ≤ q
          omega
        · have hne : c.span.b ≠ q := fun h => hfree c hcm m hmm (h ▸ hq)
          have : q ≤ c.span.b ∨ c.span.b + (c.span.e - c.span.b) ≤ q := hclr
          show q < c.span.b ∨ c.span.b + (c.span.e - c.span.b) ≤ q
          omega
        · exact hclr
      · have hcl := fun d => hloc' d e (List.mem_append_left _ he)
        rcases List.mem_append.1 hy with hy | hy
        · obtain ⟨d, -, rfl⟩ := List.mem_map.1 hy
          exact hcl d
        · rw [List.mem_singleton.1 hy]
          exact hcl pr

/-- C57: let a file be parsed, the syntax tree being laid out over the text (`p`), and let the
constants that are rewritten be the ones marked in the text.  `tok q` is the length of the
token that ends at `q`.  If no instrumented expression, operand or statement begins or ends
where a rewritten constant begins, and the prelude location is not inside an operator symbol
or a constant, then clang's rewrite buffer holds, after all calls in the order in which they are
made, the text that the rest of the properties are about. -/
theorem C57 (tok : Nat → Nat) (o : Options) (req : Bool) (first : Nat) (f : ParsedFile) (p : Src)
    (hast : p.nodes = [f.ast]) (hsrc : p.str = f.src) (hl : p.Laid 0)
    (hc : (analyse o.optimise f).consts.Perm (p.consts 0))
    (htok : ∀ q, tok q ≤ q)
    (hlast : ∀ c ∈ p.consts 0, 0 < tok c.span.e ∧ c.span.b + tok c.span.e ≤ c.span.e)
    (hfree : ∀ c ∈ p.consts 0, ∀ m ∈ (analyse o.optimise f).tree.post, c.span.b ∉ m.ends)
    (hloc : (analyse o.optimise f).preludeOff.getD 0 ≤ f.src.length)
    (hsym : ∀ m ∈ (analyse o.optimise f).tree.post, ∀ sp, m.symbol f.lang = some sp →
      (analyse o.optimise f).preludeOff.getD 0 ≤ sp.b ∨
        sp.e ≤ (analyse o.optimise f).preludeOff.getD 0)
    (hcon : ∀ c ∈ p.consts 0, (analyse o.optimise f).preludeOff.getD 0 ≤ c.span.b ∨
      c.span.e ≤ (analyse o.optimise f).preludeOff.getD 0) :
    handleTUBuffer tok o req first (analyse o.optimise f)
      = (handleTU o req first (analyse o.optimise f)).output := by
  obtain ⟨ls, h1, h2, h3, h4, -, h6⟩ := source_layout o.optimise f p hast hsrc hl
  exact C57_layout tok o req first (analyse o.optimise f) ls h2 h1 (by rw [h3]; exact hc) h4 h6 htok
    (fun c hm => hlast c (hc.mem_iff.1 hm)) (fun c hm => hfree c (hc.mem_iff.1 hm)) hloc hsym
    fun c hm => hcon c (hc.mem_iff.1 hm)

namespace SampleSrc

/-- The lengths of the tokens of `file`, as far as it matters. -/
def tokens (q : Nat) : Nat := if q = 28 then 2 else min 1 q

end SampleSrc

/-- The hypotheses of `C57` hold for `void g(){x = -b; case 1: y++;}\nint a[N];`. -/
example :
    SampleSrc.file.nodes = [SampleSrc.parsed.ast] ∧ SampleSrc.file.str = SampleSrc.parsed.src ∧
    SampleSrc.file.Laid 0 ∧
    (analyse Sample.opts.optimise SampleSrc.parsed).consts.Perm (SampleSrc.file.consts 0) ∧
    (∀ q, SampleSrc.tokens q ≤ q) ∧
    (∀ c ∈ SampleSrc.file.consts 0, 0 < SampleSrc.tokens c.span.e ∧
      c.span.b + SampleSrc.tokens c.span.e ≤ c.span.e) ∧
    (∀ c ∈ SampleSrc.file.consts 0,
      ∀ m ∈ (analyse Sample.opts.optimise SampleSrc.parsed).tree.post, c.span.b ∉ m.ends) ∧
    (analyse Sample.opts.optimise SampleSrc.parsed).preludeOff = none ∧
    (handleTU Sample.opts true 0 (analyse Sample.opts.optimise SampleSrc.parsed)).output.isSome := by
  refine ⟨rfl, rfl, SampleSrc.file_laid, ?_, ?_, by decide, by decide, by decide, by decide +kernel⟩
  · have : (analyse Sample.opts.optimise SampleSrc.parsed).consts = SampleSrc.file.consts 0 := by decide
    rw [this]
  · intro q
    simp only [SampleSrc.tokens]
    split <;> omega

/-- The condition on constants is needed: if an expression that is just a constant is
instrumented, and the constant rewritten, then the buffer replaces too much, because the size of
the range counts the text inserted at its begin.  Here, the parenthesis and the semicolon behind
the constant are lost. -/
theorem C57_needs_free :
    ∃ (src : Text) (es : List Edit) (cs : List RwCall),
      src = t!"N;int x;" ∧ es = [.before 0 [.txt t!"f("], .after 1 [.txt t!")"], .replace 0 1 t!"5"] ∧
      cs = [.insertBefore 0 t!"f(", .insertAfterToken 0 1 t!")", .replaceRange 0 0 1 t!"5"] ∧
      (∀ x ∈ cs.zip es, x.1.Does x.2) ∧
      rewrite src es = t!"f(5);int x;" ∧ bufferText src cs = t!"f(5int x;" := by
  refine ⟨_, _, _, rfl, rfl, rfl, ?_, by decide, by decide⟩
  intro x hx
  simp only [List.zip_cons_cons, List.zip_nil_right, List.mem_cons, List.not_mem_nil, or_false] at hx
  rcases hx with rfl | rfl | rfl
  · exact .before 0 [.txt t!"f("]
  · exact .after 0 1 [.txt t!")"]
  · exact .range 0 0 1 t!"5" (by decide)

end Dredd
