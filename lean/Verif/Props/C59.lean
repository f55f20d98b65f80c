/-
C59: the text of the generated functions, read as C or C++, means what the other
properties say about them.
-/
import Verif.Proofs.CReadFns
import Verif.Props.C15
import Verif.Props.C24

namespace Dredd

/-- The functions `fs` do for the point what the semantics of points (`Sem/Exec.lean`) says.  A
function is found by the name that the inserted call has. -/
def Mutation.MeaningIn (fs : List CFn) (l : Lang) (o : Options) : Mutation → Prop
  | .bin s =>
    if !l.cpp && s.op.isLogical then
      ∃ fo ∈ fs, fo.name = s.fnName l o.optimise ++ t!"_outer" ∧
        (o.track = true → ∀ (S V D : Type) (M : Machine S V) (dev : Device D) (k : Nat)
          (c1 c2 : Comp (S × D) V),
          fo.call M dev k [(M.withState D).evalBin s.op c1 c2] = s.exec l o M dev k c1 c2) ∧
        (o.track = false →
          ∃ fl ∈ fs, ∃ fr ∈ fs, fl.name = s.fnName l o.optimise ++ t!"_lhs" ∧
            fr.name = s.fnName l o.optimise ++ t!"_rhs" ∧
            ∀ (S V D : Type) (M : Machine S V) (dev : Device D) (k : Nat) (c1 c2 : Comp (S × D) V),
              fo.call M dev k [(M.withState D).evalBin s.op (fl.call M dev k [c1])
                (fr.call M dev k [c2])] = s.exec l o M dev k c1 c2)
    else ∃ g ∈ fs, g.name = s.fnName l o.optimise ∧
      g.params.map (fun p => typeText p.ty) = (s.genFn l o 0).params.map Param.tyText ++ [t!"int"] ∧
      ∀ (S V D : Type) (M : Machine S V) (dev : Device D) (k : Nat) (c1 c2 : Comp (S × D) V),
        g.call M dev k [c1, c2] = s.exec l o M dev k c1 c2
  | .un s => ∃ g ∈ fs, g.name = s.fnName l o.optimise ∧
      g.params.map (fun p => typeText p.ty) = (s.genFn l o 0).params.map Param.tyText ++ [t!"int"] ∧
      ∀ (S V D : Type) (M : Machine S V) (dev : Device D) (k : Nat) (c : Comp (S × D) V),
        g.call M dev k [c] = s.exec l o M dev k c
  | .expr s => ∃ g ∈ fs, g.name = s.fnName l o.optimise ∧
      g.params.map (fun p => typeText p.ty) = (s.genFn l o 0).params.map Param.tyText ++ [t!"int"] ∧
      ∀ (S V D : Type) (M : Machine S V) (dev : Device D) (k : Nat) (c : Comp (S × D) V),
        g.call M dev k [c] = s.exec l o M dev k c
  | .stmt _ => True

/-! ### Types of parameters -/

theorem typeText_append (xs : List Text) (x : Text) (ys : List Text) (h : xs ≠ []) :
    typeText (xs ++ x :: ys) = typeText xs ++
      (if (xs.getLast h) |> fun t => isIdent t && isIdent x then t!" " else []) ++ typeText (x :: ys) := by
  induction xs with
  | nil => exact absurd rfl h
  | cons a xs ih =>
    cases xs with
    | nil => simp [typeText]
    | cons b xs =>
      have := ih (by simp)
      simp only [List.cons_append] at this ⊢
      simp only [typeText, this, List.append_assoc]
      simp

theorem tyToks_text (p : Param) (h : goodTy p.ty = true) : typeText (tyToks p) = p.tyText := by
  obtain ⟨h1, h2, h3⟩ := goodTy_toks h
  cases hm : p.mode with
  | value => simpa [tyToks, Param.tyText, hm] using h3
  | deref => simpa [tyToks, Param.tyText, hm] using h3
  | thunk =>
    simp only [tyToks, Param.tyText, hm]
    obtain ⟨t, ts, ht⟩ : ∃ t ts, tokens p.ty = t :: ts := by
      cases hx : tokens p.ty with
      | nil => exact absurd hx h2
      | cons t ts => exact ⟨_, _, rfl⟩
    have a1 := typeText_append [t!"std", t!"::", t!"function", t!"<"] t (ts ++ [t!"(", t!")", t!">"])
      (by simp)
    have a2 := typeText_append (t :: ts) t!"(" [t!")", t!">"] (by simp)
    rw [List.append_assoc, ht]
    show typeText ([t!"std", t!"::", t!"function", t!"<"] ++ t :: (ts ++ [t!"(", t!")", t!">"])) = _
    rw [a1]
    rw [show typeText (t :: (ts ++ [t!"(", t!")", t!">"])) = _ from a2]
    rw [ht] at h3
    rw [h3]
    have e1 : isIdent t!"<" = false := by decide
    have e2 : isIdent t!"(" = false := by decide
    simp only [List.getLast_cons_cons, List.getLast_singleton, e1, e2, Bool.false_and, Bool.and_false,
      Bool.false_eq_true, if_false, List.append_nil]
    rw [show typeText [t!"std", t!"::", t!"function", t!"<"] = t!"std::function<" by decide,
      show typeText [t!"(", t!")", t!">"] = t!"()>" by decide, List.append_assoc]

theorem read_types (f : MutFn) (h : f.Plain) :
    f.read.params.map (fun p => typeText p.ty) = f.params.map Param.tyText ++ [t!"int"] := by
  simp only [MutFn.read, List.map_append, List.map_map, List.map_cons, List.map_nil]
  congr 1
  exact List.map_congr_left fun p hp => tyToks_text p (h.tys p hp)

/-! ### Points -/

theorem point_meaning (m : Mutation) (l : Lang) (o : Options) (first id : Nat) (h : m.Readable l)
    (fs : List CFn) (hfs : ∀ f ∈ (m.apply l o first id).decls, f.read ∈ fs) : m.MeaningIn fs l o := by
  cases m with
  | bin s =>
    simp only [Mutation.MeaningIn]
    split
    · rename_i hc
      have hd : (s.apply l o first id).decls =
          (if o.track then [] else [cLogicalLhsFn s l o, cLogicalRhsFn s l o]) ++
            [cLogicalOuterFn s l o] := by
        unfold BinSite.apply
        rw [if_pos hc]
        unfold BinSite.applyCLogical
        cases o.track <;> rfl
      have hfs : ∀ f ∈ (s.apply l o first id).decls, f.read ∈ fs := hfs
      rw [hd] at hfs
      have call : ∀ f, f = cLogicalLhsFn s l o ∨ f = cLogicalRhsFn s l o ∨ f = cLogicalOuterFn s l o →
          ∀ (S V D : Type) (M : Machine S V) (dev : Device D) (k : Nat) (c : Comp (S × D) V),
            f.read.call M dev k [c] = f.call1 M dev k c := by
        intro f hf S V D M dev k c
        obtain ⟨h1, h2, h3⟩ := cLogical_plain s l o f hf
        have h4 : ∃ p, f.params = [p] ∧ p.arg = .arg := by
          rcases hf with rfl | rfl | rfl <;> exact ⟨_, rfl, rfl⟩
        obtain ⟨p, hp, ha⟩ := h4
        exact call1_read f p h1 hp ha (h2 p (by simp [hp])) h3 M dev k c
      refine ⟨_, hfs (cLogicalOuterFn s l o) (by simp), rfl, ?_, ?_⟩
      · intro ht S V D M dev k c1 c2
        rw [call _ (.inr (.inr rfl))]
        simp only [BinSite.exec, hc, if_true, ht]
      · intro ht
        refine ⟨_, hfs (cLogicalLhsFn s l o) (by simp [ht]), _, hfs (cLogicalRhsFn s l o) (by simp [ht]),
          rfl, rfl, ?_⟩
        intro S V D M dev k c1 c2
        rw [call _ (.inr (.inr rfl)), call _ (.inl rfl), call _ (.inr (.inl rfl))]
        simp only [BinSite.exec, hc, if_true, ht, Bool.false_eq_true, if_false]
    · rename_i hc
      obtain ⟨h1, h2, h3⟩ := s.fn_plain l o id h
      have hmem : (s.genFn l o id).read ∈ fs := by
        refine hfs _ ?_
        show _ ∈ (s.apply l o first id).decls
        unfold BinSite.apply
        rw [if_neg hc]
        simp
      refine ⟨_, hmem, rfl, (read_types _ h1).trans rfl, ?_⟩
      intro S V D M dev k c1 c2
      rw [call2_read _ _ _ h1 rfl rfl rfl (h2 _ (by simp [BinSite.genFn]))
        (h2 _ (by simp [BinSite.genFn])) h3]
      simp only [BinSite.exec]
      rw [if_neg hc]
      have e1 : (s.genFn l o id).lines = (s.genFn l o k).lines := by rw [s.genFn_lines, s.genFn_lines]
      simp only [MutFn.call2]
      rw [e1]
      rfl
  | un s =>
    obtain ⟨h1, h2, h3⟩ := s.fn_plain l o id h
    refine ⟨_, hfs _ (List.mem_singleton.mpr rfl), rfl, (read_types _ h1).trans rfl, ?_⟩
    intro S V D M dev k c
    rw [call1_read _ _ h1 rfl rfl (h2 _ (by simp [UnSite.genFn])) h3]
    have e1 : (s.genFn l o id).lines = (s.genFn l o k).lines := by rw [s.genFn_lines, s.genFn_lines]
    simp only [UnSite.exec, MutFn.call1]
    rw [e1]
    rfl
  | expr s =>
    obtain ⟨h1, h2, h3⟩ := s.fn_plain l o id h
    refine ⟨_, hfs _ (List.mem_singleton.mpr rfl), rfl, (read_types _ h1).trans rfl, ?_⟩
    intro S V D M dev k c
    rw [call1_read _ _ h1 rfl rfl (h2 _ (by simp [ExprSite.genFn])) h3]
    have e1 : (s.genFn l o id).lines = (s.genFn l o k).lines := by rw [s.genFn_lines, s.genFn_lines]
    simp only [ExprSite.exec, MutFn.call1]
    rw [e1]
    rfl
  | stmt s => trivial

theorem renders_from (l : Lang) (o : Options) (first : Nat) (pts : List (Nat × Mutation))
    (xs : List Text)
    (h : ∀ t ∈ xs, ∃ p ∈ pts, ∃ fn ∈ (p.2.apply l o first p.1).decls, t = fn.render) :
    ∃ fns : List MutFn, fns.map MutFn.render = xs ∧
      ∀ fn ∈ fns, ∃ p ∈ pts, fn ∈ (p.2.apply l o first p.1).decls := by
  induction xs with
  | nil => exact ⟨[], rfl, by simp⟩
  | cons x xs ih =>
    obtain ⟨fns, a, b⟩ := ih fun t ht => h t (List.mem_cons_of_mem _ ht)
    obtain ⟨p, hp, fn, hf, e⟩ := h x List.mem_cons_self
    refine ⟨fn :: fns, by simp [a, e], ?_⟩
    intro g hg
    rcases List.mem_cons.mp hg with rfl | hg
    · exact ⟨p, hp, hf⟩
    · exact b g hg

/-- The text determines what is read. -/
theorem read_of_render {f g : MutFn} (hf : f.Plain) (hg : g.Plain) (h : f.render = g.render) :
    f.read = g.read := by
  have h1 := fn_read f hf []
  have h2 := fn_read g hg []
  have e1 := fn_tokens f hf []
  have e2 := fn_tokens g hg []
  rw [List.append_nil, show tokens [] = [] from rfl] at e1 e2
  rw [← e1, h, e2, h2] at h1
  exact ((Prod.mk.inj (Option.some.inj h1)).1).symm

/-- What the definitions mean. -/
theorem defs_read (o : Options) (first : Nat) (f : SourceFile)
    (hr : ∀ m ∈ f.tree.post, m.Readable f.lang) (pts : List (Nat × Mutation)) (ds : List Text)
    (hpts : pts.map (·.2) = f.tree.post) (hs : StrictlySorted ds)
    (hmem : ∀ t, t ∈ ds ↔ ∃ p ∈ pts, ∃ fn ∈ (p.2.apply f.lang o first p.1).decls, t = fn.render) :
    ∃ fs, readFns ds.reverse.flatten = some fs ∧
      (∀ m ∈ f.tree.post, m.MeaningIn fs f.lang o) ∧
      (∀ g ∈ fs, ∃ m ∈ f.tree.post, ∃ id, ∃ fn ∈ (m.apply f.lang o first id).decls, g.name = fn.name) ∧
      (∀ RB RU, (∀ m ∈ f.tree.post, m.Coherent f.lang RB RU) →
        fs.Pairwise fun g g' => g.name = g'.name → f.lang.cpp = true ∧
          g.params.map (fun p => typeText p.ty) ≠ g'.params.map (fun p => typeText p.ty)) := by
  have hcp : ∀ p ∈ pts, p.2 ∈ f.tree.post := by
    intro p hp
    rw [← hpts]
    exact List.mem_map.mpr ⟨p, hp, rfl⟩
  obtain ⟨fns, hf1, hf2⟩ := renders_from f.lang o first pts ds.reverse
    fun t ht => (hmem t).mp (List.mem_reverse.mp ht)
  have hplain : ∀ fn ∈ fns, fn.Plain := by
    intro fn hfn
    obtain ⟨p, hp, hd⟩ := hf2 fn hfn
    exact decls_plain p.2 f.lang o first p.1 (hr _ (hcp p hp)) fn hd
  refine ⟨fns.map MutFn.read, by rw [← hf1, ← List.flatMap_def]; exact fns_read fns hplain, ?_, ?_, ?_⟩
  · intro m hm
    have hm' := hm
    rw [← hpts] at hm'
    obtain ⟨p, hp, rfl⟩ := List.mem_map.mp hm'
    refine point_meaning p.2 f.lang o first p.1 (hr _ hm) _ fun fn hfn => ?_
    have hren : fn.render ∈ fns.map MutFn.render := by
      rw [hf1, List.mem_reverse]
      exact (hmem _).mpr ⟨p, hp, fn, hfn, rfl⟩
    obtain ⟨g, hg, he⟩ := List.mem_map.mp hren
    rw [← read_of_render (hplain g hg) (decls_plain p.2 f.lang o first p.1 (hr _ hm) fn hfn) he]
    exact List.mem_map.mpr ⟨g, hg, rfl⟩
  · intro g hg
    obtain ⟨fn, hfn, rfl⟩ := List.mem_map.mp hg
    obtain ⟨p, hp, hd⟩ := hf2 fn hfn
    exact ⟨p.2, hcp p hp, p.1, fn, hd, rfl⟩
  · intro RB RU hcoh
    have hpw : (fns.map MutFn.render).Pairwise (fun a b => a ≠ b) := by
      rw [hf1, List.pairwise_reverse]
      refine hs.imp ?_
      intro a b hab hba
      rw [hba, textLt_irrefl] at hab
      exact absurd hab (by decide)
    rw [List.pairwise_map] at hpw ⊢
    refine hpw.imp_of_mem ?_
    intro a b ha hb hab hn
    obtain ⟨p, hp, hpa⟩ := hf2 a ha
    obtain ⟨q, hq, hqb⟩ := hf2 b hb
    have same := C22_same f.lang o RB RU p.2 q.2 (hcoh _ (hcp p hp)) (hcoh _ (hcp q hq)) first first _ _
      a b hpa hqb hn
    cases hc : f.lang.cpp with
    | true =>
      refine ⟨rfl, fun hpar => hab ?_⟩
      rw [read_types a (hplain a ha), read_types b (hplain b hb)] at hpar
      rw [same fun _ => List.append_cancel_right hpar]
    | false => exact absurd (by rw [same fun h => by rw [hc] at h; cases h]) hab

/-- C59: what a mutated file has at the prelude location, behind the prelude, is a sequence of
function definitions of C or C++.  Read as such, they give to every instrumented point the meaning
that the semantics of points (used by C13 to C21 and C50) says, and every one of them belongs to
such a point.  If the types of the points fit together (as in C22), no two of them have the same
name and, in C++, the same types of parameters. -/
theorem C59 (o : Options) (req : Bool) (first : Nat) (f : SourceFile) (out : Text)
    (hr : ∀ m ∈ f.tree.post, m.Readable f.lang)
    (h : (handleTU o req first f).output = some out)
    (hloc : f.preludeOff.getD 0 ≤ f.src.length) :
    ∃ (front defs back : Text) (fs : List CFn),
      out = front ++ (preludeText f.lang o first ((handleTU o req first f).nextId - first) ++ defs)
        ++ back ∧
      readFns defs = some fs ∧
      (∀ m ∈ f.tree.post, m.MeaningIn fs f.lang o) ∧
      (∀ g ∈ fs, ∃ m ∈ f.tree.post, ∃ id, ∃ fn ∈ (m.apply f.lang o first id).decls, g.name = fn.name) ∧
      (∀ RB RU, (∀ m ∈ f.tree.post, m.Coherent f.lang RB RU) →
        fs.Pairwise fun g g' => g.name = g'.name → f.lang.cpp = true ∧
          g.params.map (fun p => typeText p.ty) ≠ g'.params.map (fun p => typeText p.ty)) := by
  obtain ⟨pts, ds, others, back, hpts, -, hs, hmem, -, -, hout⟩ :=
    C23_output o req first f out h hloc
  obtain ⟨fs, h1⟩ := defs_read o first f hr pts ds hpts hs hmem
  exact ⟨_, _, back, fs, hout, h1⟩

/-- C59: the text of one generated function, and what comes after it. -/
theorem C59_function (m : Mutation) (l : Lang) (o : Options) (first id : Nat) (h : m.Readable l)
    (f : MutFn) (hf : f ∈ (m.apply l o first id).decls) (rest : Text) :
    ∃ g, readFn (tokens (f.render ++ rest)) = some (g, tokens rest) ∧ g.name = f.name ∧
      typeText g.resTy = f.resTy ∧
      g.params.map (fun p => typeText p.ty) = f.params.map Param.tyText ++ [t!"int"] := by
  have hp := decls_plain m l o first id h f hf
  refine ⟨f.read, ?_, rfl, (goodTy_toks hp.res).2.2, read_types f hp⟩
  rw [fn_tokens f hp, fn_read f hp]

/-- Coherent points are readable. -/
theorem C59_coherent (l : Lang) (RB : BOp → BTy → BTy → BTy) (RU : UOp → BTy → BTy) (m : Mutation)
    (h : m.Coherent l RB RU) : m.Readable l := by
  cases m with
  | bin s => exact h.1
  | un s =>
    refine ⟨h.1, fun _ => ⟨h.2.2.1, fun hl hc => ?_⟩⟩
    rw [h.2.2.2.1 hl] at hc
    cases hc
  | expr s =>
    intro _ hl hc
    rw [(h.1 hl).1] at hc
    cases hc
  | stmt s => trivial

/-- In a well-typed program every mutation is readable. -/
theorem C59_visited (d : Dialect) (l : Lang) (opt : Bool) (root : Node) (ht : WellTypedAst d root)
    (p : List Nat) (m : Mutation) (h : MutationAt l opt root p m) : m.Readable l := by
  obtain ⟨c, above, s, ks, hf, hp, _, ho⟩ := ((visitTU_good l opt root).1 _ h).fine
  rcases ho with ⟨hs, e, locs, hk, hm⟩ | ⟨hi, hm⟩
  · obtain ⟨sp, t, _, _, _, _, _, _, hty, _, _, hv⟩ := mem_visitExpr hm
    simp only [hv] at hm
    obtain ⟨t1, t2⟩ := ht _ _ s ks e hf.place hk t hty
    rcases List.mem_append.mp hm with hm | hm
    · rcases mem_handleOp hm with ⟨op, hc, hm⟩ | ⟨op, hc, hm⟩
      · obtain ⟨s', e', sp', t', ho, _, ht', hplus, _, _, h2⟩ := mem_handleUnary hm
        obtain ⟨r, h3, _, _, h6⟩ := t1 op s' e' t' hc ho ht'
        rw [h2]
        cases hi : op.isIncDec with
        | true =>
          have hmod := (typeUn_incDec h3 hi).1
          refine ⟨?_, fun _ => ⟨?_, fun _ hcn => ?_⟩⟩
          · cases op <;> first | rfl | cases hi
          · exact hmod.1.trans hi.symm
          · exact absurd (show e'.const = true from hcn) (by
              have := hmod.2
              simp only at this
              simp [this])
        | false =>
          have hv := (typeUn_value h3 hi).1
          refine ⟨?_, fun _ => ⟨(h6 hi).trans hi.symm, fun hl => ?_⟩⟩
          · rcases hv with hv | hv
            · exact absurd hv hplus
            · exact (by decide : ∀ op ∈ unaryCandidates, op.fnName?.isSome = true) op hv
          · exact absurd ((h6 hi).symm.trans hl) (by decide)
      · obtain ⟨sl, el, sr, er, pl, pr, tl, tr, hl, hr, _, _, htl, htr, hcomma, _, _, h2⟩ :=
          mem_handleBinary hm
        obtain ⟨r, h3, h4⟩ := t2 op sl el tl sr er tr hc hcomma hl htl hr htr
        rw [h2]
        show op.fnName?.isSome = true
        cases op <;> first | rfl | (simp [typeBin] at h3; done) | exact absurd rfl hcomma
    · obtain ⟨hlv, _, _, _, _, _, _, _, h2⟩ := mem_handleExpr hm
      rw [h2]
      intro _ h8 h9
      simp only [exprSite, ExprFacts.infoAt] at h8 h9
      rw [h8] at hlv
      simp only [Bool.true_and, Bool.not_eq_false'] at hlv
      unfold canMutateLValue at hlv
      simp only [Bool.and_eq_true, Bool.not_eq_true', Bool.or_eq_false_iff] at hlv
      rw [hlv.1.1.1] at h9
      cases h9
  · obtain ⟨sp, _, h2⟩ := removal_span hm
    simp only at h2
    rw [h2]
    trivial

/-! ### Together with C15 -/

section
variable {S V D : Type} {Ok : D → Prop} {b : Prop}

/-- C59: the function that is read for a binary operator (other than a logical operator in C)
computes the mutant with the smallest enabled id, and the original operator if none is enabled. -/
theorem C59_binary (fs : List CFn) (s : BinSite) (l : Lang) (o : Options) (M : Machine S V)
    (dev : Device D) (hm : (Mutation.bin s).MeaningIn fs l o)
    (E : Nat → Bool) (first id n : Nat) (hdev : dev.Faithful Ok (fun i => E (first + i)) n)
    (ho : o.track = false) (hc : ¬(l.cpp = false ∧ s.op.isLogical = true)) (hf : first ≤ id)
    (hn : (s.apply l o first id).nextId ≤ first + n)
    {p : PBOp} {i1 i2 i3 : RangeInfo} {insts : List (Nat × BAct)}
    (hg : (s.apply l o first id).group = .replaceBin p i1 i2 i3 insts)
    {c1 c2 : Comp S V} {c1' c2' : Comp (S × D) V}
    (h1 : Sim Ok b c1 c1') (h2 : Sim Ok b c2 c2') :
    ∃ g ∈ fs, g.name = s.fnName l o.optimise ∧
      let lazy1 := l.cpp && s.lhs.sideEffects
      let lazy2 := l.cpp && (s.op.isLogical || s.rhs.sideEffects)
      (∀ a, Smallest E insts a →
        Sim Ok b
          (prepare2 lazy1 lazy2 c1 c2 fun a1 a2 => (a.change.eval M a1 a2).to M (s.resTyText l))
          (g.call M dev (id - first) [c1', c2'])) ∧
      (NoneEnabled E insts →
        Sim Ok b
          (prepare2 lazy1 lazy2 c1 c2 fun a1 a2 => (M.evalBin s.op a1 a2).to M (s.resTyText l))
          (g.call M dev (id - first) [c1', c2'])) := by
  have hcl : ¬ (!l.cpp && s.op.isLogical) = true := by
    cases h : l.cpp <;> cases h' : s.op.isLogical <;> simp_all
  simp only [Mutation.MeaningIn, if_neg hcl] at hm
  obtain ⟨g, hgm, hname, -, hcall⟩ := hm
  refine ⟨g, hgm, hname, ?_⟩
  rw [hcall]
  exact C15_binary s l o M dev E first id n hdev ho hc hf hn hg h1 h2

/-- The same for a unary operator. -/
theorem C59_unary (fs : List CFn) (s : UnSite) (l : Lang) (o : Options) (M : Machine S V)
    (dev : Device D) (hm : (Mutation.un s).MeaningIn fs l o)
    (E : Nat → Bool) (first id n : Nat) (hdev : dev.Faithful Ok (fun i => E (first + i)) n)
    (ho : o.track = false) (hf : first ≤ id) (hn : (s.apply l o first id).nextId ≤ first + n)
    {p : PUOp} {i1 i2 : RangeInfo} {insts : List (Nat × UAct)}
    (hg : (s.apply l o first id).group = .replaceUn p i1 i2 insts)
    {c : Comp S V} {c' : Comp (S × D) V} (h : Sim Ok b c c') :
    ∃ g ∈ fs, g.name = s.fnName l o.optimise ∧
      let lazy := l.cpp && s.self.sideEffects
      (∀ a, Smallest E insts a →
        Sim Ok b (prepare1 lazy c fun x => (a.change.eval M x).to M (s.resTyText l))
          (g.call M dev (id - first) [c'])) ∧
      (NoneEnabled E insts →
        Sim Ok b (prepare1 lazy c fun x => (M.evalUn s.op x).to M (s.resTyText l))
          (g.call M dev (id - first) [c'])) := by
  obtain ⟨g, hgm, hname, -, hcall⟩ := hm
  refine ⟨g, hgm, hname, ?_⟩
  rw [hcall]
  exact C15_unary s l o M dev E first id n hdev ho hf hn hg h

/-- The same for an expression. -/
theorem C59_expr (fs : List CFn) (s : ExprSite) (l : Lang) (o : Options) (M : Machine S V)
    (dev : Device D) (hm : (Mutation.expr s).MeaningIn fs l o)
    (E : Nat → Bool) (first id n : Nat) (hdev : dev.Faithful Ok (fun i => E (first + i)) n)
    (ho : o.track = false) (hf : first ≤ id) (hn : (s.apply l o first id).nextId ≤ first + n)
    {i1 : RangeInfo} {insts : List (Nat × EAct)}
    (hg : (s.apply l o first id).group = .replaceExpr i1 insts)
    {c : Comp S V} {c' : Comp (S × D) V} (h : Sim Ok b c c') :
    ∃ g ∈ fs, g.name = s.fnName l o.optimise ∧
      let lazy := l.cpp && s.self.sideEffects
      (∀ a, Smallest E insts a →
        Sim Ok b (prepare1 lazy c fun x => ((a.change l.cpp).eval M x).to M (s.self.ty.name l))
          (g.call M dev (id - first) [c'])) ∧
      (NoneEnabled E insts →
        Sim Ok b (prepare1 lazy c fun x => x.to M (s.self.ty.name l))
          (g.call M dev (id - first) [c'])) := by
  obtain ⟨g, hgm, hname, -, hcall⟩ := hm
  refine ⟨g, hgm, hname, ?_⟩
  rw [hcall]
  exact C15_expr s l o M dev E first id n hdev ho hf hn hg h

end

/-! ### Examples -/

/-- The sample file, in C and in C++: the points are readable and there is output. -/
theorem Sample.file_readable (l : Lang) (n : Text) :
    ∀ m ∈ (Sample.file n l).tree.post, m.Readable l := by
  intro m hm
  have : m ∈ [Mutation.bin (Sample.bin .add Sample.intVal Sample.intVal),
      .expr (Sample.expr Sample.intVal), .stmt Sample.stmt] := by
    revert hm
    exact (by decide : ∀ m ∈ Sample.tree.post,
      m ∈ [Mutation.bin (Sample.bin .add Sample.intVal Sample.intVal),
        .expr (Sample.expr Sample.intVal), .stmt Sample.stmt]) m
  simp only [List.mem_cons, List.not_mem_nil, or_false] at this
  rcases this with rfl | rfl | rfl
  · exact (by decide : BOp.add.fnName?.isSome = true)
  · exact fun _ h => absurd h (by decide)
  · trivial

example : (∀ m ∈ (Sample.file t!"b.c" Sample.c).tree.post, m.Readable Sample.c) ∧
    (handleTU Sample.opts true 0 (Sample.file t!"b.c" Sample.c)).output.isSome ∧
    (Sample.file t!"b.c" Sample.c).preludeOff.getD 0 ≤ (Sample.file t!"b.c" Sample.c).src.length :=
  ⟨Sample.file_readable _ _, by decide +kernel, by decide⟩

/-- The three functions for `&&` in C, and one for `++` in C, where the operand is a pointer. -/
example : (Mutation.bin (Sample.bin .land Sample.intVal Sample.intVal)).Readable Sample.c ∧
    (Mutation.un (Sample.un .preInc { Sample.intVar with volatile := true } Sample.intVal)).Readable
      Sample.c :=
  ⟨(by decide : BOp.land.fnName?.isSome = true), by decide,
    fun _ => ⟨by decide, fun _ h => absurd h (by decide)⟩⟩

/-- What the reader makes of a text that is not from the tool. -/
example : ((readFns t!"static int f(volatile int* arg, int local_mutation_id){return-++*arg*2;}").map
    fun fs => fs.map fun g => (g.name, g.params.map fun p => (typeText p.ty, p.pass))) =
    some [(t!"f", [(t!"volatile int*", Pass.pointer), (t!"int", Pass.value)])] := by decide +kernel

end Dredd
