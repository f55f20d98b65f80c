/-
C61: the inserted functions, read from the text, are well typed and accept the operands
of the points that call them.
-/
import Verif.Spec.CType
import Verif.Props.C59

namespace Dredd

/-! ### Declared types -/

/-- A declared type is read as what it is. -/
theorem dty_read (l : Lang) (t : DTy) : readDTy (tokens (t.text l)) = some t := by
  have key : ∀ b ∈ [true, false], ∀ ty ∈ BTy.all, ∀ v ∈ [true, false], ∀ c ∈ [true, false],
      ∀ f ∈ [Form.value, .ref, .ptr],
      readDTy (tokens (DTy.text ⟨false, b, false, false⟩ ⟨ty, v, c, f⟩)) = some ⟨ty, v, c, f⟩ := by
    decide +kernel
  have e : t.text l = t.text ⟨false, l.boolKw, false, false⟩ := by
    unfold DTy.text
    rw [BTy.name_eq]
  rw [e]
  exact key _ (by cases l.boolKw <;> simp) _ (BTy.mem_all _) _ (by cases t.volatile <;> simp) _
    (by cases t.const <;> simp) _ (by cases t.form <;> simp)

/-- What a declared parameter is. -/
def DParam.sig (p : DParam) : Sig := ⟨p.ty, p.mode == .thunk⟩

theorem param_sig (l : Lang) (p : DParam) (h : (⟨p.arg, p.ty.text l, p.mode⟩ : Param).Shown)
    (hg : goodTy (p.ty.text l) = true) (x : Text) :
    (CParam.mk (tyToks ⟨p.arg, p.ty.text l, p.mode⟩) x).sig = some p.sig := by
  have hp := Param.shown_pass h hg
  have hd := dty_read l p.ty
  have hp' : (CParam.mk (tyToks ⟨p.arg, p.ty.text l, p.mode⟩) x).pass = p.mode.passed := hp
  unfold CParam.sig
  rw [hp']
  cases hm : p.mode with
  | value =>
    simp only [ArgMode.passed, tyToks, hd, Option.map_some, DParam.sig, hm]
    rfl
  | deref =>
    simp only [ArgMode.passed, tyToks, hd, Option.map_some, DParam.sig, hm]
    rfl
  | thunk =>
    have key : ∀ ts : List Text, ts = [t!"std", t!"::", t!"function", t!"<"] ++ tokens (p.ty.text l) ++
        [t!"(", t!")", t!">"] → ts.drop (ts.length - 3) = [t!"(", t!")", t!">"] ∧
          (ts.drop 4).take (ts.length - 7) = tokens (p.ty.text l) := by
      intro ts hts
      constructor
      · have : ts.length - 3 = ([t!"std", t!"::", t!"function", t!"<"] ++ tokens (p.ty.text l)).length := by
          rw [hts]; simp
        rw [this, hts]
        exact List.drop_left
      · have : ts.length - 7 = (tokens (p.ty.text l)).length := by
          rw [hts]; simp
        rw [this, hts, List.append_assoc]
        exact List.take_left
    obtain ⟨k1, k2⟩ := key (tyToks ⟨p.arg, p.ty.text l, .thunk⟩) rfl
    simp only [ArgMode.passed]
    rw [if_pos k1, k2, hd, DParam.sig, hm]
    rfl

/-! ### Functions -/

theorem place_arg (sig : Text → Option Sig) (ps : List DParam) (a : Arg) (p : DParam) (t : ETy)
    (hp : ps.find? (fun p => p.arg = a) = some p) (hs : sig a.name = some p.sig)
    (hu : useOf ps a = some t) : placeTy sig (argExpr a p.mode) = some t := by
  rw [useOf, hp] at hu
  simp only [Option.bind_some, DParam.use] at hu
  cases hm : p.mode <;> cases hf : p.ty.form <;> simp [hm, hf] at hu <;>
    simp [argExpr, placeTy, hs, DParam.sig, hm, hf, hu]

section
variable (sig : Text → Option Sig) (ps : List DParam) (m : Arg → ArgMode)

/-- Expressions that are returned have the same type as read. -/
theorem ret_type (d : Dialect) (hs : ∀ p ∈ ps, ps.find? (fun q => q.arg = p.arg) = some p ∧
      sig p.arg.name = some p.sig ∧ m p.arg = p.mode)
    (ht : sig t!"true" = none) (hf : sig t!"false" = none) (e : RetE) (he : retOk e = true) (r : TRes)
    (h : typeRet d ps e = some r) : (retExpr m e).type? d sig = some r := by
  have harg : ∀ a t, useOf ps a = some t → placeTy sig (argExpr a (m a)) = some t := by
    intro a t hu
    have : ∃ p, ps.find? (fun p => p.arg = a) = some p := by
      cases hx : ps.find? (fun p => p.arg = a) with
      | none => rw [useOf, hx] at hu; cases hu
      | some p => exact ⟨p, rfl⟩
    obtain ⟨p, hp⟩ := this
    obtain ⟨h1, h2, h3⟩ := hs p (List.mem_of_find?_eq_some hp)
    obtain rfl : p.arg = a := by simpa using List.find?_some hp
    rw [h3]
    exact place_arg sig ps p.arg p t hp h2 hu
  have hpl : ∀ op x, op ≠ t!"*" → placeTy sig (.pre op x) = none := by
    intro op x hop
    cases x <;> simp [placeTy, hop]
  have hpb : ∀ op a b, placeTy sig (.bin op a b) = none := fun _ _ _ => rfl
  have hpp : ∀ op a, placeTy sig (.post op a) = none := fun _ _ => rfl
  have hlit : ∀ op a md, literal? (.pre op (argExpr a md)) = none := by
    intro op a md
    cases md <;> simp [argExpr, literal?]
  cases e with
  | bin op =>
    simp only [typeRet] at h
    cases h1 : useOf ps .arg1 with
    | none => simp [h1] at h
    | some a =>
      cases h2 : useOf ps .arg2 with
      | none => simp [h1, h2] at h
      | some b =>
        simp only [h1, h2] at h
        simp only [retExpr, CExpr.type?, hpb, literal?, binOp_str he, Option.bind_some,
          harg _ _ h1, harg _ _ h2, h]
  | arg a =>
    simp only [typeRet] at h
    cases h1 : useOf ps a with
    | none => simp [h1] at h
    | some t =>
      simp only [h1, Option.map_some] at h
      simp only [retExpr, CExpr.type?, harg _ _ h1]
      exact h
  | un op =>
    simp only [typeRet] at h
    cases h1 : useOf ps .arg with
    | none => simp [h1] at h
    | some t =>
      simp only [h1, Option.bind_some] at h
      simp only [retExpr]
      split
      · rename_i hp
        obtain ⟨h3, h4⟩ := preOp_str he hp
        simp only [CExpr.type?, hpl _ _ h4, hlit, h3, Option.bind_some, harg _ _ h1, h]
      · rename_i hp
        simp only [CExpr.type?, hpp, literal?, postOp_str he (by simpa using hp), Option.bind_some,
          harg _ _ h1, h]
  | ins op =>
    simp only [retOk, Bool.and_eq_true] at he
    simp only [typeRet] at h
    cases h1 : useOf ps .arg with
    | none => simp [h1] at h
    | some t =>
      simp only [h1, Option.bind_some] at h
      obtain ⟨h3, h4⟩ := preOp_str he.1 he.2
      simp only [retExpr, CExpr.type?, hpl _ _ h4, hlit, h3, Option.bind_some, harg _ _ h1, h]
  | lit v =>
    simp only [typeRet] at h
    cases v <;> simp [retExpr, litExpr, CExpr.type?, placeTy, literal?, Lit.str, ht, hf, List.lookup] <;>
      exact h

end

theorem find_arg {ps : List DParam} (h : (ps.map (·.arg)).Nodup) {p : DParam} (hp : p ∈ ps) :
    ps.find? (fun q => q.arg = p.arg) = some p := by
  induction ps with
  | nil => cases hp
  | cons q ps ih =>
    simp only [List.map_cons, List.nodup_cons] at h
    rcases List.mem_cons.mp hp with rfl | hp
    · simp
    · have : q.arg ≠ p.arg := fun e => h.1 (e ▸ List.mem_map_of_mem hp)
      rw [List.find?_cons_of_neg (by simpa using this)]
      exact ih h.2 hp

theorem natDec_decimal (n : Nat) : (decimal? (natDec n)).isSome = true := by
  rw [decimal_natDec]
  rfl

/-- A generated function that is well typed is well typed as read. -/
theorem fn_typed (d : Dialect) (l : Lang) (f : MutFn) (ps : List DParam) (res : DTy)
    (h : f.TypedAs d l ps res) (hp : f.Plain) (hs : ∀ p ∈ f.params, p.Shown)
    (hl : ∃ e, f.lines.getLast? = some (.ret e)) :
    f.read.Typed d (ps.map DParam.sig ++ [Sig.id]) res := by
  have hsig : ∀ p ∈ ps, ∀ x, (CParam.mk (tyToks ⟨p.arg, p.ty.text l, p.mode⟩) x).sig = some p.sig := by
    intro p hpp x
    have hm : (⟨p.arg, p.ty.text l, p.mode⟩ : Param) ∈ f.params := by
      rw [h.params]
      exact List.mem_map.mpr ⟨p, hpp, rfl⟩
    exact param_sig l p (hs _ hm) (hp.tys _ hm) x
  have hread : f.read.params = ps.map (fun p => ⟨tyToks ⟨p.arg, p.ty.text l, p.mode⟩, p.arg.name⟩) ++
      [⟨[t!"int"], t!"local_mutation_id"⟩] := by
    simp only [MutFn.read, h.params, List.map_map]
    rfl
  have hid : (CParam.mk [t!"int"] t!"local_mutation_id").sig = some Sig.id := by decide
  have hinj : ∀ a b : Arg, a.name = b.name → a = b := by
    intro a b
    cases a <;> cases b <;> simp [Arg.name]
  have hfind : ∀ p ∈ ps, f.read.sigOf p.arg.name = some p.sig := by
    intro p hpp
    have h1 := find_arg h.distinct hpp
    unfold CFn.sigOf
    rw [hread, List.find?_append, List.find?_map]
    have : (fun q : DParam => decide (q.arg.name = p.arg.name)) = fun q => decide (q.arg = p.arg) := by
      funext q
      by_cases e : q.arg = p.arg
      · simp [e]
      · have : p.arg.name ≠ q.arg.name := fun x => e (hinj _ _ x.symm)
        simp [e, this.symm]
    simp only [Function.comp_def, this, h1, Option.map_some, Option.some_or, Option.bind_some]
    exact hsig p hpp _
  have hother : ∀ x, (∀ a : Arg, a.name ≠ x) → x ≠ t!"local_mutation_id" → f.read.sigOf x = none := by
    intro x h1 h2
    unfold CFn.sigOf
    rw [hread, List.find?_append]
    have e1 : (ps.map (fun p => (⟨tyToks ⟨p.arg, p.ty.text l, p.mode⟩, p.arg.name⟩ : CParam))).find?
        (fun q => decide (q.name = x)) = none := by
      rw [List.find?_eq_none]
      intro q hq
      obtain ⟨p, -, rfl⟩ := List.mem_map.mp hq
      simpa using h1 p.arg
    rw [e1]
    simp [h2.symm]
  have hlocal : f.read.sigOf t!"local_mutation_id" = some Sig.id := by
    unfold CFn.sigOf
    rw [hread, List.find?_append]
    have e1 : (ps.map (fun p => (⟨tyToks ⟨p.arg, p.ty.text l, p.mode⟩, p.arg.name⟩ : CParam))).find?
        (fun q => decide (q.name = t!"local_mutation_id")) = none := by
      rw [List.find?_eq_none]
      intro q hq
      obtain ⟨p, -, rfl⟩ := List.mem_map.mp hq
      have : ∀ a : Arg, ¬ decide (a.name = t!"local_mutation_id") = true := by
        intro a
        cases a <;> decide
      exact this p.arg
    rw [e1]
    simp [hid]
  have hmode : ∀ p ∈ ps, f.mode p.arg = p.mode := by
    intro p hpp
    have h1 := find_arg h.distinct hpp
    unfold MutFn.mode
    rw [h.params, List.find?_map]
    have : (fun q : DParam => q.arg == p.arg) = fun q => decide (q.arg = p.arg) := by
      funext q
      by_cases e : q.arg = p.arg <;> simp [e]
    simp only [Function.comp_def, this, h1, Option.map_some, Option.getD_some]
  have hret : ∀ line ∈ f.lines, ∀ e, line.returned = some e →
      ∃ r, (retExpr f.mode e).type? d f.read.sigOf = some r ∧ r.returnable res := by
    intro line hline e he
    obtain ⟨r, h1, h2⟩ := h.bodies line hline e he
    have hok : retOk e = true := by
      have := hp.body line hline
      cases line <;> simp [Line.returned] at he <;> subst he <;> exact this
    exact ⟨r, ret_type _ ps _ d (fun p hpp => ⟨find_arg h.distinct hpp, hfind p hpp, hmode p hpp⟩)
      (hother _ (by intro a; cases a <;> decide) (by decide))
      (hother _ (by intro a; cases a <;> decide) (by decide)) e hok r h1, h2⟩
  have hprel : ∀ x ∈ [t!"__dredd_some_mutation_enabled", t!"__dredd_enabled_mutation",
      t!"__dredd_record_covered_mutants"], f.read.sigOf x = none := by
    intro x hx
    simp only [List.mem_cons, List.not_mem_nil, or_false] at hx
    rcases hx with rfl | rfl | rfl <;>
      exact hother _ (by intro a; cases a <;> decide) (by decide)
  refine ⟨?_, ?_, ?_, ?_, h.existRes, ?_, ?_⟩
  · rw [hread]
    simp only [List.map_append, List.map_map, List.map_cons, List.map_nil, hid]
    congr 1
    exact List.map_congr_left fun p hpp => hsig p hpp _
  · show readDTy (tokens f.resTy) = _
    rw [h.result]
    exact dty_read l res
  · rw [hread]
    simp only [List.map_append, List.map_map, List.map_cons, List.map_nil]
    rw [List.nodup_append]
    refine ⟨?_, by simp, ?_⟩
    · have := h.distinct
      show (ps.map (fun p => p.arg.name)).Nodup
      rw [show (fun p : DParam => p.arg.name) = Arg.name ∘ DParam.arg from rfl, ← List.map_map]
      unfold List.Nodup at this ⊢
      rw [List.pairwise_map]
      exact this.imp fun hne e => hne (hinj _ _ e)
    · intro a ha b hb
      simp only [List.mem_cons, List.not_mem_nil, or_false] at hb
      subst hb
      obtain ⟨p, -, rfl⟩ := List.mem_map.mp ha
      show p.arg.name ≠ _
      cases p.arg <;> decide
  · intro p hpp
    rcases List.mem_append.mp hpp with hpp | hpp
    · obtain ⟨q, hq, rfl⟩ := List.mem_map.mp hpp
      rcases h.exist q hq with h1 | ⟨h1, h2⟩
      · exact .inl h1
      · exact .inr ⟨h1, by simpa [DParam.sig] using h2⟩
    · rw [List.mem_singleton] at hpp
      subst hpp
      exact .inr ⟨by decide, rfl⟩
  · intro s hsb
    obtain ⟨line, hline, rfl⟩ := List.mem_map.mp (show s ∈ f.lines.map (lineStmt f.mode) from hsb)
    cases line with
    | quick e => exact ⟨⟨rfl, rfl, hprel _ (by simp)⟩, hret _ hline e rfl⟩
    | guard k e =>
      exact ⟨⟨rfl, hprel _ (by simp), rfl, hlocal, natDec_decimal k⟩, hret _ hline e rfl⟩
    | record n => exact ⟨rfl, hprel _ (by simp), hlocal, natDec_decimal n⟩
    | ret e => exact hret _ hline e rfl
  · obtain ⟨e, he⟩ := hl
    refine ⟨retExpr f.mode e, ?_⟩
    show (f.lines.map (lineStmt f.mode)).getLast? = _
    rw [List.getLast?_map, he]
    rfl

/-! ### Points -/

/-- The operators and expressions of a point are well typed, and no `bool` is incremented in
C++. -/
def Mutation.TypedPoint (d : Dialect) : Mutation → Prop
  | .bin s => ∃ r, s.Typed d r
  | .un s => (∃ r, s.Typed d r) ∧ (d.cpp = true → s.op.isIncDec = true → s.sub.ty ≠ .bool)
  | .expr s => s.Typed
  | .stmt _ => True

/-- A type that a value can have. -/
def Sig.plain (t : BTy) : Sig := ⟨⟨t, false, false, .value⟩, false⟩

/-- Among the functions `fs` there is one for each call that is inserted at the point; it is well
typed, the operands can be passed to it, and its result is of the type of the original, and an
object of that type if the original is one.  An expression that is replaced becomes a value. -/
def Mutation.CallsTyped (d : Dialect) (fs : List CFn) (l : Lang) (o : Options) : Mutation → Prop
  | .bin s =>
    if !l.cpp && s.op.isLogical then
      (∃ g ∈ fs, g.name = s.fnName l o.optimise ++ t!"_outer" ∧
        g.Typed d [.plain s.resTy, .id] (Sig.plain s.resTy).ty) ∧
      (o.track = false →
        (∃ g ∈ fs, g.name = s.fnName l o.optimise ++ t!"_lhs" ∧
          g.Typed d [.plain s.lhs.ty, .id] (Sig.plain s.lhs.ty).ty) ∧
        ∃ g ∈ fs, g.name = s.fnName l o.optimise ++ t!"_rhs" ∧
          g.Typed d [.plain s.rhs.ty, .id] (Sig.plain s.rhs.ty).ty)
    else ∃ g ∈ fs, g.name = s.fnName l o.optimise ∧ ∃ p1 p2 res r,
      g.Typed d [p1, p2, .id] res ∧ s.lhs.ety.passes p1 ∧ s.rhs.ety.passes p2 ∧
      typeBin d s.op s.lhs.ety s.rhs.ety = some r ∧ r.sameAs s.resTy res
  | .un s => ∃ g ∈ fs, g.name = s.fnName l o.optimise ∧ ∃ p res r,
      g.Typed d [p, .id] res ∧ s.sub.ety.passes p ∧
      typeUn d s.op s.sub.ety = some r ∧ r.sameAs s.self.ty res
  | .expr s => ∃ g ∈ fs, g.name = s.fnName l o.optimise ∧ ∃ p,
      g.Typed d [p, .id] (Sig.plain s.self.ty).ty ∧ s.self.ety.passes p
  | .stmt _ => True

theorem passes_of_passable {q : ETy} {p : DParam} (h : q.passable p) : q.passes p.sig := by
  unfold ETy.passable at h
  unfold ETy.passes DParam.sig
  cases hf : p.ty.form <;> simp only [hf] at h ⊢
  · exact h.1
  · exact h.1
  · exact ⟨h.1, by rw [h.2]; rfl⟩

/-- A text is read as one type. -/
theorem text_inj {l : Lang} {t u : DTy} (h : t.text l = u.text l) : t = u := by
  have := dty_read l t
  rw [h, dty_read] at this
  exact (Option.some.inj this).symm

theorem name_text (l : Lang) (t : BTy) : t.name l = (Sig.plain t).ty.text l := by
  simp [Sig.plain, DTy.text]

theorem usual_ends {track : Bool} {n : Nat} {q e e' : RetE} {b : List Line} {ls : List Line}
    (h : ls = if track then [.record n, .ret e] else .quick q :: (b ++ [.ret e'])) :
    ∃ e, ls.getLast? = some (.ret e) := by
  cases track with
  | true => exact ⟨e, by rw [h]; rfl⟩
  | false => exact ⟨e', by rw [h, if_neg (by decide), ← List.cons_append, List.getLast?_append]; rfl⟩

theorem point_typed (d : Dialect) (m : Mutation) (l : Lang) (o : Options) (first id : Nat)
    (hd : d.cpp = l.cpp) (h : m.Readable l) (ht : m.TypedPoint d)
    (fs : List CFn) (hfs : ∀ f ∈ (m.apply l o first id).decls, f.read ∈ fs) :
    m.CallsTyped d fs l o ∧ ∀ f ∈ (m.apply l o first id).decls, ∃ ps res, f.read.Typed d ps res := by
  cases m with
  | bin s =>
    by_cases hc : (!l.cpp && s.op.isLogical) = true
    · have hdec : (s.apply l o first id).decls =
          (if o.track then [] else [cLogicalLhsFn s l o, cLogicalRhsFn s l o]) ++
            [cLogicalOuterFn s l o] := by
        unfold BinSite.apply
        rw [if_pos hc]
        unfold BinSite.applyCLogical
        cases o.track <;> rfl
      have one : ∀ f t, (f = cLogicalLhsFn s l o ∨ f = cLogicalRhsFn s l o ∨ f = cLogicalOuterFn s l o) →
          f ∈ (s.applyCLogical l o first id).decls → f.params = [⟨.arg, t.name l, .value⟩] →
          (∃ e, f.lines.getLast? = some (.ret e)) →
          f.read.Typed d [.plain t, .id] (Sig.plain t).ty := by
        intro f t hf hm hpar hl
        obtain ⟨h1, h2, -⟩ := cLogical_plain s l o f hf
        obtain ⟨u, -, hu⟩ := C24_c_logical d l o first id s f hm
        have := hu.params
        rw [hpar] at this
        simp only [List.map_cons, List.map_nil, List.cons.injEq, Param.mk.injEq, and_true, true_and] at this
        rw [name_text] at this
        cases (DTy.mk.inj (text_inj this)).1
        exact fn_typed d l f _ _ hu h1 h2 hl
      have hdec' : (s.applyCLogical l o first id).decls = (s.apply l o first id).decls := by
        unfold BinSite.apply
        rw [if_pos hc]
      have hfs : ∀ f ∈ (s.apply l o first id).decls, f.read ∈ fs := hfs
      have lhs := one (cLogicalLhsFn s l o) s.lhs.ty (.inl rfl)
      have rhs := one (cLogicalRhsFn s l o) s.rhs.ty (.inr (.inl rfl))
      have out := one (cLogicalOuterFn s l o) s.resTy (.inr (.inr rfl))
      rw [hdec', hdec] at lhs rhs out
      rw [hdec] at hfs
      have outE : ∃ e, (cLogicalOuterFn s l o).lines.getLast? = some (.ret e) := by
        unfold cLogicalOuterFn
        cases o.track <;> exact ⟨_, rfl⟩
      have out := out (by simp) rfl outE
      constructor
      · simp only [Mutation.CallsTyped, hc, if_true]
        refine ⟨⟨_, hfs (cLogicalOuterFn s l o) (by simp), rfl, out⟩, fun htr => ⟨?_, ?_⟩⟩
        · exact ⟨_, hfs (cLogicalLhsFn s l o) (by simp [htr]), rfl, lhs (by simp [htr]) rfl ⟨_, rfl⟩⟩
        · exact ⟨_, hfs (cLogicalRhsFn s l o) (by simp [htr]), rfl, rhs (by simp [htr]) rfl ⟨_, rfl⟩⟩
      · intro f hf
        have hf : f ∈ (s.apply l o first id).decls := hf
        rw [hdec] at hf
        cases htr : o.track with
        | true =>
          simp only [htr, if_true, List.nil_append, List.mem_singleton] at hf
          subst hf
          exact ⟨_, _, out⟩
        | false =>
          simp only [htr, Bool.false_eq_true, if_false, List.cons_append, List.nil_append, List.mem_cons,
            List.not_mem_nil, or_false] at hf
          rcases hf with rfl | rfl | rfl
          · exact ⟨_, _, lhs (by simp [htr]) rfl ⟨_, rfl⟩⟩
          · exact ⟨_, _, rhs (by simp [htr]) rfl ⟨_, rfl⟩⟩
          · exact ⟨_, _, out⟩
    · obtain ⟨r, hr⟩ := ht
      obtain ⟨p1, p2, res, h1, h2, h3, h4⟩ := C24_binary d l o id s r hd hr
      obtain ⟨hp, hs, -⟩ := s.fn_plain l o id h
      have hdec : (s.apply l o first id).decls = [s.genFn l o id] := by
        unfold BinSite.apply
        rw [if_neg hc]
      have hty := fn_typed d l _ _ _ h1 hp hs (usual_ends (s.genFn_lines l o id))
      constructor
      · simp only [Mutation.CallsTyped, hc]
        refine ⟨_, hfs (s.genFn l o id) ?_, rfl, p1.sig, p2.sig, res, r, hty, passes_of_passable h2,
          passes_of_passable h3, hr.1, h4⟩
        show _ ∈ (s.apply l o first id).decls
        rw [hdec]
        simp
      · intro f hf
        have hf : f ∈ (s.apply l o first id).decls := hf
        rw [hdec, List.mem_singleton] at hf
        subst hf
        exact ⟨_, _, hty⟩
  | un s =>
    obtain ⟨⟨r, hr⟩, hb⟩ := ht
    obtain ⟨p, res, h1, h2, h3⟩ := C24_unary_partial d l o id s r hd hr hb
    obtain ⟨hp, hs, -⟩ := s.fn_plain l o id h
    have hty := fn_typed d l _ _ _ h1 hp hs (usual_ends (s.genFn_lines l o id))
    refine ⟨⟨_, hfs _ (List.mem_singleton.mpr rfl), rfl, p.sig, res, r, hty, passes_of_passable h2,
      hr.1, h3⟩, ?_⟩
    intro f hf
    rw [UnSite.decls_eq hf]
    exact ⟨_, _, hty⟩
  | expr s =>
    obtain ⟨p, h1, h2⟩ := C24_expr d l o id s hd ht
    obtain ⟨hp, hs, -⟩ := s.fn_plain l o id h
    have hty := fn_typed d l _ _ _ h1 hp hs (usual_ends (s.genFn_lines l o id))
    refine ⟨⟨_, hfs _ (List.mem_singleton.mpr rfl), rfl, p.sig, hty, passes_of_passable h2⟩, ?_⟩
    intro f hf
    rw [ExprSite.decls_eq hf]
    exact ⟨_, _, hty⟩
  | stmt s =>
    refine ⟨trivial, ?_⟩
    intro f hf
    exact absurd hf List.not_mem_nil

/-! ### Files -/

/-- C61, for points at which no `bool` is incremented in C++: what is written behind the prelude is
a sequence of function definitions, all of which are well typed; for every point they include the
functions that are called there, which accept its operands and give a result like the original.
Missing: `++` on `bool` before C++17 (`C24_false`). -/
theorem C61_partial (d : Dialect) (o : Options) (req : Bool) (first : Nat) (f : SourceFile) (out : Text)
    (hd : d.cpp = f.lang.cpp)
    (hr : ∀ m ∈ f.tree.post, m.Readable f.lang ∧ m.TypedPoint d)
    (h : (handleTU o req first f).output = some out)
    (hloc : f.preludeOff.getD 0 ≤ f.src.length) :
    ∃ (front defs back : Text) (fs : List CFn),
      out = front ++ (preludeText f.lang o first ((handleTU o req first f).nextId - first) ++ defs)
        ++ back ∧
      readFns defs = some fs ∧
      (∀ g ∈ fs, ∃ ps res, g.Typed d ps res) ∧
      ∀ m ∈ f.tree.post, m.CallsTyped d fs f.lang o := by
  obtain ⟨pts, ds, others, back, hpts, -, hs, hmem, -, -, hout⟩ :=
    C23_output o req first f out h hloc
  have hcp : ∀ p ∈ pts, p.2 ∈ f.tree.post := by
    intro p hp
    rw [← hpts]
    exact List.mem_map.mpr ⟨p, hp, rfl⟩
  obtain ⟨fns, hf1, hf2⟩ := renders_from f.lang o first pts ds.reverse
    fun t ht => (hmem t).mp (List.mem_reverse.mp ht)
  have hplain : ∀ fn ∈ fns, fn.Plain := by
    intro fn hfn
    obtain ⟨p, hp, hd⟩ := hf2 fn hfn
    exact decls_plain p.2 f.lang o first p.1 (hr _ (hcp p hp)).1 fn hd
  have hin : ∀ p ∈ pts, ∀ fn ∈ (p.2.apply f.lang o first p.1).decls, fn.read ∈ fns.map MutFn.read := by
    intro p hp fn hfn
    have hren : fn.render ∈ fns.map MutFn.render := by
      rw [hf1, List.mem_reverse]
      exact (hmem _).mpr ⟨p, hp, fn, hfn, rfl⟩
    obtain ⟨g, hg, he⟩ := List.mem_map.mp hren
    rw [← read_of_render (hplain g hg)
      (decls_plain p.2 f.lang o first p.1 (hr _ (hcp p hp)).1 fn hfn) he]
    exact List.mem_map.mpr ⟨g, hg, rfl⟩
  have hpt : ∀ p ∈ pts, _ := fun p hp =>
    point_typed d p.2 f.lang o first p.1 hd (hr _ (hcp p hp)).1 (hr _ (hcp p hp)).2
      (fns.map MutFn.read) (hin p hp)
  refine ⟨rewrite (f.src.take (f.preludeOff.getD 0))
    (others.filter fun e => e.off < f.preludeOff.getD 0), fns.flatMap MutFn.render, back,
    fns.map MutFn.read, ?_, fns_read fns hplain, ?_, ?_⟩
  · rw [hout, ← hf1, ← List.flatMap_def]
  · intro g hg
    obtain ⟨fn, hfn, rfl⟩ := List.mem_map.mp hg
    obtain ⟨p, hp, hd⟩ := hf2 fn hfn
    exact (hpt p hp).2 fn hd
  · intro m hm
    rw [← hpts] at hm
    obtain ⟨p, hp, rfl⟩ := List.mem_map.mp hm
    exact (hpt p hp).1

/-- C61: the points of a well-typed program satisfy the hypothesis of `C61_partial`. -/
theorem C61_visited_partial (d : Dialect) (l : Lang) (opt : Bool) (root : Node)
    (ht : WellTypedAst d root) (hb : NoBoolIncrement d root)
    (p : List Nat) (m : Mutation) (h : MutationAt l opt root p m) :
    m.Readable l ∧ m.TypedPoint d := by
  refine ⟨C59_visited d l opt root ht p m h, ?_⟩
  obtain ⟨c, above, s, ks, hf, hp, _, ho⟩ := ((visitTU_good l opt root).1 _ h).fine
  rcases ho with ⟨hs, e, locs, hk, hm⟩ | ⟨hi, hm⟩
  · obtain ⟨sp, t, _, _, _, _, _, _, hty, _, _, hv⟩ := mem_visitExpr hm
    simp only [hv] at hm
    obtain ⟨t1, t2⟩ := ht _ _ s ks e hf.place hk t hty
    rcases List.mem_append.mp hm with hm | hm
    · rcases mem_handleOp hm with ⟨op, hc, hm⟩ | ⟨op, hc, hm⟩
      · obtain ⟨s', e', sp', t', ho, _, ht', hplus, _, _, h2⟩ := mem_handleUnary hm
        obtain ⟨r, h3, h4, h5, h6⟩ := t1 op s' e' t' hc ho ht'
        rw [h2]
        refine ⟨⟨r, h3, h4, h5, h6⟩, ?_⟩
        intro h1 h8 h9
        refine hb _ _ s ks e op s' e' hf.place hk hc ho h1 h8 ?_
        rw [ht']
        exact congrArg some h9
      · obtain ⟨sl, el, sr, er, pl, pr, tl, tr, hl, hr, _, _, htl, htr, hcomma, _, _, h2⟩ :=
          mem_handleBinary hm
        obtain ⟨r, h3, h4⟩ := t2 op sl el tl sr er tr hc hcomma hl htl hr htr
        rw [h2]
        exact ⟨r, h3, h4⟩
    · obtain ⟨hlv, _, _, _, _, _, _, _, h2⟩ := mem_handleExpr hm
      rw [h2]
      intro h8
      simp only [exprSite, ExprFacts.infoAt] at h8 ⊢
      rw [h8] at hlv
      simp only [Bool.true_and, Bool.not_eq_false'] at hlv
      unfold canMutateLValue at hlv
      simp only [Bool.and_eq_true, Bool.not_eq_true', Bool.or_eq_false_iff] at hlv
      refine ⟨hlv.1.1.1, ?_⟩
      rintro rfl
      have := hlv.1.1.2
      rw [hty] at this
      cases this
  · obtain ⟨sp, _, h2⟩ := removal_span hm
    simp only at h2
    rw [h2]
    trivial

/-- A function of the given types that is read from a text has one list of types. -/
theorem C61_types_unique (d : Dialect) (g : CFn) (ps qs : List Sig) (r r' : DTy)
    (h : g.Typed d ps r) (h' : g.Typed d qs r') : ps = qs ∧ r = r' := by
  refine ⟨?_, Option.some.inj (h.result.symm.trans h'.result)⟩
  have := h.params.symm.trans h'.params
  exact List.map_inj_right (fun _ _ => Option.some.inj) |>.mp this

/-! ### Examples -/

/-- The sample file, in C and in C++: the points are typed and there is output. -/
theorem Sample.file_typed (d : Dialect) (l : Lang) (n : Text) :
    ∀ m ∈ (Sample.file n l).tree.post, m.TypedPoint d := by
  intro m hm
  have : m ∈ [Mutation.bin (Sample.bin .add Sample.intVal Sample.intVal),
      .expr (Sample.expr Sample.intVal), .stmt Sample.stmt] := by
    revert hm
    exact (by decide : ∀ m ∈ Sample.tree.post,
      m ∈ [Mutation.bin (Sample.bin .add Sample.intVal Sample.intVal),
        .expr (Sample.expr Sample.intVal), .stmt Sample.stmt]) m
  simp only [List.mem_cons, List.not_mem_nil, or_false] at this
  rcases this with rfl | rfl | rfl
  · exact ⟨.value, rfl, nofun⟩
  · exact nofun
  · trivial

example : (∀ m ∈ (Sample.file t!"b.c" Sample.c).tree.post,
      m.Readable Sample.c ∧ m.TypedPoint .c) ∧
    (handleTU Sample.opts true 0 (Sample.file t!"b.c" Sample.c)).output.isSome ∧
    (Sample.file t!"b.c" Sample.c).preludeOff.getD 0 ≤ (Sample.file t!"b.c" Sample.c).src.length :=
  ⟨fun m hm => ⟨Sample.file_readable _ _ m hm, Sample.file_typed _ _ _ m hm⟩, by decide +kernel,
    by decide⟩

/-- Types that are read from a text that is not from the tool. -/
example : (readFns t!"static unsigned long f(const volatile int* arg, std::function<long unsigned int&()> g, int local_mutation_id){return g();}").map
    (fun fs => fs.map fun g => (readDTy g.resTy, g.params.map CParam.sig)) =
    some [(some ⟨.ulong, false, false, .value⟩,
      [some ⟨⟨.int, true, true, .ptr⟩, false⟩, some ⟨⟨.ulong, false, false, .ref⟩, true⟩,
        some .id])] := by decide +kernel

/-- An assignment through a pointer to a constant is not typed. -/
example : (readFns t!"static int f(const int* arg1, int arg2, int i){return *arg1 = arg2;}").map
    (fun fs => fs.map fun g => g.body.map fun
      | .return_ e => (e.type? .c g.sigOf).isSome
      | _ => true) = some [[false]] := by decide +kernel

end Dredd
