/-
What the functions that are read back mean (C59).
-/
import Verif.Proofs.CRead

namespace Dredd

/-! ### Expressions -/

/-- How an argument is passed, in the terms of the reader. -/
def ArgMode.passed : ArgMode → Pass
  | .value => .value
  | .thunk => .function
  | .deref => .pointer

/-- The parameters a returned expression mentions. -/
def RetE.args : RetE → List Arg
  | .bin _ => [.arg1, .arg2]
  | .arg a => [a]
  | .un _ | .ins _ => [.arg]
  | .lit _ => []

def Line.args : Line → List Arg
  | .quick e | .guard _ e | .ret e => e.args
  | .record _ => []

section
variable {S V D : Type}

theorem arg_mention (pass : Text → Option Pass) (a : Arg) (m : ArgMode)
    (h : pass a.name = some m.passed) : mention? pass (argExpr a m) = some a.name := by
  cases m <;> simp_all [argExpr, mention?, ArgMode.passed]

theorem arg_eval (M : Machine S V) (pass : Text → Option Pass) (arg : Text → Comp S V) (a : Arg)
    (m : ArgMode) (h : pass a.name = some m.passed) : (argExpr a m).eval M pass arg = arg a.name := by
  have := arg_mention pass a m h
  cases m <;> simp only [argExpr] at this ⊢ <;> simp only [CExpr.eval, this]

theorem binOp_str {op : BOp} (h : op.fnName?.isSome = true) : binOp? op.str = some op := by
  cases op <;> first | (cases h; done) | decide

theorem preOp_str {op : UOp} (h : op.fnName?.isSome = true) (hp : op.isPrefix = true) :
    preOp? op.str = some op ∧ op.str ≠ t!"*" := by
  cases op <;> first | (cases h; done) | (cases hp; done) | decide

theorem postOp_str {op : UOp} (h : op.fnName?.isSome = true) (hp : op.isPrefix = false) :
    postOp? op.str = some op := by
  cases op <;> first | (cases h; done) | (cases hp; done) | decide

theorem pre_eval (M : Machine S V) (pass : Text → Option Pass) (arg : Text → Comp S V) (a : Arg)
    (m : ArgMode) (op : UOp) (h : pass a.name = some m.passed) (ho : op.fnName?.isSome = true)
    (hp : op.isPrefix = true) :
    (CExpr.pre op.str (argExpr a m)).eval M pass arg = M.evalUn op (arg a.name) := by
  obtain ⟨h1, h2⟩ := preOp_str ho hp
  have h3 : mention? pass (.pre op.str (argExpr a m)) = none := by
    cases m <;> simp [argExpr, mention?, h2]
  have h4 : literal? (.pre op.str (argExpr a m)) = none := by
    cases m <;> simp [argExpr, literal?]
  rw [CExpr.eval, h3, h4, h1]
  simp only [arg_eval M pass arg a m h]

/-- A returned expression means what the model says. -/
theorem ret_eval (M : Machine S V) (pass : Text → Option Pass) (arg' : Text → Comp S V)
    (arg : Arg → Comp S V) (m : Arg → ArgMode) (e : RetE) (ho : retOk e = true)
    (h : ∀ a ∈ e.args, pass a.name = some (m a).passed ∧ arg' a.name = arg a)
    (ht : pass t!"true" = none) (hf : pass t!"false" = none) :
    (retExpr m e).eval M pass arg' = e.eval M arg := by
  cases e with
  | bin op =>
    obtain ⟨h1, h2⟩ := h .arg1 (by simp [RetE.args])
    obtain ⟨h3, h4⟩ := h .arg2 (by simp [RetE.args])
    simp only [retExpr, CExpr.eval, binOp_str ho, arg_eval M pass arg' _ _ h1,
      arg_eval M pass arg' _ _ h3, h2, h4, RetE.eval]
  | arg a =>
    obtain ⟨h1, h2⟩ := h a (by simp [RetE.args])
    simp only [retExpr, arg_eval M pass arg' _ _ h1, h2, RetE.eval]
  | un op =>
    obtain ⟨h1, h2⟩ := h .arg (by simp [RetE.args])
    simp only [retExpr, RetE.eval]
    cases hp : op.isPrefix with
    | true => rw [if_pos rfl, pre_eval M pass arg' _ _ op h1 ho hp, h2]
    | false =>
      rw [if_neg (by simp), CExpr.eval, postOp_str ho hp]
      simp only [arg_eval M pass arg' _ _ h1, h2]
  | ins op =>
    obtain ⟨h1, h2⟩ := h .arg (by simp [RetE.args])
    simp only [retOk, Bool.and_eq_true] at ho
    simp only [retExpr, RetE.eval]
    rw [pre_eval M pass arg' _ _ op h1 ho.1 ho.2, h2]
  | lit l =>
    cases l with
    | true_ => simp only [retExpr, litExpr, CExpr.eval, mention?, ht]; rfl
    | false_ => simp only [retExpr, litExpr, CExpr.eval, mention?, hf]; rfl
    | _ => rfl

/-! ### Statements -/

theorem decimal_natDec (k : Nat) : decimal? (natDec k) = some k := by
  obtain ⟨h1, h2, h3⟩ := natDec_spec k
  have hd : (natDec k).all Char.isDigit = true := by
    rw [List.all_eq_true]
    exact fun c hc => digit_char (h2 c hc)
  have hne : (natDec k).isEmpty = false := by simpa using h1
  have hz : ((natDec k).head? != some '0' || natDec k == t!"0") = true := by
    by_cases hk : k = 0
    · subst hk; decide
    · obtain ⟨c, r, e, hc⟩ := natDec_first k hk
      simp [e, hc]
  simp [decimal?, hd, hne, hz, h3]

theorem bind_read {α : Type} (f : S × D → Bool) (k : Bool → Comp (S × D) α) :
    Comp.bind (fun p r => r = .done (f p) p) k = fun p r => k (f p) p r :=
  Comp.ext fun p r => by simp [Comp.bind, Comp.next]

theorem quick_cond (dev : Device D) (id : Nat) :
    (CExpr.pre t!"!" (.name t!"__dredd_some_mutation_enabled")).cond (S := S) dev id =
      fun p r => r = .done (!dev.some_ p.2) p := by
  show Comp.bind (fun (p : S × D) r => r = .done (dev.some_ p.2) p) _ = _
  rw [bind_read fun p => dev.some_ p.2]
  rfl

theorem guard_cond (dev : Device D) (id k : Nat) :
    (CExpr.call (.name t!"__dredd_enabled_mutation")
      [.bin t!"+" (.name t!"local_mutation_id") (.num (natDec k))]).cond (S := S) dev id =
      onDevice (dev.query (id + k)) := by
  simp [CExpr.cond, idVal?, decimal_natDec]

theorem record_effect (dev : Device D) (id n : Nat) :
    (CExpr.call (.name t!"__dredd_record_covered_mutants")
      [.name t!"local_mutation_id", .num (natDec n)]).effect (S := S) dev id =
      onDevice (dev.record id n) := by
  simp [CExpr.effect, idVal?, decimal_natDec]

/-- The statements mean what the model says. -/
theorem lines_run (M : Machine S V) (dev : Device D) (ty : Text) (pass : Text → Option Pass)
    (arg' : Text → Comp (S × D) V) (arg : Arg → Comp (S × D) V) (m : Arg → ArgMode) (id : Nat)
    (xs : List Line) (ho : ∀ x ∈ xs, lineOk x = true)
    (h : ∀ x ∈ xs, ∀ a ∈ x.args, pass a.name = some (m a).passed ∧ arg' a.name = arg a)
    (ht : pass t!"true" = none) (hf : pass t!"false" = none) :
    runStmts M dev ty pass arg' id (xs.map (lineStmt m)) = runLines M dev ty arg id xs := by
  induction xs with
  | nil => rfl
  | cons x xs ih =>
    have ih := ih (fun y hy => ho y (List.mem_cons_of_mem _ hy))
      fun y hy => h y (List.mem_cons_of_mem _ hy)
    have hx := ho x List.mem_cons_self
    have ha := h x List.mem_cons_self
    have hret : ∀ e : RetE, retOk e = true →
        (∀ a ∈ e.args, pass a.name = some (m a).passed ∧ arg' a.name = arg a) →
        (retExpr m e).returned (M.withState D) ty pass arg' = e.run (M.withState D) ty arg := by
      intro e h1 h2
      rw [CExpr.returned, ret_eval (M.withState D) pass arg' arg m e h1 h2 ht hf, RetE.run]
    cases x with
    | quick e =>
      simp only [List.map_cons, lineStmt, runStmts, runLines]
      rw [quick_cond, bind_read fun p => !dev.some_ p.2, hret e hx ha, ih]
      funext p r
      cases dev.some_ p.2 <;> simp
    | guard k e =>
      simp only [List.map_cons, lineStmt, runStmts, runLines]
      rw [guard_cond, hret e hx ha, ih]
    | record n =>
      simp only [List.map_cons, lineStmt, runStmts, runLines]
      rw [record_effect, ih]
    | ret e =>
      simp only [List.map_cons, lineStmt, runStmts, runLines]
      rw [hret e hx ha]

/-! ### Calls -/

/-- The type of a parameter shows how it is passed. -/
def Param.Shown (p : Param) : Prop :=
  (p.mode = .value → (tokens p.ty).getLast? ≠ some t!"*") ∧
  (p.mode = .deref → (tokens p.ty).getLast? = some t!"*")

theorem Param.shown_pass {p : Param} (h : p.Shown) (hg : goodTy p.ty = true) :
    (CParam.mk (tyToks p) p.arg.name).pass = p.mode.passed := by
  have hno : (tokens p.ty).take 4 ≠ [t!"std", t!"::", t!"function", t!"<"] := by
    intro he
    have hm : t!"::" ∈ (tokens p.ty).take 4 := by rw [he]; simp
    have := (goodTy_toks hg).1 _ (List.mem_of_mem_take hm)
    revert this
    decide
  cases hm : p.mode with
  | value => simp [CParam.pass, tyToks, hm, hno, h.1 hm, ArgMode.passed]
  | deref => simp [CParam.pass, tyToks, hm, hno, h.2 hm, ArgMode.passed]
  | thunk => simp [CParam.pass, tyToks, hm, ArgMode.passed]

/-- A call of the function with one parameter, as read, is the call of the model. -/
theorem call1_read (f : MutFn) (p : Param) (h : f.Plain) (hp : f.params = [p]) (ha : p.arg = .arg)
    (hs : p.Shown) (hl : ∀ x ∈ f.lines, ∀ a ∈ x.args, a = .arg)
    (M : Machine S V) (dev : Device D) (id : Nat) (c : Comp (S × D) V) :
    f.read.call M dev id [c] = f.call1 M dev id c := by
  have hps := p.shown_pass hs (h.tys p (by simp [hp]))
  have hm : f.mode .arg = p.mode := by simp [MutFn.mode, hp, ha]
  have hpass : f.read.pass Arg.arg.name = some (f.mode .arg).passed := by
    rw [hm, ← hps]
    simp [CFn.pass, MutFn.read, hp, ha]
  have ht : f.read.pass t!"true" = none := by
    simp [CFn.pass, MutFn.read, hp, ha, Arg.name]
  have hf : f.read.pass t!"false" = none := by
    simp [CFn.pass, MutFn.read, hp, ha, Arg.name]
  have hrun : ∀ c' : Comp (S × D) V,
      runStmts M dev (typeText (tokens f.resTy)) f.read.pass (fun _ => c') id (f.lines.map (lineStmt f.mode)) =
        runLines M dev f.resTy (args1 c') id f.lines := by
    intro c'
    rw [(goodTy_toks h.res).2.2]
    refine lines_run M dev _ _ _ _ _ id _ h.body (fun x hx a hax => ?_) ht hf
    obtain rfl := hl x hx a hax
    exact ⟨hpass, rfl⟩
  have hcall : f.read.call M dev id [c] =
      if p.mode.passed = .function then runLines M dev f.resTy (args1 c) id f.lines
      else Comp.bind c fun v => runLines M dev f.resTy (args1 (.pure v)) id f.lines := by
    simp only [CFn.call, MutFn.read, hp, List.map_cons, List.map_nil, List.singleton_append,
      List.getLast?_cons_cons, List.getLast?_singleton, and_self, if_true,
      List.dropLast_cons_cons, List.dropLast_singleton, passing, hps]
    simp only [← hrun]
    simp only [MutFn.read, hp, List.map_cons, List.map_nil, List.singleton_append]
  rw [hcall, MutFn.call1, hm]
  cases p.mode <;> rfl

/-- The same for two parameters. -/
theorem call2_read (f : MutFn) (p q : Param) (h : f.Plain) (hp : f.params = [p, q])
    (ha : p.arg = .arg1) (hb : q.arg = .arg2) (hs : p.Shown) (hs' : q.Shown)
    (hl : ∀ x ∈ f.lines, ∀ a ∈ x.args, a = .arg1 ∨ a = .arg2)
    (M : Machine S V) (dev : Device D) (id : Nat) (c1 c2 : Comp (S × D) V) :
    f.read.call M dev id [c1, c2] = f.call2 M dev id c1 c2 := by
  have hps := p.shown_pass hs (h.tys p (by simp [hp]))
  have hqs := q.shown_pass hs' (h.tys q (by simp [hp]))
  have hm : f.mode .arg1 = p.mode := by simp [MutFn.mode, hp, ha]
  have hm' : f.mode .arg2 = q.mode := by simp [MutFn.mode, hp, ha, hb]
  have hpass : f.read.pass Arg.arg1.name = some (f.mode .arg1).passed := by
    rw [hm, ← hps]
    simp [CFn.pass, MutFn.read, hp, ha]
  have hpass' : f.read.pass Arg.arg2.name = some (f.mode .arg2).passed := by
    rw [hm', ← hqs]
    simp [CFn.pass, MutFn.read, hp, ha, hb, Arg.name]
  have ht : f.read.pass t!"true" = none := by
    simp [CFn.pass, MutFn.read, hp, ha, hb, Arg.name]
  have hf : f.read.pass t!"false" = none := by
    simp [CFn.pass, MutFn.read, hp, ha, hb, Arg.name]
  have hrun : ∀ d1 d2 : Comp (S × D) V,
      runStmts M dev (typeText (tokens f.resTy)) f.read.pass (fun x => if x = p.arg.name then d1 else d2) id
          (f.lines.map (lineStmt f.mode)) =
        runLines M dev f.resTy (args2 d1 d2) id f.lines := by
    intro d1 d2
    rw [(goodTy_toks h.res).2.2]
    refine lines_run M dev _ _ _ _ _ id _ h.body (fun x hx a hax => ?_) ht hf
    rcases hl x hx a hax with rfl | rfl
    · exact ⟨hpass, by simp [ha, args2]⟩
    · exact ⟨hpass', by simp [ha, args2, Arg.name]⟩
  have hcall : f.read.call M dev id [c1, c2] =
      match p.mode.passed, q.mode.passed with
      | .function, .function => runLines M dev f.resTy (args2 c1 c2) id f.lines
      | .function, _ => Comp.bind c2 fun w => runLines M dev f.resTy (args2 c1 (.pure w)) id f.lines
      | _, .function => Comp.bind c1 fun v => runLines M dev f.resTy (args2 (.pure v) c2) id f.lines
      | _, _ => Comp.bind (Comp.both .unseq c1 c2) fun vw =>
          runLines M dev f.resTy (args2 (.pure vw.1) (.pure vw.2)) id f.lines := by
    simp only [CFn.call, MutFn.read, hp, List.map_cons, List.map_nil, List.cons_append, List.nil_append,
      List.getLast?_cons_cons, List.getLast?_singleton, and_self, if_true,
      List.dropLast_cons_cons, List.dropLast_singleton, passing, hps, hqs]
    simp only [← hrun]
    simp only [MutFn.read, hp, List.map_cons, List.map_nil, List.cons_append, List.nil_append]
    generalize p.mode.passed = a
    generalize q.mode.passed = b
    cases a <;> cases b <;> rfl
  rw [hcall, MutFn.call2, hm, hm']
  cases p.mode <;> cases q.mode <;> rfl

end

end Dredd
