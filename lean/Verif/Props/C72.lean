/-
C72: passing operands in lambdas.

In C++ an operand with side effects, and the right operand of `&&` and `||`, is passed to the generated
function as a lambda (mutation_replace_binary_operator.cc 674-712, mutation_replace_unary_operator.cc
422-457, mutation_replace_expr.cc 555-575).  C14, C18 and C50 take the evaluation of such a lambda to be
the evaluation of the operand.  Here the lambda is a function with a `return` statement of its own.
* `C72_mutant`: for every program and every set of enabled mutants, the instrumented program behaves
  exactly like the mutant whose operands are in lambdas.
* `C72_mutant_partial`, `C72_original_partial`: it behaves exactly like the mutant, or the original,
  itself, if the lambdas make no difference at the points where they are used.
* `C72_no_temporaries`: they make none for operands that create no temporary objects.
* `C72_false_temporaries`, `C72_false_return`: they make one for operands that create temporary objects
  with destructors, and for statement expressions with `return`.
-/
import Verif.Proofs.Lambda

namespace Dredd

variable {S V D B : Type} {Ok : D → Prop}

/-- In C there are no lambdas. -/
theorem Interp.withLambdas_c {T : Type} (K : Interp S T V) (l : Lang) (L : Lambda S V)
    (hl : l.cpp = false) : K.withLambdas l L = K := by
  have e1 : ∀ s : BinSite, ∀ c, K.passed L (s.mode1 l) c = c := by
    intro s c
    simp only [BinSite.mode1, hl, Bool.false_and, Bool.false_eq_true, if_false]
    split <;> rfl
  have e2 : ∀ s : BinSite, ∀ c, K.passed L (s.mode2 l) c = c := by
    intro s c
    simp only [BinSite.mode2, hl, Bool.false_and, Bool.false_eq_true, if_false]
    rfl
  have e3 : ∀ s : UnSite, ∀ c, K.passed L (s.mode l) c = c := by
    intro s c
    simp only [UnSite.mode, hl, Bool.false_and, Bool.false_eq_true, if_false]
    split <;> rfl
  have e4 : ∀ s : ExprSite, ∀ c, K.passed L (s.mode l) c = c := by
    intro s c
    simp only [ExprSite.mode, hl, Bool.false_and, Bool.false_eq_true, if_false]
    split <;> rfl
  simp only [Interp.withLambdas, e1, e2, e3, e4]

theorem related_lambdas (l : Lang) (o : Options) (M : Machine S V) (dev : Device D)
    (E : Nat → Bool) (first n : Nat) (hdev : dev.Faithful Ok (fun i => E (first + i)) n)
    (ho : o.track = false) (L : Lambda S V) (P : Prog S V) (k : Nat) :
    let K := (Interp.mutant l o M E first).withLambdas l L
    Related (Sim.congr S Ok True) K ((Interp.instrumented l o M dev first).withLambdas l L)
      (fileSites l o M first n K P) (P.call K k) := by
  intro K
  cases hl : l.cpp with
  | false =>
    have e : K = Interp.mutant l o M E first := Interp.withLambdas_c _ _ _ hl
    rw [e, Interp.withLambdas_c _ _ _ hl]
    exact related_mutant l o M dev E first n hdev ho P k
  | true =>
    have R := related_mutant (b := True) l o M dev E first n hdev ho P k
    have hp : ∀ m c c', (Sim.congr S Ok True).R c c' →
        (Sim.congr S Ok True).R ((Interp.mutant l o M E first).passed L m c)
          ((Interp.instrumented l o M dev first).passed L m c') := by
      intro m c c' h
      cases m with
      | thunk => exact R.around L h
      | value => exact h
      | deref => exact h
    exact
      { machine := rfl
        raise := R.raise
        step := R.step
        bin := fun s id x y h c1' c2' h1 h2 =>
          R.bin s id (.atom _) (.atom _) ⟨h.1, h.2.1, fun h => by rw [hl] at h; cases h⟩ _ _
            (hp _ _ _ h1) (hp _ _ _ h2)
        un := fun s id x h c' h1 => R.un s id (.atom _) h _ (hp _ _ _ h1)
        expr := fun s id x h c' h1 => R.expr s id (.atom _) h _ (hp _ _ _ h1)
        load := fun s id x h c' h1 => R.load s id (.atom _) h _ (hp _ _ _ h1)
        stmt := R.stmt }

theorem Sim.reaches {c : Comp S V} {c' : Comp (S × D) V} (h : Sim Ok True c c') {s s' : S} (d : D)
    (hd : Ok d) {v : V} (hr : c s (.done v s')) : ∃ d', c' (s, d) (.done v (s', d')) := by
  obtain ⟨r, h1, h2⟩ := h.bwd trivial s d hd _ hr
  cases r with
  | done v p =>
    obtain ⟨rfl, h3, -⟩ := h2
    obtain ⟨p1, d'⟩ := p
    cases h3
    exact ⟨d', h1⟩
  | stop p => exact h2.elim
  | ub => exact h2.elim
  | timeout => exact h2.elim

/-- C72: for every program, every set of enabled mutants and whatever lambdas do, the instrumented
program behaves exactly like the mutant whose operands are in lambdas. -/
theorem C72_mutant (l : Lang) (o : Options) (M : Machine S V) (dev : Device D)
    (E : Nat → Bool) (first n : Nat) (hdev : dev.Faithful Ok (fun i => E (first + i)) n)
    (ho : o.track = false) (L : Lambda S V) (P : Prog S V)
    (hP : P.All (fileSites l o M first n ((Interp.mutant l o M E first).withLambdas l L) P))
    (k f : Nat) (vs : List V) :
    Sim Ok True (P.call ((Interp.mutant l o M E first).withLambdas l L) k f vs)
      (P.call ((Interp.instrumented l o M dev first).withLambdas l L) k f vs) :=
  Prog.call_sim P hP (fun k => related_lambdas l o M dev E first n hdev ho L P k) k f vs

/-- C72: the instrumented program, with its lambdas, behaves exactly like the mutant, if the lambdas make
no difference at the points where they are used.

Full statement: for all operands.  It is false for operands that create temporary objects with
destructors (`C72_false_temporaries`) and for statement expressions with `return` (`C72_false_return`). -/
theorem C72_mutant_partial (l : Lang) (o : Options) (M : Machine S V) (dev : Device D)
    (E : Nat → Bool) (first n : Nat) (hdev : dev.Faithful Ok (fun i => E (first + i)) n)
    (ho : o.track = false) (L : Lambda S V) (P : Prog S V)
    (hP : P.All ((fileSites l o M first n (Interp.mutant l o M E first) P).and
      (lambdaSites l L (Interp.mutant l o M E first) P)))
    (k f : Nat) (vs : List V) :
    Sim Ok True (P.call (Interp.mutant l o M E first) k f vs)
      (P.call ((Interp.instrumented l o M dev first).withLambdas l L) k f vs) :=
  Prog.call_sim P hP
    (fun k => (related_mutant l o M dev E first n hdev ho P k).withLambdas l L) k f vs

/-- C72: the instrumented program, with its lambdas and with no mutant of the file enabled, behaves
like the original (see C18), if the lambdas make no difference at the points where they are used.

Full statement: for all operands; see `C72_mutant_partial`. -/
theorem C72_original_partial (l : Lang) (o : Options) (M : Machine S V) (dev : Device D)
    (E : Nat → Bool) (first n : Nat) (hdev : dev.Faithful Ok (fun i => E (first + i)) n)
    (ho : o.track = false) (hE : ∀ i, first ≤ i → i < first + n → E i = false)
    (all : Prop) (L : Lambda S V) (P : Prog S V)
    (hP : P.All ((originalSites l o M first n all P).and
      (lambdaSites l L (Interp.original l M) P)))
    (k f : Nat) (vs : List V) :
    Sim Ok all (P.call (Interp.original l M) k f vs)
      (P.call ((Interp.instrumented l o M dev first).withLambdas l L) k f vs) :=
  Prog.call_sim P hP
    (fun k => (related_original l o M dev _ first n (hdev.none hE) ho (fun _ => rfl) all P
      k).withLambdas l L) k f vs

/-- Operands that are passed in lambdas create no temporary objects. -/
def noTempSites (l : Lang) : Sites (B × D) V where
  bin s _ x y := (s.mode1 l = .thunk → x.NoTemps) ∧ (s.mode2 l = .thunk → y.NoTemps)
  un s _ x := s.mode l = .thunk → x.NoTemps
  expr s _ x := s.mode l = .thunk → x.NoTemps
  load s _ x := s.mode l = .thunk → x.NoTemps
  stmt _ := True

/-- C72: the lambdas of C++, which destroy the temporary objects of their operand, make no difference if
the operands in lambdas create none, in the original program and in every mutant.  The functions of the
program may create temporary objects, as long as they destroy them. -/
theorem C72_no_temporaries (l : Lang) (o : Options) (M : Machine B V) (Z : Temps B) (E : Nat → Bool)
    (first : Nat) (P : Prog (B × Stack) V) (hP : P.All (noTempSites l))
    (K : Interp (B × Stack) (B × Stack) V)
    (hK : K = Interp.original l (M.withState Stack) ∨
      K = Interp.mutant l o (M.withState Stack) E first)
    (hf : ∀ f, P.NoTemps f ∨ ∀ k vs, (P.call K k f vs).Uniform) :
    P.All (lambdaSites l Z.lambda K P) := by
  have key : K.Uniform M ∧
      ∀ {α : Type} (f : B × Stack → Option (α × (B × Stack))), K.step f = .lift f := by
    rcases hK with rfl | rfl
    · exact ⟨.original l M, fun _ => rfl⟩
    · exact ⟨.mutant l o M E first, fun _ => rfl⟩
  have h : ∀ x : Exp (B × Stack) V, x.NoTemps → ∀ k,
      K.around Z.lambda (x.eval K (P.call K k)) = x.eval K (P.call K k) := fun x hx k =>
    Z.around_uniform key.2 (Exp.NoTemps.eval key.1 (P.call_uniform key.1 hf k) x hx)
  intro f
  exact Stm.All.imp (Q := noTempSites l) (Q' := lambdaSites l Z.lambda K P)
    (fun s id x y hs => ⟨fun e => h x (hs.1 e), fun e => h y (hs.2 e)⟩)
    (fun s id x hs e => h x (hs e)) (fun s id x hs e => h x (hs e)) (fun s id x hs e => h x (hs e))
    (fun _ _ => trivial) _ (hP f)

/-! ### Temporary objects -/

/-- What happened: objects were created (`true`) and destroyed (`false`). -/
abbrev Sample.Trace := List (Bool × Nat)

/-- A machine that is enough for `&&`. -/
def Sample.traceMachine : Machine Sample.Trace Int where
  std := .cpp17
  bin _ _ _ _ := none
  un _ _ _ := none
  truth v := some (v != 0)
  ofBool b := if b then 1 else 0
  lit _ := 0
  conv _ v s := some (v, s)

/-- Destructors that record what happens. -/
def Sample.temps : Temps Sample.Trace where
  destroy t b := some (b ++ [(false, t)])
  unwinds _ := false

/-- `T(t).ok()`, where `ok` returns 1. -/
def Sample.tempOk (t : Nat) (p : Sample.Trace × Stack) : Option (Int × (Sample.Trace × Stack)) :=
  (Temps.create t (p.1 ++ [(true, t)], p.2)).map fun r => (1, r.2)

/-- The operands of `&&` in `return T(1).ok() && T(2).ok();`. -/
def Sample.twoTemps : Prog (Sample.Trace × Stack) Int where
  body _ := .seq (.expr (.atom (Comp.bind (.lift Temps.begin_) fun _ => .pure 0)))
    (.ret (some (.step (fun v => Comp.bind (.lift Sample.temps.end_) fun _ => .pure v)
      (.binAt (Sample.bin .land Sample.intCall Sample.intCall) 0
        (.atom (.lift (Sample.tempOk 1))) (.atom (.lift (Sample.tempOk 2)))))))
  enter _ _ s := some ((), s)
  leave _ v s := some (v.getD 0, s)

/-- The program meets the conditions of C18, and the original destroys the second object first; the
instrumented program, with no mutant enabled, destroys the first one before it creates the second. -/
theorem C72_false_temporaries :
    let M := Sample.traceMachine.withState Stack
    Sample.twoTemps.All (originalSites Sample.cpp Sample.opts M 0 20 True Sample.twoTemps) ∧
    (∀ r, Sample.twoTemps.call (Interp.original Sample.cpp M) 1 0 [] ([], []) r →
      r = .done 1 ([(true, 1), (true, 2), (false, 2), (false, 1)], [])) ∧
    ∃ d, Sample.twoTemps.call ((Interp.instrumented Sample.cpp Sample.opts M (Sample.unset 20)
        0).withLambdas Sample.cpp Sample.temps.lambda) 1 0 [] (([], []), Thread.start 20)
      (.done 1 (([(true, 1), (false, 1), (true, 2), (false, 2)], []), d)) := by
  intro M
  refine ⟨?_, ?_, ?_⟩
  · intro f
    refine ⟨trivial, ?_⟩
    rintro x hx
    cases hx
    refine ⟨⟨by decide, by decide, by decide, ?_⟩, trivial, trivial⟩
    exact ⟨fun _ _ => rfl, fun h => by cases h⟩
  · rintro r ⟨_, rfl, _, ⟨_, ⟨_, ⟨_, ⟨_, rfl, rfl⟩, rfl⟩, h⟩, h2⟩, h3⟩
    obtain ⟨_, ⟨_, ⟨_, rfl, _, rfl, _, rfl, _, rfl, rfl⟩, _, rfl, rfl⟩, rfl⟩ := h
    cases h2
    exact h3
  · have hP : Sample.twoTemps.All (fileSites Sample.cpp Sample.opts M 0 20
        ((Interp.mutant Sample.cpp Sample.opts M (inList []) 0).withLambdas Sample.cpp
          Sample.temps.lambda) Sample.twoTemps) := by
      intro f
      refine ⟨trivial, ?_⟩
      rintro x hx
      cases hx
      exact ⟨⟨by decide, by decide, fun h => by cases h⟩, trivial, trivial⟩
    have h := C72_mutant Sample.cpp Sample.opts M (Sample.unset 20) (inList []) 0 20
      (Sample.unset_faithful 20) rfl Sample.temps.lambda Sample.twoTemps hP 1 0 []
    have hm : Sample.twoTemps.call ((Interp.mutant Sample.cpp Sample.opts M (inList []) 0).withLambdas
        Sample.cpp Sample.temps.lambda) 1 0 [] ([], [])
        (.done 1 ([(true, 1), (false, 1), (true, 2), (false, 2)], [])) := by
      refine ⟨.done () ([], []), rfl, .done (.return_ (some 1)) _, ⟨.done (.return_ (some 1)) _,
        ⟨.done .normal ([], [[]]), ⟨.done 0 _, ⟨.done () ([], [[]]), rfl, rfl⟩, rfl⟩, ?_⟩, rfl⟩, rfl⟩
      refine ⟨.done 1 ([(true, 1), (false, 1), (true, 2), (false, 2)], []),
        ⟨.done 1 ([(true, 1), (false, 1), (true, 2), (false, 2)], [[]]), ?_, ⟨_, rfl, rfl⟩⟩, rfl⟩
      refine .inr ⟨fun _ _ _ => rfl, ?_⟩
      refine ⟨.done 1 _, ⟨.done 1 ([(true, 1), (false, 1)], [[]]), ?_, .done true _, rfl,
        .done 1 ([(true, 1), (false, 1), (true, 2), (false, 2)], [[]]), ?_, .done true _, rfl, rfl⟩, rfl⟩
      · exact ⟨_, rfl, _, rfl, .done () _, rfl, rfl⟩
      · exact ⟨_, rfl, _, rfl, .done () _, rfl, rfl⟩
    exact h.reaches (Thread.start 20) (.inl rfl) hm

/-- `return f() && g();`, where `f` is `return T(1).ok();` (function 1) and `g` is `return 1;`
(function 2). -/
def Sample.tidy : Prog (Sample.Trace × Stack) Int where
  body f :=
    if f = 0 then .ret (some (.binAt (Sample.bin .land Sample.intCall Sample.intCall) 0
      (.call 1 0 Fin.elim0) (.call 2 0 Fin.elim0)))
    else if f = 1 then .ret (some (.atom (Comp.bind (.lift Temps.begin_) fun _ =>
      Comp.bind (.lift (Sample.tempOk 1)) fun v => Comp.bind (.lift Sample.temps.end_) fun _ => .pure v)))
    else .ret (some (.atom (.pure 1)))
  enter _ _ s := some ((), s)
  leave _ v s := some (v.getD 0, s)

theorem Sample.tidy_noTemps (f : Nat) : Sample.tidy.NoTemps f := by
  refine ⟨?_, fun _ => ⟨fun b => some ((), b), rfl⟩, fun v => ⟨fun b => some (v.getD 0, b), rfl⟩⟩
  unfold Sample.tidy
  dsimp only
  split
  · rintro x hx
    cases hx
    exact ⟨fun i => i.elim0, fun i => i.elim0⟩
  split
  · rintro x hx
    cases hx
    have e : (Comp.bind (.lift Temps.begin_) fun _ => Comp.bind (.lift (Sample.tempOk 1)) fun v =>
        Comp.bind (.lift Sample.temps.end_) fun _ => .pure v : Comp (Sample.Trace × Stack) Int)
        = .lift (liftState fun b => some (1, b ++ [(true, 1)] ++ [(false, 1)])) := by
      refine Comp.ext fun p r => ?_
      constructor
      · rintro ⟨_, rfl, _, rfl, _, rfl, rfl⟩
        rfl
      · rintro rfl
        exact ⟨_, rfl, _, rfl, _, rfl, rfl⟩
    simp only [Exp.NoTemps, e]
    exact .lift _
  · rintro x hx
    cases hx
    exact .pure _

/-- The hypotheses of C72 can be met, by a program that creates temporary objects. -/
example (k : Nat) : Sim (PreludeOk 0 20 []) True
    (Sample.tidy.call (Interp.original Sample.cpp (Sample.traceMachine.withState Stack)) k 0 [])
    (Sample.tidy.call ((Interp.instrumented Sample.cpp Sample.opts (Sample.traceMachine.withState Stack)
      (Sample.unset 20) 0).withLambdas Sample.cpp Sample.temps.lambda) k 0 []) := by
  refine C72_original_partial _ _ _ _ (inList []) 0 20 (Sample.unset_faithful 20) rfl
    (fun _ _ _ => rfl) True _ _ (Prog.All.both ?_ (C72_no_temporaries Sample.cpp Sample.opts _ _ (inList []) 0 _
      ?_ _ (.inl rfl) fun f => .inl (Sample.tidy_noTemps f))) k 0 []
  · intro f
    unfold Sample.tidy
    dsimp only
    split
    · rintro x hx
      cases hx
      refine ⟨⟨by decide, by decide, by decide, ?_⟩, fun i => i.elim0, fun i => i.elim0⟩
      exact ⟨fun _ _ => rfl, fun h => by cases h⟩
    split
    · rintro x hx
      cases hx
      trivial
    · rintro x hx
      cases hx
      trivial
  · intro f
    unfold Sample.tidy
    dsimp only
    split
    · rintro x hx
      cases hx
      exact ⟨⟨fun _ i => i.elim0, fun _ i => i.elim0⟩, fun i => i.elim0, fun i => i.elim0⟩
    split
    · rintro x hx
      cases hx
      trivial
    · rintro x hx
      cases hx
      trivial

/-- The same with mutant 1 enabled. -/
example (k : Nat) (D : Type) (Ok : D → Prop) (dev : Device D)
    (hdev : dev.Faithful Ok (fun i => inList [1] (0 + i)) 20) : Sim Ok True
    (Sample.tidy.call (Interp.mutant Sample.cpp Sample.opts (Sample.traceMachine.withState Stack)
      (inList [1]) 0) k 0 [])
    (Sample.tidy.call ((Interp.instrumented Sample.cpp Sample.opts (Sample.traceMachine.withState Stack)
      dev 0).withLambdas Sample.cpp Sample.temps.lambda) k 0 []) := by
  refine C72_mutant_partial _ _ _ _ (inList [1]) 0 20 hdev rfl _ _
    (Prog.All.both ?_ (C72_no_temporaries Sample.cpp Sample.opts _ _ (inList [1]) 0 _
      ?_ _ (.inr rfl) fun f => .inl (Sample.tidy_noTemps f))) k 0 []
  · intro f
    unfold Sample.tidy
    dsimp only
    split
    · rintro x hx
      cases hx
      exact ⟨⟨by decide, by decide, fun h => by cases h⟩, fun i => i.elim0, fun i => i.elim0⟩
    split
    · rintro x hx
      cases hx
      trivial
    · rintro x hx
      cases hx
      trivial
  · intro f
    unfold Sample.tidy
    dsimp only
    split
    · rintro x hx
      cases hx
      exact ⟨⟨fun _ i => i.elim0, fun _ i => i.elim0⟩, fun i => i.elim0, fun i => i.elim0⟩
    split
    · rintro x hx
      cases hx
      trivial
    · rintro x hx
      cases hx
      trivial

/-! ### Statement expressions -/

/-- The state: the value with which a function is being left, if it is. -/
abbrev Sample.Leaving := Option Int

/-- A machine that is enough for `&&`. -/
def Sample.leavingMachine : Machine Sample.Leaving Int where
  std := .cpp17
  bin _ _ _ _ := none
  un _ _ _ := none
  truth v := some (v != 0)
  ofBool b := if b then 1 else 0
  lit _ := 0
  conv _ v s := some (v, s)

/-- A lambda with result type `bool`, which is left by a `return` statement in its operand. -/
def Sample.returning : Lambda Sample.Leaving Int where
  enter s := some ((), s)
  leave s := some ((), s)
  caught s := some (s.map fun v => if v = 0 then 0 else 1, none)

/-- `return 1 && ({ return 5; 1; });` -/
def Sample.stmtExpr : Prog Sample.Leaving Int where
  body _ := .try_
    (.ret (some (.binAt (Sample.bin .land Sample.intVal Sample.intVal) 0 (.atom (.pure 1))
      (.atom (Comp.bind (.lift fun _ => some ((), some 5)) fun _ => .stop)))))
    (fun s => some (s.map fun _ => 0, s)) 1
    (fun _ => .ret (some (.atom (.lift fun s => s.map fun v => (v, none)))))
  enter _ _ s := some ((), s)
  leave _ v s := some (v.getD 0, s)

/-- The program meets the conditions of C18, and the original returns 5; the instrumented program, with no
mutant enabled, returns 1. -/
theorem C72_false_return :
    let M := Sample.leavingMachine
    Sample.stmtExpr.All (originalSites Sample.cpp Sample.opts M 0 20 True Sample.stmtExpr) ∧
    (∀ r, Sample.stmtExpr.call (Interp.original Sample.cpp M) 1 0 [] none r → r = .done 5 none) ∧
    ∃ d, Sample.stmtExpr.call ((Interp.instrumented Sample.cpp Sample.opts M (Sample.unset 20)
        0).withLambdas Sample.cpp Sample.returning) 1 0 [] (none, Thread.start 20)
      (.done 1 (none, d)) := by
  intro M
  refine ⟨?_, ?_, ?_⟩
  · intro f
    refine ⟨?_, ?_⟩
    · rintro x hx
      cases hx
      refine ⟨⟨by decide, by decide, by decide, ?_⟩, trivial, trivial⟩
      exact ⟨fun _ _ => rfl, fun h => by cases h⟩
    · rintro i x hx
      cases hx
      trivial
  · rintro r ⟨_, rfl, _, ⟨_, ⟨_, ⟨_, ⟨_, rfl, _, rfl, _, ⟨_, rfl, rfl⟩, rfl⟩, rfl⟩, h⟩, h2⟩, h3⟩
    obtain ⟨_, rfl, _, rfl, rfl⟩ := h
    cases h2
    exact h3
  · have hP : Sample.stmtExpr.All (fileSites Sample.cpp Sample.opts M 0 20
        ((Interp.mutant Sample.cpp Sample.opts M (inList []) 0).withLambdas Sample.cpp
          Sample.returning) Sample.stmtExpr) := by
      intro f
      refine ⟨?_, ?_⟩
      · rintro x hx
        cases hx
        exact ⟨⟨by decide, by decide, fun h => by cases h⟩, trivial, trivial⟩
      · rintro i x hx
        cases hx
        trivial
    have h := C72_mutant Sample.cpp Sample.opts M (Sample.unset 20) (inList []) 0 20
      (Sample.unset_faithful 20) rfl Sample.returning Sample.stmtExpr hP 1 0 []
    have hm : Sample.stmtExpr.call ((Interp.mutant Sample.cpp Sample.opts M (inList []) 0).withLambdas
        Sample.cpp Sample.returning) 1 0 [] none (.done 1 none) := by
      refine ⟨.done () none, rfl, .done (.return_ (some 1)) none, ⟨.done (.return_ (some 1)) none,
        ⟨.done (.return_ (some 1)) none, ⟨.done 1 none, ?_, rfl⟩, rfl⟩, rfl⟩, rfl⟩
      refine .inr ⟨fun _ _ _ => rfl, ?_⟩
      refine ⟨.done 1 none, rfl, .done 1 none, ⟨.done 1 none, rfl, .done true none, rfl,
        .done 1 none, ?_, .done true none, rfl, rfl⟩, rfl⟩
      exact ⟨_, rfl, _, ⟨_, rfl, rfl⟩, _, rfl, rfl⟩
    exact h.reaches (Thread.start 20) (.inl rfl) hm

end Dredd
