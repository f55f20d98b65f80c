/-
Operands in lambdas: programs with and without them correspond if the lambdas make no difference; they
make none for operands that create no temporary objects.
-/
import Verif.Sem.Lambda
import Verif.Props.C18

namespace Dredd

variable {S T V D B : Type}

/-- Lambdas make no difference for the operands that are passed in lambdas. -/
def lambdaSites (l : Lang) (L : Lambda S V) (K : Interp S S V) (P : Prog S V) : Sites S V where
  bin s _ x y :=
    (s.mode1 l = .thunk → ∀ k, K.around L (x.eval K (P.call K k)) = x.eval K (P.call K k)) ∧
    (s.mode2 l = .thunk → ∀ k, K.around L (y.eval K (P.call K k)) = y.eval K (P.call K k))
  un s _ x := s.mode l = .thunk → ∀ k, K.around L (x.eval K (P.call K k)) = x.eval K (P.call K k)
  expr s _ x := s.mode l = .thunk → ∀ k, K.around L (x.eval K (P.call K k)) = x.eval K (P.call K k)
  load s _ x := s.mode l = .thunk → ∀ k, K.around L (x.eval K (P.call K k)) = x.eval K (P.call K k)
  stmt _ := True

/-- Two conditions. -/
def Sites.and {S V : Type} (Q Q' : Sites S V) : Sites S V where
  bin s id x y := Q.bin s id x y ∧ Q'.bin s id x y
  un s id x := Q.un s id x ∧ Q'.un s id x
  expr s id x := Q.expr s id x ∧ Q'.expr s id x
  load s id x := Q.load s id x ∧ Q'.load s id x
  stmt id := Q.stmt id ∧ Q'.stmt id

theorem Exp.All.both {Q Q' : Sites S V} (x : Exp S V) (h : x.All Q) (h' : x.All Q') :
    x.All (Q.and Q') := by
  induction x with
  | atom c => trivial
  | step f a ih => exact ih h h'
  | bin op a b ih1 ih2 => exact ⟨ih1 h.1 h'.1, ih2 h.2 h'.2⟩
  | binAt s id a b ih1 ih2 => exact ⟨⟨h.1, h'.1⟩, ih1 h.2.1 h'.2.1, ih2 h.2.2 h'.2.2⟩
  | un op a ih => exact ih h h'
  | unAt s id a ih => exact ⟨⟨h.1, h'.1⟩, ih h.2 h'.2⟩
  | exprAt s id a ih => exact ⟨⟨h.1, h'.1⟩, ih h.2 h'.2⟩
  | load ty a ih => exact ih h h'
  | loadAt s id a ih => exact ⟨⟨h.1, h'.1⟩, ih h.2 h'.2⟩
  | cond a b c ih1 ih2 ih3 => exact ⟨ih1 h.1 h'.1, ih2 h.2.1 h'.2.1, ih3 h.2.2 h'.2.2⟩
  | call f n args ih => exact fun i => ih i (h i) (h' i)

theorem Stm.All.both {Q Q' : Sites S V} (a : Stm S V) (h : a.All Q) (h' : a.All Q') :
    a.All (Q.and Q') := by
  induction a with
  | skip => trivial
  | expr e => exact Exp.All.both e h h'
  | seq a b ih1 ih2 => exact ⟨ih1 h.1 h'.1, ih2 h.2 h'.2⟩
  | removable id a ih => exact ⟨⟨h.1, h'.1⟩, ih h.2 h'.2⟩
  | ite e a b ih1 ih2 =>
    exact ⟨Exp.All.both e h.1 h'.1, ih1 h.2.1 h'.2.1, ih2 h.2.2 h'.2.2⟩
  | loop e step a ih =>
    exact ⟨Exp.All.both e h.1 h'.1, fun x hx => Exp.All.both x (h.2.1 x hx) (h'.2.1 x hx),
      ih h.2.2 h'.2.2⟩
  | doWhile a e ih => exact ⟨ih h.1 h'.1, Exp.All.both e h.2 h'.2⟩
  | switch e pick a ih => exact ⟨Exp.All.both e h.1 h'.1, ih h.2 h'.2⟩
  | label l a ih => exact ih h h'
  | goto l => trivial
  | brk => trivial
  | cont => trivial
  | ret e => exact fun x hx => Exp.All.both x (h x hx) (h' x hx)
  | try_ a catches n handler ih1 ih2 => exact ⟨ih1 h.1 h'.1, fun i => ih2 i (h.2 i) (h'.2 i)⟩
  | scope a unwinds d ih => exact ⟨ih h.1 h'.1, Exp.All.both d h.2 h'.2⟩

theorem Prog.All.both {Q Q' : Sites S V} {P : Prog S V} (h : P.All Q) (h' : P.All Q') :
    P.All (Q.and Q') := fun f => Stm.All.both _ (h f) (h' f)

theorem Related.around {C : Congr S D} {K : Interp S S V} {K' : Interp S (S × D) V} {Q : Sites S V}
    {calls : Nat → List V → Comp S V} (R : Related C K K' Q calls) (L : Lambda S V)
    {c : Comp S V} {c' : Comp (S × D) V} (h : C.R c c') : C.R (K.around L c) (K'.around L c') := by
  refine C.bind (R.step _) fun _ => C.either h (fun v => C.bind (R.step _) fun _ => C.pure _)
    (C.bind (R.step _) fun x => ?_)
  cases x
  · exact C.stop
  · exact C.pure _

theorem Related.passed {C : Congr S D} {K : Interp S S V} {K' : Interp S (S × D) V} {Q : Sites S V}
    {calls : Nat → List V → Comp S V} (R : Related C K K' Q calls) (L : Lambda S V) (m : ArgMode)
    {c : Comp S V} {c' : Comp (S × D) V} (hk : m = .thunk → K.around L c = c) (h : C.R c c') :
    C.R c (K'.passed L m c') := by
  cases m with
  | thunk =>
    have := R.around L h
    rw [hk rfl] at this
    exact this
  | value => exact h
  | deref => exact h

/-- If points correspond without lambdas, they correspond with lambdas that make no difference. -/
theorem Related.withLambdas {C : Congr S D} {K : Interp S S V} {K' : Interp S (S × D) V}
    {Q : Sites S V} {P : Prog S V} {k : Nat} (R : Related C K K' Q (P.call K k)) (l : Lang)
    (L : Lambda S V) :
    Related C K (K'.withLambdas l L) (Q.and (lambdaSites l L K P)) (P.call K k) where
  machine := R.machine
  raise := R.raise
  step := R.step
  bin s id x y h c1' c2' h1 h2 :=
    R.bin s id x y h.1 _ _ (R.passed L _ (fun e => h.2.1 e k) h1) (R.passed L _ (fun e => h.2.2 e k) h2)
  un s id x h c' h1 := R.un s id x h.1 _ (R.passed L _ (fun e => h.2 e k) h1)
  expr s id x h c' h1 := R.expr s id x h.1 _ (R.passed L _ (fun e => h.2 e k) h1)
  load s id x h c' h1 := R.load s id x h.1 _ (R.passed L _ (fun e => h.2 e k) h1)
  stmt id h := R.stmt id h.1

/-! ### Computations that do not concern temporary objects -/

namespace Comp.Uniform

variable {α β : Type}

theorem pure (a : α) : (Comp.pure a : Comp (B × D) α).Uniform := by
  refine ⟨.pure a, fun p r => ?_⟩
  simp only [Comp.pure]
  constructor
  · rintro rfl
    exact ⟨_, rfl, rfl⟩
  · rintro ⟨_, rfl, rfl⟩
    rfl

theorem ub : (Comp.ub : Comp (B × D) α).Uniform := by
  refine ⟨.ub, fun p r => ?_⟩
  constructor
  · rintro rfl
    exact ⟨_, rfl, rfl⟩
  · rintro ⟨_, rfl, rfl⟩
    rfl

theorem timeout : (Comp.timeout : Comp (B × D) α).Uniform := by
  refine ⟨.timeout, fun p r => ?_⟩
  constructor
  · rintro rfl
    exact ⟨_, rfl, rfl⟩
  · rintro ⟨_, rfl, rfl⟩
    rfl

theorem stop : (Comp.stop : Comp (B × D) α).Uniform := by
  refine ⟨.stop, fun p r => ?_⟩
  constructor
  · rintro rfl
    exact ⟨_, rfl, rfl⟩
  · rintro ⟨_, rfl, rfl⟩
    rfl

theorem ofOption (o : Option α) : (Comp.ofOption o : Comp (B × D) α).Uniform := by
  cases o
  · exact ub
  · exact pure _

theorem lift (f : B → Option (α × B)) : (Comp.lift (liftState f) : Comp (B × D) α).Uniform := by
  refine ⟨.lift f, fun p r => ?_⟩
  simp only [Comp.lift, liftState]
  constructor
  · rintro rfl
    refine ⟨_, rfl, ?_⟩
    cases f p.1 <;> rfl
  · rintro ⟨_, rfl, rfl⟩
    cases f p.1 <;> rfl

theorem bind {c : Comp (B × D) α} {k : α → Comp (B × D) β} (hc : c.Uniform)
    (hk : ∀ a, (k a).Uniform) : (Comp.bind c k).Uniform := by
  obtain ⟨c0, hc⟩ := hc
  obtain ⟨k0, hk⟩ := Classical.axiomOfChoice hk
  refine ⟨.bind c0 k0, fun p r => ?_⟩
  constructor
  · rintro ⟨r1, h1, h2⟩
    obtain ⟨r0, h0, rfl⟩ := (hc p r1).1 h1
    cases r0 with
    | done a s =>
      obtain ⟨r2, h3, rfl⟩ := (hk a (s, p.2) r).1 h2
      exact ⟨r2, ⟨_, h0, h3⟩, rfl⟩
    | stop s =>
      simp only [Res.withD, Comp.next] at h2
      subst h2
      exact ⟨.stop s, ⟨_, h0, rfl⟩, rfl⟩
    | ub =>
      simp only [Res.withD, Comp.next] at h2
      subst h2
      exact ⟨.ub, ⟨_, h0, rfl⟩, rfl⟩
    | timeout =>
      simp only [Res.withD, Comp.next] at h2
      subst h2
      exact ⟨.timeout, ⟨_, h0, rfl⟩, rfl⟩
  · rintro ⟨r0, ⟨r1, h1, h2⟩, rfl⟩
    refine ⟨_, (hc p _).2 ⟨r1, h1, rfl⟩, ?_⟩
    cases r1 with
    | done a s => exact (hk a (s, p.2) _).2 ⟨r0, h2, rfl⟩
    | stop s => simp only [Comp.next] at h2; subst h2; rfl
    | ub => simp only [Comp.next] at h2; subst h2; rfl
    | timeout => simp only [Comp.next] at h2; subst h2; rfl

theorem either {c : Comp (B × D) α} {k : α → Comp (B × D) β} {h : Comp (B × D) β} (hc : c.Uniform)
    (hk : ∀ a, (k a).Uniform) (hh : h.Uniform) : (Comp.either c k h).Uniform := by
  obtain ⟨c0, hc⟩ := hc
  obtain ⟨k0, hk⟩ := Classical.axiomOfChoice hk
  obtain ⟨h0, hh⟩ := hh
  refine ⟨.either c0 k0 h0, fun p r => ?_⟩
  constructor
  · rintro ⟨r1, h1, h2⟩
    obtain ⟨r0, h3, rfl⟩ := (hc p r1).1 h1
    cases r0 with
    | done a s =>
      obtain ⟨r2, h4, rfl⟩ := (hk a (s, p.2) r).1 h2
      exact ⟨r2, ⟨_, h3, h4⟩, rfl⟩
    | stop s =>
      obtain ⟨r2, h4, rfl⟩ := (hh (s, p.2) r).1 h2
      exact ⟨r2, ⟨_, h3, h4⟩, rfl⟩
    | ub => exact ⟨.ub, ⟨_, h3, rfl⟩, h2⟩
    | timeout => exact ⟨.timeout, ⟨_, h3, rfl⟩, h2⟩
  · rintro ⟨r0, ⟨r1, h1, h2⟩, rfl⟩
    refine ⟨_, (hc p _).2 ⟨r1, h1, rfl⟩, ?_⟩
    cases r1 with
    | done a s => exact (hk a (s, p.2) _).2 ⟨r0, h2, rfl⟩
    | stop s => exact (hh (s, p.2) _).2 ⟨r0, h2, rfl⟩
    | ub =>
      dsimp only at h2
      subst h2
      rfl
    | timeout =>
      dsimp only at h2
      subst h2
      rfl

theorem union {ι : Type} (q : ι → Prop) {c : ι → Comp (B × D) α} (h : ∀ i, (c i).Uniform) :
    Comp.Uniform fun s r => ∃ i, q i ∧ c i s r := by
  obtain ⟨c0, h⟩ := Classical.axiomOfChoice h
  refine ⟨fun s r => ∃ i, q i ∧ c0 i s r, fun p r => ?_⟩
  constructor
  · rintro ⟨i, hi, h1⟩
    obtain ⟨r0, h2, rfl⟩ := (h i p r).1 h1
    exact ⟨r0, ⟨i, hi, h2⟩, rfl⟩
  · rintro ⟨r0, ⟨i, hi, h2⟩, rfl⟩
    exact ⟨i, hi, (h i p _).2 ⟨r0, h2, rfl⟩⟩

theorem or {c d : Comp (B × D) α} (h : c.Uniform) (k : d.Uniform) : (Comp.or c d).Uniform := by
  obtain ⟨c0, h⟩ := h
  obtain ⟨d0, k⟩ := k
  refine ⟨.or c0 d0, fun p r => ?_⟩
  simp only [Comp.or, h, k]
  constructor
  · rintro (⟨r0, h1, rfl⟩ | ⟨r0, h1, rfl⟩)
    · exact ⟨r0, .inl h1, rfl⟩
    · exact ⟨r0, .inr h1, rfl⟩
  · rintro ⟨r0, h1 | h1, rfl⟩
    · exact .inl ⟨r0, h1, rfl⟩
    · exact .inr ⟨r0, h1, rfl⟩

theorem both (o : Order) {c : Comp (B × D) α} {d : Comp (B × D) β} (h : c.Uniform)
    (k : d.Uniform) : (Comp.both o c d).Uniform := by
  cases o
  · exact or (bind h fun _ => bind k fun _ => pure _) (bind k fun _ => bind h fun _ => pure _)
  · exact bind h fun _ => bind k fun _ => pure _
  · exact bind k fun _ => bind h fun _ => pure _

variable {M : Machine B V}

theorem logical (op : BOp) {c1 c2 : Comp (B × D) V} (h1 : c1.Uniform) (h2 : c2.Uniform) :
    ((M.withState D).logical op c1 c2).Uniform := by
  refine bind h1 fun v1 => bind (ofOption _) fun b1 => ?_
  split
  · exact pure _
  · exact bind h2 fun v2 => bind (ofOption _) fun b2 => pure _

theorem evalBin (op : BOp) {c1 c2 : Comp (B × D) V} (h1 : c1.Uniform) (h2 : c2.Uniform) :
    ((M.withState D).evalBin op c1 c2).Uniform := by
  unfold Machine.evalBin
  split
  · exact logical op h1 h2
  split
  · exact bind h1 fun _ => h2
  · exact bind (both _ h1 h2) fun p => lift _

theorem evalUn (op : UOp) {c : Comp (B × D) V} (h : c.Uniform) :
    ((M.withState D).evalUn op c).Uniform := by
  unfold Machine.evalUn
  split
  · exact bind h fun v => bind (ofOption _) fun _ => pure _
  · exact bind h fun v => lift _

theorem to (ty : Text) {c : Comp (B × D) V} (h : c.Uniform) : (c.to (M.withState D) ty).Uniform :=
  bind h fun _ => lift _

theorem prepare2 (x y : Bool) {c1 c2 : Comp (B × D) V} {k : Comp (B × D) V → Comp (B × D) V →
      Comp (B × D) α} (h1 : c1.Uniform) (h2 : c2.Uniform)
    (hk : ∀ d1 d2 : Comp (B × D) V, d1.Uniform → d2.Uniform → (k d1 d2).Uniform) :
    (Dredd.prepare2 x y c1 c2 k).Uniform := by
  cases x <;> cases y
  · exact bind (both _ h1 h2) fun _ => hk _ _ (pure _) (pure _)
  · exact bind h1 fun _ => hk _ _ (pure _) h2
  · exact bind h2 fun _ => hk _ _ h1 (pure _)
  · exact hk _ _ h1 h2

theorem prepare1 (x : Bool) {c : Comp (B × D) V} {k : Comp (B × D) V → Comp (B × D) α}
    (h : c.Uniform) (hk : ∀ d : Comp (B × D) V, d.Uniform → (k d).Uniform) :
    (Dredd.prepare1 x c k).Uniform := by
  cases x
  · exact bind h fun _ => hk _ (pure _)
  · exact hk _ h

theorem selected (E : Nat → Bool) (insts : List (Nat × α)) {f : α → Comp (B × D) V}
    {c : Comp (B × D) V} (hf : ∀ a, (f a).Uniform) (hc : c.Uniform) :
    (Dredd.selected E insts f c).Uniform :=
  or (union _ hf) (by
    obtain ⟨c0, h⟩ := hc
    refine ⟨fun s r => NoneEnabled E insts ∧ c0 s r, fun p r => ?_⟩
    simp only [h]
    constructor
    · rintro ⟨hn, r0, h1, rfl⟩
      exact ⟨r0, ⟨hn, h1⟩, rfl⟩
    · rintro ⟨r0, ⟨hn, h1⟩, rfl⟩
      exact ⟨hn, r0, h1, rfl⟩)

theorem runArgs {n : Nat} {c : Fin n → Comp (B × D) V} (h : ∀ i, (c i).Uniform)
    (is : List (Fin n)) (vs : List (Fin n × V)) : (Dredd.runArgs c is vs).Uniform := by
  induction is generalizing vs with
  | nil => exact pure _
  | cons i is ih => exact bind (h i) fun v => ih _

theorem allArgs {n : Nat} {c : Fin n → Comp (B × D) V} (h : ∀ i, (c i).Uniform) :
    (Dredd.allArgs c).Uniform :=
  union _ fun order => bind (runArgs h order []) fun _ => pure _

end Comp.Uniform

/-- Instrumentation points do not concern temporary objects if their operands do not. -/
structure Interp.Uniform (K : Interp (B × D) (B × D) V) (M : Machine B V) : Prop where
  machine : K.machine = M.withState D
  raise : ∀ c, K.raise c = c
  bin : ∀ s id c1 c2, c1.Uniform → c2.Uniform → (K.bin s id c1 c2).Uniform
  un : ∀ s id c, c.Uniform → (K.un s id c).Uniform
  expr : ∀ s id c, c.Uniform → (K.expr s id c).Uniform
  load : ∀ s id c, c.Uniform → (K.load s id c).Uniform
  stmt : ∀ id c, c.Uniform → (K.stmt id c).Uniform
  step : ∀ {α : Type} (f : B → Option (α × B)), (K.step (liftState f)).Uniform

theorem Interp.Uniform.original (l : Lang) (M : Machine B V) :
    (Interp.original l (M.withState D)).Uniform M where
  machine := rfl
  raise _ := rfl
  bin s _ _ _ h1 h2 := h1.evalBin s.op h2
  un s _ _ h := h.evalUn s.op
  expr _ _ _ h := h
  load _ _ _ h := h.to _
  stmt _ _ h := h
  step f := .lift f

theorem Interp.Uniform.mutant (l : Lang) (o : Options) (M : Machine B V) (E : Nat → Bool)
    (first : Nat) : (Interp.mutant l o (M.withState D) E first).Uniform M where
  machine := rfl
  raise _ := rfl
  bin s id c1 c2 h1 h2 := by
    dsimp only [Interp.mutant]
    split
    · split
      · refine .selected _ _ (fun a => .prepare2 _ _ h1 h2 fun d1 d2 g1 g2 => .to _ ?_)
          (.prepare2 _ _ h1 h2 fun d1 d2 g1 g2 => .to _ (g1.evalBin _ g2))
        cases a.change with
        | op x => exact g1.evalBin _ g2
        | lhs => exact g1
        | rhs => exact g2
      · unfold mutantLogical
        split
        · exact h1.logical _ h2
        split
        · split
          · exact h1.bind fun _ => h2.bind fun _ => .pure _
          · refine h1.bind fun v1 => .bind (.ofOption _) fun x => ?_
            split
            · exact .pure _
            · exact h2.bind fun _ => .pure _
        split
        · exact h1.bind fun _ => h2.bind fun _ => .bind (.ofOption _) fun _ => .pure _
        · exact h1.logical _ h2
    · exact .ub
  un s id c h := by
    dsimp only [Interp.mutant]
    split
    · refine .selected _ _ (fun a => .prepare1 _ h fun d g => .to _ ?_)
          (.prepare1 _ h fun d g => .to _ (g.evalUn _))
      cases a.change with
      | op x => exact g.evalUn _
      | operand => exact g
    · exact .ub
  expr s id c h := by
    dsimp only [Interp.mutant]
    split
    · refine .selected _ _ (fun a => .prepare1 _ h fun d g => .to _ ?_)
          (.prepare1 _ h fun d g => .to _ g)
      cases a.change l.cpp with
      | insert x => exact g.evalUn _
      | const x => exact .pure _
    · exact .ub
  load s id c h := by
    dsimp only [Interp.mutant]
    split
    · refine .selected _ _ (fun a => .prepare1 _ h fun d g => .to _ ?_)
          (.prepare1 _ h fun d g => .to _ g)
      cases a.change l.cpp with
      | insert x => exact g.evalUn _
      | const x => exact .pure _
    · exact .ub
  stmt id c h := by
    dsimp only [Interp.mutant]
    split
    · exact .pure _
    · exact h
  step f := .lift f

/-- Expressions that create no temporary objects do not concern temporary objects. -/
theorem Exp.NoTemps.eval {K : Interp (B × D) (B × D) V} {M : Machine B V} (hK : K.Uniform M)
    {calls : Nat → List V → Comp (B × D) V} (hc : ∀ f vs, (calls f vs).Uniform)
    (x : Exp (B × D) V) (h : x.NoTemps) : (x.eval K calls).Uniform := by
  induction x with
  | atom c => simp only [Exp.eval, hK.raise]; exact h
  | step f a ih =>
    simp only [Exp.eval, hK.raise]
    exact (ih h.2).bind h.1
  | bin op a b ih1 ih2 =>
    simp only [Exp.eval, hK.machine]
    exact (ih1 h.1).evalBin op (ih2 h.2)
  | binAt s id a b ih1 ih2 => exact hK.bin _ _ _ _ (ih1 h.1) (ih2 h.2)
  | un op a ih =>
    simp only [Exp.eval, hK.machine]
    exact (ih h).evalUn op
  | unAt s id a ih => exact hK.un _ _ _ (ih h)
  | exprAt s id a ih => exact hK.expr _ _ _ (ih h)
  | load ty a ih =>
    simp only [Exp.eval, hK.machine]
    exact (ih h).to ty
  | loadAt s id a ih => exact hK.load _ _ _ (ih h)
  | cond a b c ih1 ih2 ih3 =>
    simp only [Exp.eval, hK.machine]
    refine Comp.Uniform.bind (.bind (ih1 h.1) fun v => .ofOption _) fun v => ?_
    split
    · exact ih2 h.2.1
    · exact ih3 h.2.2
  | call f n args ih => exact .bind (.allArgs fun i => ih i (h i)) fun vs => hc f vs

/-- A statement that does not concern temporary objects. -/
def Code.Uniform (a : Code (B × D) V) : Prop := ∀ e, (a.run e).Uniform

namespace Code.Uniform

variable {a b : Code (B × D) V}

theorem plain {c : Comp (B × D) (Ctl V)} (h : c.Uniform) : (Code.plain c).Uniform
  | none => h
  | some _ => .pure _

theorem build {labels : List Nat} {c : Comp (B × D) (Ctl V)} {at_ : Nat → Comp (B × D) (Ctl V)}
    {out} (h : c.Uniform) (hat : ∀ l, (at_ l).Uniform) :
    Code.Uniform ⟨labels, fun | none => c | some l => if l ∈ labels then at_ l else .pure (.goto_ l), out⟩
  | none => h
  | some l => by
    dsimp only
    split
    · exact hat l
    · exact .pure _

theorem andThen {c d : Comp (B × D) (Ctl V)} (hc : c.Uniform) (hd : d.Uniform) :
    (Dredd.andThen c d).Uniform := by
  refine hc.bind fun x => ?_
  cases x
  · exact hd
  all_goals exact .pure _

theorem ite {x : Bool} {α : Type} {c d : Comp (B × D) α} (hc : c.Uniform) (hd : d.Uniform) :
    (if x then c else d).Uniform := by
  cases x
  · exact hd
  · exact hc

theorem loopN {t : Comp (B × D) Bool} {st : Comp (B × D) Unit} {c : Comp (B × D) (Ctl V)}
    (h1 : t.Uniform) (h2 : st.Uniform) (h3 : c.Uniform) (n : Nat) :
    (Dredd.loopN t st c n).Uniform := by
  induction n with
  | zero => exact .timeout
  | succ n ih =>
    refine h1.bind fun x => ite (h3.bind fun y => ?_) (.pure _)
    cases afterBody y
    · exact h2.bind fun _ => ih
    · exact .pure _

theorem doN {t : Comp (B × D) Bool} {c : Comp (B × D) (Ctl V)} (h1 : t.Uniform) (h3 : c.Uniform)
    (n : Nat) : (Dredd.doN t c n).Uniform := by
  induction n with
  | zero => exact .timeout
  | succ n ih =>
    refine h3.bind fun y => ?_
    cases afterBody y
    · exact h1.bind fun x => ite ih (.pure _)
    · exact .pure _

theorem after (a : Code (B × D) V) {k : Nat → Comp (B × D) (Ctl V)} (hk : ∀ l, (k l).Uniform)
    (x : Ctl V) : (a.after k x).Uniform := by
  cases x <;> simp only [Code.after] <;> try exact .pure _
  split
  · exact hk _
  · exact .pure _

theorem settle (h : a.Uniform) (n : Nat) (e : Option Nat) : (a.settle n e).Uniform := by
  induction n generalizing e with
  | zero => exact (h e).bind (after a fun _ => .timeout)
  | succ n ih => exact (h e).bind (after a fun l => ih (some l))

theorem seq (ha : a.Uniform) (hb : b.Uniform) : (Code.seq a b).Uniform := by
  refine build (andThen (ha _) (hb _)) fun l => ?_
  split
  · exact andThen (ha _) (hb _)
  · exact hb _

end Code.Uniform

/-- Statements whose expressions create no temporary objects do not concern temporary objects. -/
theorem Stm.NoTemps.code {K : Interp (B × D) (B × D) V} {M : Machine B V} (hK : K.Uniform M)
    {calls : Nat → List V → Comp (B × D) V} (hc : ∀ f vs, (calls f vs).Uniform) (fuel : Nat)
    (a : Stm (B × D) V) (h : a.NoTemps) : (a.code K calls fuel).Uniform := by
  have ev : ∀ e : Exp (B × D) V, e.NoTemps → (e.eval K calls).Uniform :=
    fun e he => Exp.NoTemps.eval hK hc e he
  have tst : ∀ e : Exp (B × D) V, e.NoTemps → (K.machine.test (e.eval K calls)).Uniform :=
    fun e he => (ev e he).bind fun v => .ofOption _
  induction a with
  | skip => exact .plain (.pure _)
  | expr e => exact .plain ((ev e h).bind fun _ => .pure _)
  | seq a b ih1 ih2 => exact (ih1 h.1).seq (ih2 h.2)
  | removable id a ih => exact .build (hK.stmt _ _ (ih h _)) fun l => ih h _
  | ite e a b ih1 ih2 =>
    refine .build ((tst e h.1).bind fun x => Code.Uniform.ite (ih1 h.2.1 _) (ih2 h.2.2 _)) fun l => ?_
    split
    · exact ih1 h.2.1 _
    · exact ih2 h.2.2 _
  | loop e step a ih =>
    have hs : (optStep K calls step).Uniform := by
      cases step with
      | none => exact .pure _
      | some x => exact (ev x (h.2.1 x rfl)).bind fun _ => .pure _
    have hl := Code.Uniform.loopN (tst e h.1) hs (ih h.2.2 none) fuel
    refine .build hl fun l => (ih h.2.2 _).bind fun y => ?_
    cases afterBody y
    · exact hs.bind fun _ => hl
    · exact .pure _
  | doWhile a e ih =>
    have hl := Code.Uniform.doN (tst e h.2) (ih h.1 none) fuel
    refine .build hl fun l => (ih h.1 _).bind fun y => ?_
    cases afterBody y
    · exact (tst e h.2).bind fun _ => Code.Uniform.ite hl (.pure _)
    · exact .pure _
  | switch e pick a ih =>
    refine .build (((ev e h.1).bind fun _ => .pure _).bind fun x => ?_) fun l =>
      (ih h.2 _).bind fun _ => .pure _
    split
    · exact .pure _
    · exact (ih h.2 _).bind fun _ => .pure _
  | label l a ih =>
    refine .build (ih h _) fun l' => ?_
    split
    · exact ih h _
    · exact ih h _
  | goto l => exact .plain (.pure _)
  | brk => exact .plain (.pure _)
  | cont => exact .plain (.pure _)
  | ret e =>
    refine .plain ?_
    cases e with
    | none => exact .pure _
    | some x => exact (ev x (h x rfl)).bind fun _ => .pure _
  | try_ a catches n handler ih1 ih2 =>
    obtain ⟨ha, ⟨g, rfl⟩, hh⟩ := h
    have hx : (Comp.bind (K.step (liftState g)) fun x => match x with
        | none => .stop
        | some k => if hk : k < n then ((handler ⟨k, hk⟩).code K calls fuel).run none
          else .ub : Comp (B × D) (Ctl V)).Uniform := by
      refine (hK.step g).bind fun x => ?_
      cases x with
      | none => exact .stop
      | some k =>
        dsimp only
        split
        · exact ih2 _ (hh _) _
        · exact .ub
    refine .build ((ih1 ha _).either (fun _ => .pure _) hx) fun l => ?_
    split
    · exact (ih1 ha _).either (fun _ => .pure _) hx
    · split
      · exact ih2 _ (hh _) _
      · exact .ub
  | scope a unwinds d ih =>
    obtain ⟨ha, ⟨g, rfl⟩, hd⟩ := h
    have hd' : (ignore (d.eval K calls)).Uniform := (ev d hd).bind fun _ => .pure _
    have hu : (K.step fun s : B × D => some (g s.1, s)).Uniform :=
      hK.step fun b => some (g b, b)
    have hr : ∀ e, (Comp.either ((a.code K calls fuel).settle fuel e)
        (fun x => Comp.bind (ignore (d.eval K calls)) fun _ => .pure x)
        (Comp.bind (K.step fun s : B × D => some (g s.1, s)) fun u =>
          if u then Comp.bind (ignore (d.eval K calls)) fun _ => .stop else .stop)).Uniform :=
      fun e => ((ih ha).settle fuel e).either (fun _ => hd'.bind fun _ => .pure _)
        (hu.bind fun _ => Code.Uniform.ite (hd'.bind fun _ => .stop) .stop)
    exact .build (hr _) fun l => hr _

/-- Calls do not concern the temporary objects of the caller, if every function creates none, or cleans up. -/
theorem Prog.call_uniform {K : Interp (B × D) (B × D) V} {M : Machine B V} (hK : K.Uniform M)
    (P : Prog (B × D) V)
    (hP : ∀ f, P.NoTemps f ∨ ∀ k vs, (P.call K k f vs).Uniform) (k f : Nat) (vs : List V) :
    (P.call K k f vs).Uniform := by
  induction k generalizing f vs with
  | zero => exact .timeout
  | succ k ih =>
    rcases hP f with ⟨h1, h2, h3⟩ | h
    · obtain ⟨g, hg⟩ := h2 vs
      rw [Prog.call, hg]
      refine (hK.step g).bind fun _ => .bind ((Stm.NoTemps.code hK ih k _ h1).settle k none) fun x => ?_
      obtain ⟨g', hg'⟩ := h3 (returned x)
      rw [hg']
      exact hK.step g'
    · exact h _ _

theorem Temps.abandon_nil (Z : Temps B) (b : B) (st : Stack) :
    Z.abandon (b, [] :: st) = some ((), (b, st)) := by
  unfold Temps.abandon
  split <;> rfl

/-- Lambdas make no difference for computations that do not concern temporary objects. -/
theorem Temps.around_uniform (Z : Temps B) {K : Interp (B × Stack) (B × Stack) V}
    (hstep : ∀ {α : Type} (f : B × Stack → Option (α × (B × Stack))), K.step f = .lift f)
    {c : Comp (B × Stack) V} (h : c.Uniform) : K.around Z.lambda c = c := by
  obtain ⟨c0, h⟩ := h
  refine Comp.ext fun p r => ?_
  simp only [Interp.around, hstep]
  constructor
  · rintro ⟨r1, rfl, h2⟩
    simp only [Comp.next, Temps.lambda, Temps.begin_] at h2
    obtain ⟨r2, h3, h4⟩ := h2
    obtain ⟨r0, h5, rfl⟩ := (h _ _).1 h3
    refine (h _ _).2 ⟨r0, h5, ?_⟩
    cases r0 with
    | done a s =>
      obtain ⟨r3, rfl, h6⟩ := h4
      exact h6
    | stop s =>
      obtain ⟨r3, rfl, h6⟩ := h4
      simp only [Temps.abandon_nil, Option.map] at h6
      exact h6
    | ub => exact h4
    | timeout => exact h4
  · intro h1
    obtain ⟨r0, h2, rfl⟩ := (h _ _).1 h1
    refine ⟨_, rfl, ?_⟩
    simp only [Temps.lambda, Temps.begin_]
    refine ⟨_, (h _ _).2 ⟨r0, h2, rfl⟩, ?_⟩
    cases r0 with
    | done a s => exact ⟨_, rfl, rfl⟩
    | stop s =>
      refine ⟨_, rfl, ?_⟩
      simp only [Temps.abandon_nil, Option.map]
      rfl
    | ub => rfl
    | timeout => rfl

end Dredd
