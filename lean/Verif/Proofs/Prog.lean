/-
Two programs whose instrumentation points correspond behave alike.
-/
import Verif.Sem.Interp

namespace Dredd

variable {S V D α β : Type}

/-- Conditions on instrumentation points. -/
structure Sites (S V : Type) where
  bin : BinSite → Nat → Exp S V → Exp S V → Prop
  un : UnSite → Nat → Exp S V → Prop
  expr : ExprSite → Nat → Exp S V → Prop
  load : ExprSite → Nat → Exp S V → Prop
  stmt : Nat → Prop

/-- All instrumentation points of an expression satisfy the conditions. -/
def Exp.All (Q : Sites S V) : Exp S V → Prop
  | .atom _ => True
  | .step _ a => a.All Q
  | .bin _ a b => a.All Q ∧ b.All Q
  | .binAt s id a b => Q.bin s id a b ∧ a.All Q ∧ b.All Q
  | .un _ a => a.All Q
  | .unAt s id a => Q.un s id a ∧ a.All Q
  | .exprAt s id a => Q.expr s id a ∧ a.All Q
  | .load _ a => a.All Q
  | .loadAt s id a => Q.load s id a ∧ a.All Q
  | .cond a b c => a.All Q ∧ b.All Q ∧ c.All Q
  | .call _ _ args => ∀ i, (args i).All Q

/-- All instrumentation points of a statement satisfy the conditions. -/
def Stm.All (Q : Sites S V) : Stm S V → Prop
  | .skip => True
  | .expr e => e.All Q
  | .seq a b => a.All Q ∧ b.All Q
  | .removable id a => Q.stmt id ∧ a.All Q
  | .ite e a b => e.All Q ∧ a.All Q ∧ b.All Q
  | .loop e step a => e.All Q ∧ (∀ x, step = some x → x.All Q) ∧ a.All Q
  | .doWhile a e => a.All Q ∧ e.All Q
  | .switch e _ body => e.All Q ∧ body.All Q
  | .label _ a => a.All Q
  | .goto _ => True
  | .brk => True
  | .cont => True
  | .ret e => ∀ x, e = some x → x.All Q
  | .try_ a _ _ handler => a.All Q ∧ ∀ i, (handler i).All Q
  | .scope a _ d => a.All Q ∧ d.All Q

/-- All instrumentation points of a program satisfy the conditions. -/
def Prog.All (Q : Sites S V) (P : Prog S V) : Prop := ∀ f, (P.body f).All Q

/-- The instrumentation points of `K'` do what those of `K` do, for operands
that are expressions with functions `calls`. -/
structure Related (C : Congr S D) (K : Interp S S V) (K' : Interp S (S × D) V)
    (Q : Sites S V) (calls : Nat → List V → Comp S V) : Prop where
  machine : K'.machine = K.machine.withState D
  raise : ∀ c, C.R (K.raise c) (K'.raise c)
  step : ∀ {α : Type} (f : S → Option (α × S)), C.R (K.step f) (K'.step f)
  bin : ∀ s id x y, Q.bin s id x y → ∀ c1' c2', C.R (x.eval K calls) c1' →
    C.R (y.eval K calls) c2' →
    C.R (K.bin s id (x.eval K calls) (y.eval K calls)) (K'.bin s id c1' c2')
  un : ∀ s id x, Q.un s id x → ∀ c', C.R (x.eval K calls) c' →
    C.R (K.un s id (x.eval K calls)) (K'.un s id c')
  expr : ∀ s id x, Q.expr s id x → ∀ c', C.R (x.eval K calls) c' →
    C.R (K.expr s id (x.eval K calls)) (K'.expr s id c')
  load : ∀ s id x, Q.load s id x → ∀ c', C.R (x.eval K calls) c' →
    C.R (K.load s id (x.eval K calls)) (K'.load s id c')
  stmt : ∀ id, Q.stmt id → ∀ c c', C.R c c' → C.R (K.stmt id c) (K'.stmt id c')

namespace Congr

variable (C : Congr S D)

theorem ite {x : Bool} {c d : Comp S α} {c' d' : Comp (S × D) α} (h1 : C.R c c')
    (h2 : C.R d d') : C.R (if x then c else d) (if x then c' else d') := by
  cases x
  · exact h2
  · exact h1

theorem test {M : Machine S V} {c : Comp S V} {c' : Comp (S × D) V} (h : C.R c c') :
    C.R (M.test c) ((M.withState D).test c') :=
  C.bind h fun v => C.ofOption (M.truth v)

theorem runArgs {n : Nat} {c : Fin n → Comp S V} {c' : Fin n → Comp (S × D) V}
    (h : ∀ i, C.R (c i) (c' i)) (is : List (Fin n)) (vs : List (Fin n × V)) :
    C.R (Dredd.runArgs c is vs) (Dredd.runArgs c' is vs) := by
  induction is generalizing vs with
  | nil => exact C.pure _
  | cons i is ih => exact C.bind (h i) fun v => ih _

theorem allArgs {n : Nat} {c : Fin n → Comp S V} {c' : Fin n → Comp (S × D) V}
    (h : ∀ i, C.R (c i) (c' i)) : C.R (Dredd.allArgs c) (Dredd.allArgs c') :=
  C.union _ fun order => C.bind (C.runArgs h order []) fun _ => C.pure _

end Congr

variable {C : Congr S D}

theorem Exp.eval_rel {K : Interp S S V} {K' : Interp S (S × D) V} {Q : Sites S V}
    {calls : Nat → List V → Comp S V} {calls' : Nat → List V → Comp (S × D) V}
    (R : Related C K K' Q calls) (hc : ∀ f vs, C.R (calls f vs) (calls' f vs))
    (e : Exp S V) (h : e.All Q) : C.R (e.eval K calls) (e.eval K' calls') := by
  induction e with
  | atom c => exact R.raise c
  | step f a ih => exact C.bind (ih h) fun v => R.raise (f v)
  | bin op x y ih1 ih2 =>
    simp only [Exp.eval, R.machine]
    exact C.evalBin op (ih1 h.1) (ih2 h.2)
  | binAt s id x y ih1 ih2 => exact R.bin s id x y h.1 _ _ (ih1 h.2.1) (ih2 h.2.2)
  | un op x ih =>
    simp only [Exp.eval, R.machine]
    exact C.evalUn op (ih h)
  | unAt s id x ih => exact R.un s id x h.1 _ (ih h.2)
  | exprAt s id x ih => exact R.expr s id x h.1 _ (ih h.2)
  | load ty x ih =>
    simp only [Exp.eval, R.machine]
    exact C.bind (ih h) fun v => C.lift (K.machine.conv ty v)
  | loadAt s id x ih => exact R.load s id x h.1 _ (ih h.2)
  | cond x y z ih1 ih2 ih3 =>
    simp only [Exp.eval, R.machine]
    exact C.bind (C.test (ih1 h.1)) fun v => C.ite (ih2 h.2.1) (ih3 h.2.2)
  | call f n args ih => exact C.bind (C.allArgs fun i => ih i (h i)) fun vs => hc f vs

namespace Congr

variable (C : Congr S D)

theorem andThen {c d : Comp S (Ctl V)} {c' d' : Comp (S × D) (Ctl V)} (h1 : C.R c c')
    (h2 : C.R d d') : C.R (Dredd.andThen c d) (Dredd.andThen c' d') := by
  refine C.bind h1 fun x => ?_
  cases x
  · exact h2
  all_goals exact C.pure _

theorem loopN {t : Comp S Bool} {st : Comp S Unit} {c : Comp S (Ctl V)}
    {t' : Comp (S × D) Bool} {st' : Comp (S × D) Unit} {c' : Comp (S × D) (Ctl V)}
    (h1 : C.R t t') (h2 : C.R st st') (h3 : C.R c c') (n : Nat) :
    C.R (Dredd.loopN t st c n) (Dredd.loopN t' st' c' n) := by
  induction n with
  | zero => exact C.timeout
  | succ n ih =>
    refine C.bind h1 fun x => C.ite (C.bind h3 fun y => ?_) (C.pure _)
    cases afterBody y
    · exact C.bind h2 fun _ => ih
    · exact C.pure _

theorem doN {t : Comp S Bool} {c : Comp S (Ctl V)}
    {t' : Comp (S × D) Bool} {c' : Comp (S × D) (Ctl V)}
    (h1 : C.R t t') (h3 : C.R c c') (n : Nat) :
    C.R (Dredd.doN t c n) (Dredd.doN t' c' n) := by
  induction n with
  | zero => exact C.timeout
  | succ n ih =>
    refine C.bind h3 fun y => ?_
    cases afterBody y
    · exact C.bind h1 fun x => C.ite ih (C.pure _)
    · exact C.pure _

end Congr

/-- Statements that correspond. -/
structure Code.Rel (C : Congr S D) (a : Code S V) (a' : Code (S × D) V) : Prop where
  labels : a.labels = a'.labels
  run : ∀ e, C.R (a.run e) (a'.run e)

namespace Code.Rel

variable {a c : Code S V} {a' c' : Code (S × D) V}

theorem plain {x : Comp S (Ctl V)} {x' : Comp (S × D) (Ctl V)} (h : C.R x x') :
    Code.Rel C (.plain x) (.plain x') where
  labels := rfl
  run
    | none => h
    | some _ => C.pure _

theorem build {ls ls' : List Nat} {x : Comp S (Ctl V)} {x' : Comp (S × D) (Ctl V)}
    {f : Nat → Comp S (Ctl V)} {f' : Nat → Comp (S × D) (Ctl V)} (hl : ls = ls')
    (h : C.R x x') (hf : ∀ l, C.R (f l) (f' l)) :
    Code.Rel C (.build ls x f) (.build ls' x' f') where
  labels := hl
  run
    | none => h
    | some l => by
      subst hl
      simp only [Code.build]
      split
      · exact hf l
      · exact C.pure _

theorem seq (h1 : Code.Rel C a a') (h2 : Code.Rel C c c') :
    Code.Rel C (a.seq c) (a'.seq c') := by
  refine build (by rw [h1.labels, h2.labels]) (C.andThen (h1.run _) (h2.run _)) fun l => ?_
  rw [h1.labels]
  split
  · exact C.andThen (h1.run _) (h2.run _)
  · exact h2.run _

theorem atStart {f : Comp S (Ctl V) → Comp S (Ctl V)}
    {f' : Comp (S × D) (Ctl V) → Comp (S × D) (Ctl V)}
    (h : Code.Rel C a a') (hf : ∀ x x', C.R x x' → C.R (f x) (f' x')) :
    Code.Rel C (.atStart f a) (.atStart f' a') :=
  build h.labels (hf _ _ (h.run _)) fun _ => h.run _

theorem ite {t : Comp S Bool} {t' : Comp (S × D) Bool} (ht : C.R t t')
    (h1 : Code.Rel C a a') (h2 : Code.Rel C c c') :
    Code.Rel C (.ite t a c) (.ite t' a' c') := by
  refine build (by rw [h1.labels, h2.labels])
    (C.bind ht fun _ => C.ite (h1.run _) (h2.run _)) fun l => ?_
  rw [h1.labels]
  split
  · exact h1.run _
  · exact h2.run _

theorem loop {t : Comp S Bool} {t' : Comp (S × D) Bool} {st : Comp S Unit} {st' : Comp (S × D) Unit}
    (ht : C.R t t') (hs : C.R st st') (h : Code.Rel C a a') (n : Nat) :
    Code.Rel C (.loop t st a n) (.loop t' st' a' n) := by
  refine build h.labels (C.loopN ht hs (h.run _) n) fun l => C.bind (h.run _) fun y => ?_
  cases afterBody y
  · exact C.bind hs fun _ => C.loopN ht hs (h.run _) n
  · exact C.pure _

theorem doWhile {t : Comp S Bool} {t' : Comp (S × D) Bool} (ht : C.R t t')
    (h : Code.Rel C a a') (n : Nat) : Code.Rel C (.doWhile t a n) (.doWhile t' a' n) := by
  refine build h.labels (C.doN ht (h.run _) n) fun l => C.bind (h.run _) fun y => ?_
  cases afterBody y
  · exact C.bind ht fun _ => C.ite (C.doN ht (h.run _) n) (C.pure _)
  · exact C.pure _

theorem switch {t : Comp S (List Nat)} {t' : Comp (S × D) (List Nat)} (ht : C.R t t')
    (h : Code.Rel C a a') : Code.Rel C (.switch t a) (.switch t' a') := by
  refine build h.labels (C.bind ht fun x => ?_) fun l => C.bind (h.run _) fun _ => C.pure _
  rw [h.labels]
  split
  · exact C.pure _
  · exact C.bind (h.run _) fun _ => C.pure _

theorem label (l : Nat) (h : Code.Rel C a a') : Code.Rel C (.label l a) (.label l a') := by
  refine build (by rw [h.labels]) (h.run _) fun l' => ?_
  split
  · exact h.run _
  · exact h.run _

theorem after (h : Code.Rel C a a') {k : Nat → Comp S (Ctl V)} {k' : Nat → Comp (S × D) (Ctl V)}
    (hk : ∀ l, C.R (k l) (k' l)) (x : Ctl V) : C.R (a.after k x) (a'.after k' x) := by
  cases x <;> simp only [Code.after] <;> try exact C.pure _
  rw [h.labels]
  split
  · exact hk _
  · exact C.pure _

theorem settle (h : Code.Rel C a a') (n : Nat) (e : Option Nat) :
    C.R (a.settle n e) (a'.settle n e) := by
  induction n generalizing e with
  | zero => exact C.bind (h.run e) (h.after fun _ => C.timeout)
  | succ n ih => exact C.bind (h.run e) (h.after fun l => ih (some l))

theorem try_ {t : Comp S (Option Nat)} {t' : Comp (S × D) (Option Nat)} {n : Nat}
    {x : Fin n → Code S V} {x' : Fin n → Code (S × D) V} (ht : C.R t t')
    (h : Code.Rel C a a') (hx : ∀ i, Code.Rel C (x i) (x' i)) :
    Code.Rel C (.try_ a t x) (.try_ a' t' x') := by
  have hl : (fun i => (x i).labels) = fun i => (x' i).labels := funext fun i => (hx i).labels
  have hl' : ∀ i, (x i).labels = (x' i).labels := fun i => (hx i).labels
  have hh : C.R
      (Comp.bind t fun y => match y with
        | none => .stop
        | some k => if hk : k < n then (x ⟨k, hk⟩).run none else .ub)
      (Comp.bind t' fun y => match y with
        | none => .stop
        | some k => if hk : k < n then (x' ⟨k, hk⟩).run none else .ub) := by
    refine C.bind ht fun y => ?_
    cases y with
    | none => exact C.stop
    | some k =>
      by_cases hk : k < n
      · simp only [hk, dif_pos]
        exact (hx _).run _
      · simp only [hk, dif_neg, not_false_eq_true]
        exact C.ub
  refine build (by rw [h.labels, hl]) (C.either (h.run _) (fun _ => C.pure _) hh) fun l => ?_
  simp only [h.labels, hl']
  split
  · exact C.either (h.run _) (fun _ => C.pure _) hh
  · split
    · exact (hx _).run _
    · exact C.ub

theorem scope {u : Comp S Bool} {u' : Comp (S × D) Bool} {d : Comp S Unit} {d' : Comp (S × D) Unit}
    (hu : C.R u u') (hd : C.R d d') (h : Code.Rel C a a') (n : Nat) :
    Code.Rel C (.scope a u d n) (.scope a' u' d' n) := by
  have key : ∀ e, C.R
      (Comp.either (a.settle n e) (fun x => Comp.bind d fun _ => .pure x)
        (Comp.bind u fun u => if u then Comp.bind d fun _ => .stop else .stop))
      (Comp.either (a'.settle n e) (fun x => Comp.bind d' fun _ => .pure x)
        (Comp.bind u' fun u => if u then Comp.bind d' fun _ => .stop else .stop)) := fun e =>
    C.either (h.settle n e) (fun _ => C.bind hd fun _ => C.pure _)
      (C.bind hu fun _ => C.ite (C.bind hd fun _ => C.stop) C.stop)
  exact build h.labels (key none) fun l => key (some l)

end Code.Rel

theorem Stm.code_rel {K : Interp S S V} {K' : Interp S (S × D) V} {Q : Sites S V}
    {calls : Nat → List V → Comp S V} {calls' : Nat → List V → Comp (S × D) V}
    (R : Related C K K' Q calls) (hc : ∀ f vs, C.R (calls f vs) (calls' f vs))
    (fuel : Nat) (a : Stm S V) (h : a.All Q) :
    Code.Rel C (a.code K calls fuel) (a.code K' calls' fuel) := by
  have ev : ∀ e : Exp S V, e.All Q → C.R (e.eval K calls) (e.eval K' calls') :=
    fun e he => e.eval_rel R hc he
  have tst : ∀ e : Exp S V, e.All Q →
      C.R (K.machine.test (e.eval K calls)) (K'.machine.test (e.eval K' calls')) := by
    intro e he
    rw [R.machine]
    exact C.test (ev e he)
  induction a with
  | skip => exact .plain (C.pure _)
  | expr e => exact .plain (C.bind (ev e h) fun _ => C.pure _)
  | seq x y ih1 ih2 => exact (ih1 h.1).seq (ih2 h.2)
  | removable id x ih => exact (ih h.2).atStart (R.stmt id h.1)
  | ite e x y ih1 ih2 => exact .ite (tst e h.1) (ih1 h.2.1) (ih2 h.2.2)
  | loop e step x ih =>
    refine .loop (tst e h.1) ?_ (ih h.2.2) fuel
    cases step with
    | none => exact C.pure _
    | some y => exact C.bind (ev y (h.2.1 y rfl)) fun _ => C.pure _
  | doWhile x e ih => exact .doWhile (tst e h.2) (ih h.1) fuel
  | switch e pick body ih => exact .switch (C.bind (ev e h.1) fun _ => C.pure _) (ih h.2)
  | label l x ih => exact .label l (ih h)
  | goto l => exact .plain (C.pure _)
  | brk => exact .plain (C.pure _)
  | cont => exact .plain (C.pure _)
  | ret e =>
    refine .plain ?_
    cases e with
    | none => exact C.pure _
    | some y => exact C.bind (ev y (h y rfl)) fun _ => C.pure _
  | try_ x catches n handler ih1 ih2 =>
    exact .try_ (R.step _) (ih1 h.1) fun i => ih2 i (h.2 i)
  | scope x unwinds d ih =>
    exact .scope (R.step _) (C.bind (ev d h.2) fun _ => C.pure _) (ih h.1) fuel

theorem Stm.exec_rel {K : Interp S S V} {K' : Interp S (S × D) V} {Q : Sites S V}
    {calls : Nat → List V → Comp S V} {calls' : Nat → List V → Comp (S × D) V}
    (R : Related C K K' Q calls) (hc : ∀ f vs, C.R (calls f vs) (calls' f vs))
    (fuel : Nat) (a : Stm S V) (h : a.All Q) :
    C.R (a.exec K calls fuel) (a.exec K' calls' fuel) :=
  (Stm.code_rel R hc fuel a h).settle fuel none

/-- Whole programs. -/
theorem Prog.call_rel {K : Interp S S V} {K' : Interp S (S × D) V} {Q : Sites S V}
    (P : Prog S V) (hP : P.All Q) (R : ∀ n, Related C K K' Q (P.call K n)) (n f : Nat)
    (vs : List V) : C.R (P.call K n f vs) (P.call K' n f vs) := by
  induction n generalizing f vs with
  | zero => exact C.timeout
  | succ n ih =>
    exact C.bind ((R n).step _) fun _ =>
      C.bind (Stm.exec_rel (R n) (fun f vs => ih f vs) n _ (hP f)) fun x => (R n).step _

/-- Whole programs, for `Sim`. -/
theorem Prog.call_sim {Ok : D → Prop} {b : Prop} {K : Interp S S V} {K' : Interp S (S × D) V}
    {Q : Sites S V} (P : Prog S V) (hP : P.All Q)
    (R : ∀ n, Related (Sim.congr S Ok b) K K' Q (P.call K n)) (n f : Nat)
    (vs : List V) : Sim Ok b (P.call K n f vs) (P.call K' n f vs) :=
  Prog.call_rel P hP R n f vs

theorem Sim.raise {Ok : D → Prop} {b : Prop} (c : Comp S α) :
    Sim Ok b c (fun (p : S × D) r => ∃ r0, c p.1 r0 ∧ r = r0.withD p.2) := by
  constructor
  · rintro s d hd r' ⟨r0, h1, rfl⟩
    refine ⟨r0, h1, ?_⟩
    cases r0 <;> simp_all [Res.Rel, Res.withD]
  · rintro _ s d hd r hr
    refine ⟨_, ⟨r, hr, rfl⟩, ?_⟩
    cases r <;> simp_all [Res.Rel, Res.withD]

end Dredd
