/-
C42: operands are evaluated at most once per instrumented operator, and
short-circuiting is preserved in C++.

Evaluations are counted by a quantity `n` of the state that only the evaluation
of an operand changes.  The theorems about the number of evaluations hold for C
and C++, for every prelude (hence every set of enabled mutants and the tracking
build).
-/
import Verif.Props.C14

namespace Dredd

variable {S V D α β T : Type}

/-- The state in which a computation ended. -/
def Res.final : Res S α → Option S
  | .done _ s => some s
  | .stop s => some s
  | _ => none

/-- Running the computation raises `n` by at most `k`, however it ends. -/
def Comp.Raises (n : T → Nat) (k : Nat) (c : Comp T α) : Prop :=
  ∀ s r s', c s r → r.final = some s' → n s' ≤ n s + k

/-- The operators and conversions of the machine do not change `n`. -/
structure Machine.Keeps (M : Machine S V) (n : S → Nat) : Prop where
  bin : ∀ op a b s v s', M.bin op a b s = some (v, s') → n s' = n s
  un : ∀ op a s v s', M.un op a s = some (v, s') → n s' = n s
  conv : ∀ ty a s v s', M.conv ty a s = some (v, s') → n s' = n s

section

variable {n : T → Nat} {k k1 k2 : Nat}

theorem Comp.Raises.mono {c : Comp T α} (h : c.Raises n k1) (hk : k1 ≤ k2) : c.Raises n k2 :=
  fun s r s' h1 h2 => Nat.le_trans (h s r s' h1 h2) (by omega)

theorem Comp.Raises.pure (a : α) : (Comp.pure a : Comp T α).Raises n 0 := by
  rintro s r s' rfl h
  cases h
  exact Nat.le_refl _

theorem Comp.Raises.ub : (Comp.ub : Comp T α).Raises n 0 := by
  rintro s r s' rfl h
  cases h

theorem Comp.Raises.ofOption (o : Option α) : (Comp.ofOption o : Comp T α).Raises n 0 := by
  cases o
  · exact .ub
  · exact .pure _

theorem Comp.Raises.lift {f : T → Option (α × T)} (h : ∀ s v s', f s = some (v, s') → n s' = n s) :
    (Comp.lift f).Raises n 0 := by
  rintro s r s' h1 h2
  simp only [Comp.lift] at h1
  cases hf : f s with
  | none => rw [hf] at h1; subst h1; cases h2
  | some p => rw [hf] at h1; subst h1; cases h2; exact Nat.le_of_eq (h _ _ _ hf)

theorem Comp.Raises.bind {c : Comp T α} {g : α → Comp T β} (h1 : c.Raises n k1)
    (h2 : ∀ a, (g a).Raises n k2) : (Comp.bind c g).Raises n (k1 + k2) := by
  rintro s r s' ⟨r1, hc, hg⟩ hf
  cases r1 with
  | done a s1 =>
    have e1 := h1 _ _ s1 hc rfl
    have e2 := h2 _ _ _ _ hg hf
    omega
  | stop s1 =>
    have e1 := h1 _ _ s1 hc rfl
    simp only [Comp.next] at hg
    subst hg
    cases hf
    omega
  | ub => simp only [Comp.next] at hg; subst hg; cases hf
  | timeout => simp only [Comp.next] at hg; subst hg; cases hf

theorem Comp.Raises.or {c d : Comp T α} (h1 : c.Raises n k) (h2 : d.Raises n k) :
    (Comp.or c d).Raises n k := by
  rintro s r s' (h | h) hf
  · exact h1 _ _ _ h hf
  · exact h2 _ _ _ h hf

theorem Comp.Raises.both {c : Comp T α} {d : Comp T β} (o : Order) (h1 : c.Raises n k1)
    (h2 : d.Raises n k2) : (Comp.both o c d).Raises n (k1 + k2) := by
  have hl : (Comp.bind c fun a => Comp.bind d fun b => Comp.pure (a, b)).Raises n (k1 + k2) :=
    (h1.bind fun _ => h2.bind fun _ => .pure _).mono (by omega)
  have hr : (Comp.bind d fun b => Comp.bind c fun a => Comp.pure (a, b)).Raises n (k1 + k2) :=
    (h2.bind fun _ => h1.bind fun _ => .pure _).mono (by omega)
  cases o
  · exact hl.or hr
  · exact hl
  · exact hr

theorem Comp.Raises.evalBin {M : Machine T V} (hM : M.Keeps n) (op : BOp) {c1 c2 : Comp T V}
    (h1 : c1.Raises n k1) (h2 : c2.Raises n k2) : (M.evalBin op c1 c2).Raises n (k1 + k2) := by
  unfold Machine.evalBin
  split
  · unfold Machine.logical
    refine (h1.bind fun v => (Comp.Raises.ofOption _).bind (k2 := k2) fun x => ?_).mono
      (by omega)
    split
    · exact (Comp.Raises.pure _).mono (by omega)
    · exact (h2.bind fun v => (Comp.Raises.ofOption _).bind fun x => .pure _).mono (by omega)
  · split
    · exact h1.bind fun _ => h2
    · exact ((h1.both _ h2).bind fun p => .lift (hM.bin _ _ _)).mono (by omega)

theorem Comp.Raises.evalUn {M : Machine T V} (hM : M.Keeps n) (op : UOp) {c : Comp T V}
    (h : c.Raises n k) : (M.evalUn op c).Raises n k := by
  unfold Machine.evalUn
  split
  · exact (h.bind fun v => (Comp.Raises.ofOption _).bind fun x => .pure _).mono (by omega)
  · exact (h.bind fun v => .lift (hM.un _ _)).mono (by omega)

end

section

variable {n : S → Nat} {k k1 k2 : Nat}

theorem Machine.Keeps.withState {M : Machine S V} (hM : M.Keeps n) :
    (M.withState D).Keeps (fun p => n p.1) := by
  have key : ∀ (f : S → Option (V × S)), (∀ s v s', f s = some (v, s') → n s' = n s) →
      ∀ (p : S × D) v p', liftState f p = some (v, p') → n p'.1 = n p.1 := by
    intro f hf p v p' h
    simp only [liftState, Option.map_eq_some_iff] at h
    obtain ⟨⟨v1, s1⟩, h1, h2⟩ := h
    cases h2
    exact hf _ _ _ h1
  exact ⟨fun op a b => key _ (hM.bin op a b), fun op a => key _ (hM.un op a),
    fun ty a => key _ (hM.conv ty a)⟩

theorem raises_onDevice (f : D → Option (α × D)) :
    (onDevice f : Comp (S × D) α).Raises (fun p => n p.1) 0 := by
  refine .lift fun p v p' h => ?_
  simp only [Option.map_eq_some_iff] at h
  obtain ⟨q, -, h2⟩ := h
  cases h2
  rfl

/-- Every expression returned by a function mentions each argument at most
once. -/
theorem raises_run {M : Machine S V} (hM : M.Keeps n) (ty : Text) (e : RetE)
    {a1 a2 : Comp (S × D) V} {a : Comp (S × D) V} {arg : Arg → Comp (S × D) V}
    (harg : arg = args2 a1 a2 ∧ a1.Raises (fun p => n p.1) k1 ∧ a2.Raises (fun p => n p.1) k2 ∨
      arg = args1 a ∧ a.Raises (fun p => n p.1) (k1 + k2)) :
    (e.run (M.withState D) ty arg).Raises (fun p => n p.1) (k1 + k2) := by
  have hM' := hM.withState (D := D)
  have he : (e.eval (M.withState D) arg).Raises (fun p => n p.1) (k1 + k2) := by
    rcases harg with ⟨rfl, h1, h2⟩ | ⟨rfl, h⟩
    · cases e with
      | bin op => exact h1.evalBin hM' op h2
      | arg x => cases x <;> simp only [RetE.eval, args2]
                 · exact Comp.Raises.ub.mono (by omega)
                 · exact h1.mono (by omega)
                 · exact h2.mono (by omega)
      | un op => exact (Comp.Raises.ub.evalUn hM' op).mono (by omega)
      | ins op => exact (Comp.Raises.ub.evalUn hM' op).mono (by omega)
      | lit x => exact (Comp.Raises.pure _).mono (by omega)
    · cases e with
      | bin op => exact (Comp.Raises.ub.evalBin hM' op .ub).mono (by omega)
      | arg x => cases x <;> simp only [RetE.eval, args1]
                 · exact h
                 · exact Comp.Raises.ub.mono (by omega)
                 · exact Comp.Raises.ub.mono (by omega)
      | un op => exact h.evalUn hM' op
      | ins op => exact h.evalUn hM' op
      | lit x => exact (Comp.Raises.pure _).mono (by omega)
  exact (he.bind fun v => .lift (hM'.conv _ _)).mono (by omega)

theorem raises_runLines {M : Machine S V} (dev : Device D) (ty : Text) (id : Nat)
    {arg : Arg → Comp (S × D) V}
    (he : ∀ e : RetE, (e.run (M.withState D) ty arg).Raises (fun p => n p.1) k)
    (ls : List Line) : (runLines M dev ty arg id ls).Raises (fun p => n p.1) k := by
  induction ls with
  | nil => exact Comp.Raises.ub.mono (by omega)
  | cons x ls ih =>
    cases x with
    | quick e =>
      intro p r s' h hf
      simp only [runLines] at h
      split at h
      · exact ih _ _ _ h hf
      · exact he _ _ _ _ h hf
    | guard j e =>
      refine ((raises_onDevice _).bind (k2 := k) fun x => ?_).mono (by omega)
      split
      · exact he _
      · exact ih
    | record j =>
      exact ((raises_onDevice _).bind (k2 := k) fun x => ih).mono (by omega)
    | ret e => exact he _

theorem raises_call2 {M : Machine S V} (hM : M.Keeps n) (f : MutFn) (dev : Device D) (id : Nat)
    {c1 c2 : Comp (S × D) V} (h1 : c1.Raises (fun p => n p.1) k1)
    (h2 : c2.Raises (fun p => n p.1) k2) :
    (f.call2 M dev id c1 c2).Raises (fun p => n p.1) (k1 + k2) := by
  unfold MutFn.call2
  have key : ∀ {j1 j2} {a1 a2 : Comp (S × D) V}, a1.Raises (fun p => n p.1) j1 →
      a2.Raises (fun p => n p.1) j2 → (runLines M dev f.resTy (args2 a1 a2) id f.lines).Raises
        (fun p => n p.1) (j1 + j2) :=
    fun g1 g2 => raises_runLines dev _ _ (fun e => raises_run (a := .ub) hM _ e
      (.inl ⟨rfl, g1, g2⟩)) _
  have byVal := (h1.both .unseq h2).bind (k2 := 0) fun p => key (Comp.Raises.pure p.1)
    (Comp.Raises.pure p.2)
  have second := h2.bind (k2 := k1) fun v => (key h1 (Comp.Raises.pure v)).mono (by omega)
  have first := h1.bind (k2 := k2) fun v => (key (Comp.Raises.pure v) h2).mono (by omega)
  unfold withArgs
  split
  · exact key h1 h2
  · exact second.mono (by omega)
  · exact first
  · exact byVal

theorem raises_call1 {M : Machine S V} (hM : M.Keeps n) (f : MutFn) (dev : Device D) (id : Nat)
    {c : Comp (S × D) V} (h : c.Raises (fun p => n p.1) k) :
    (f.call1 M dev id c).Raises (fun p => n p.1) k := by
  unfold MutFn.call1
  have key : ∀ {j} {a : Comp (S × D) V}, a.Raises (fun p => n p.1) j →
      (runLines M dev f.resTy (args1 a) id f.lines).Raises (fun p => n p.1) j :=
    fun g => raises_runLines dev _ _ (fun e => raises_run (k1 := _) (k2 := 0) (a1 := .ub) (a2 := .ub)
      hM _ e (.inr ⟨rfl, g⟩)) _
  unfold withArg
  split
  · exact key h
  · exact (h.bind fun v => key (Comp.Raises.pure v)).mono (by omega)

/-- Binary operators: a quantity that an evaluation of the left operand raises
by at most `k1` and one of the right operand by at most `k2` is raised by at most
`k1 + k2`. -/
theorem C42_binary {M : Machine S V} (hM : M.Keeps n) (s : BinSite) (l : Lang) (o : Options)
    (dev : Device D) (id : Nat) {c1 c2 : Comp (S × D) V} (h1 : c1.Raises (fun p => n p.1) k1)
    (h2 : c2.Raises (fun p => n p.1) k2) :
    (s.exec l o M dev id c1 c2).Raises (fun p => n p.1) (k1 + k2) := by
  have hM' := hM.withState (D := D)
  unfold BinSite.exec
  split
  · dsimp only
    refine raises_call1 hM _ dev id ?_
    split
    · exact h1.evalBin hM' _ h2
    · exact (raises_call1 hM _ dev id h1).evalBin hM' _ (raises_call1 hM _ dev id h2)
  · exact raises_call2 hM _ dev id h1 h2

/-- Unary operators. -/
theorem C42_unary {M : Machine S V} (hM : M.Keeps n) (s : UnSite) (l : Lang) (o : Options)
    (dev : Device D) (id : Nat) {c : Comp (S × D) V} (h : c.Raises (fun p => n p.1) k) :
    (s.exec l o M dev id c).Raises (fun p => n p.1) k :=
  raises_call1 hM _ dev id h

/-- Expressions. -/
theorem C42_expr {M : Machine S V} (hM : M.Keeps n) (s : ExprSite) (l : Lang) (o : Options)
    (dev : Device D) (id : Nat) {c : Comp (S × D) V} (h : c.Raises (fun p => n p.1) k) :
    (s.exec l o M dev id c).Raises (fun p => n p.1) k :=
  raises_call1 hM _ dev id h

end

section

variable {Ok : D → Prop} {b : Prop}

/-- A program state with two counters of evaluations. -/
abbrev Counted (S : Type) := S × (Nat × Nat)

/-- Count an evaluation of the left operand. -/
def tickL (c : Comp (Counted S × D) V) : Comp (Counted S × D) V :=
  Comp.bind (.lift fun p => some ((), ((p.1.1, (p.1.2.1 + 1, p.1.2.2)), p.2))) fun _ => c

/-- Count an evaluation of the right operand. -/
def tickR (c : Comp (Counted S × D) V) : Comp (Counted S × D) V :=
  Comp.bind (.lift fun p => some ((), ((p.1.1, (p.1.2.1, p.1.2.2 + 1)), p.2))) fun _ => c

/-- In particular, each operand of a binary operator is evaluated at most
once, for every behaviour of the operands (which do not know of the
counters). -/
theorem C42_at_most_once (M : Machine S V) (s : BinSite) (l : Lang) (o : Options) (dev : Device D)
    (id : Nat) (c1 c2 : Comp (Counted S × D) V)
    (h1 : ∀ p r p', c1 p r → r.final = some p' → p'.1.2 = p.1.2)
    (h2 : ∀ p r p', c2 p r → r.final = some p' → p'.1.2 = p.1.2)
    (st : S) (d : D) (r) (p')
    (hr : s.exec l o (M.withState (Nat × Nat)) dev id (tickL c1) (tickR c2) ((st, (0, 0)), d) r)
    (hf : r.final = some p') : p'.1.2.1 ≤ 1 ∧ p'.1.2.2 ≤ 1 := by
  have key : ∀ (π : Nat × Nat → Nat), (M.withState (Nat × Nat)).Keeps (fun q => π q.2) := by
    intro π
    have k : ∀ (f : S → Option (V × S)) (p : Counted S) v p', liftState f p = some (v, p') →
        π p'.2 = π p.2 := by
      intro f p v p' h
      simp only [liftState, Option.map_eq_some_iff] at h
      obtain ⟨q, -, hq⟩ := h
      cases hq
      rfl
    exact ⟨fun _ _ _ => k _, fun _ _ => k _, fun _ _ => k _⟩
  have tick : ∀ (π : Nat × Nat → Nat) (k : Nat) (g : Nat × Nat → Nat × Nat)
      (c : Comp (Counted S × D) V), (∀ x, π (g x) = π x + k) →
      (∀ p r p', c p r → r.final = some p' → p'.1.2 = p.1.2) →
      (Comp.bind (.lift fun p => some ((), ((p.1.1, g p.1.2), p.2))) fun _ => c).Raises
        (fun p => π p.1.2) k := by
    rintro π k g c hg hc p r p' ⟨r1, e1, e2⟩ hf
    subst e1
    have := hc _ _ _ e2 hf
    simp only [this, hg]
    exact Nat.le_refl _
  constructor
  · have := C42_binary (n := fun q : Counted S => q.2.1) (k1 := 1) (k2 := 0) (key (·.1)) s l o dev id
      (tick (·.1) 1 (fun x => (x.1 + 1, x.2)) c1 (fun _ => rfl) h1)
      (tick (·.1) 0 (fun x => (x.1, x.2 + 1)) c2 (fun _ => rfl) h2) _ _ _ hr hf
    simpa using this
  · have := C42_binary (n := fun q : Counted S => q.2.2) (k1 := 0) (k2 := 1) (key (·.2)) s l o dev id
      (tick (·.2) 0 (fun x => (x.1 + 1, x.2)) c1 (fun _ => rfl) h1)
      (tick (·.2) 1 (fun x => (x.1, x.2 + 1)) c2 (fun _ => rfl) h2) _ _ _ hr hf
    simpa using this

/-- In C++ only operands without side effects are passed by value. -/
theorem C42_by_value (s : BinSite) (u : UnSite) (e : ExprSite) (l : Lang) (o : Options) (base : Nat)
    (hcpp : l.cpp = true) :
    ((s.genFn l o base).mode .arg1 ≠ .thunk → s.lhs.sideEffects = false) ∧
    ((s.genFn l o base).mode .arg2 ≠ .thunk →
      s.rhs.sideEffects = false ∧ s.op.isLogical = false) ∧
    ((u.genFn l o base).mode .arg ≠ .thunk → u.self.sideEffects = false) ∧
    ((e.genFn l o base).mode .arg ≠ .thunk → e.self.sideEffects = false) := by
  have e12 : (Arg.arg1 == Arg.arg2) = false := rfl
  simp only [BinSite.genFn, UnSite.genFn, ExprSite.genFn, MutFn.mode, List.find?, e12,
    BinSite.mode1, BinSite.mode2, UnSite.mode, ExprSite.mode, hcpp]
  refine ⟨?_, ?_, ?_, ?_⟩
  · cases s.lhs.sideEffects <;> simp
  · cases s.rhs.sideEffects <;> cases s.op.isLogical <;> simp
  · cases u.self.sideEffects <;> simp
  · cases e.self.sideEffects <;> simp

/-- Short-circuiting in C++: whatever is enabled, after the left operand (which
is evaluated first if it has no side effects, and where needed otherwise) the
instrumented logical operator evaluates the right operand exactly when the
selected action, or the original operator, does. -/
theorem C42_logical_cpp (s : BinSite) (l : Lang) (o : Options) (M : Machine S V) (dev : Device D)
    (E : Nat → Bool) (first id n : Nat) (hdev : dev.Faithful Ok (fun i => E (first + i)) n)
    (ho : o.track = false) (hcpp : l.cpp = true) (hlog : s.op.isLogical = true) (hf : first ≤ id)
    (hn : (s.apply l o first id).nextId ≤ first + n)
    {p : PBOp} {i1 i2 i3 : RangeInfo} {insts : List (Nat × BAct)}
    (hg : (s.apply l o first id).group = .replaceBin p i1 i2 i3 insts)
    {c1 c2 : Comp S V} {c1' c2' : Comp (S × D) V}
    (h1 : Sim Ok b c1 c1') (h2 : Sim Ok b c2 c2') (x : BChange)
    (hx : (∃ a, Smallest E insts a ∧ x = a.change) ∨ NoneEnabled E insts ∧ x = .op s.op) :
    Sim Ok b
      (if s.lhs.sideEffects then (x.eval M c1 c2).to M (s.resTyText l)
       else Comp.bind c1 fun v => (x.eval M (.pure v) c2).to M (s.resTyText l))
      (s.exec l o M dev (id - first) c1' c2') := by
  have h := C15_binary s l o M dev E first id n hdev ho (by simp [hcpp]) hf hn hg h1 h2
  simp only [hcpp, hlog, Bool.true_and, Bool.true_or] at h
  have e : ∀ k : Comp S V → Comp S V → Comp S V, prepare2 s.lhs.sideEffects true c1 c2 k
      = if s.lhs.sideEffects then k c1 c2 else Comp.bind c1 fun v => k (.pure v) c2 := by
    intro k
    cases s.lhs.sideEffects <;> rfl
  rcases hx with ⟨a, ha, rfl⟩ | ⟨hE, rfl⟩
  · have := h.1 a ha
    rwa [e] at this
  · have := h.2 hE
    rwa [e] at this

end

/-- The hypotheses of `C42_at_most_once` can be met, and the bound is reached:
`x + x` evaluates both operands once. -/
example : ∃ p', (Sample.bin .add Sample.intVal Sample.intVal).exec Sample.cpp Sample.opts
      ((Sample.machine .cpp17).withState (Nat × Nat)) (Sample.unset 20) 0
      (tickL (.lift (liftState (liftState Sample.read))))
      (tickR (.lift (liftState (liftState Sample.read)))) ((3, (0, 0)), Thread.start 20)
      (.done 6 p') ∧ p'.1.2 = (1, 1) := by
  let f (q : Counted Int) : Option (Unit × Counted Int) := some ((), (q.1, (q.2.1 + 1, q.2.2)))
  let g (q : Counted Int) : Option (Unit × Counted Int) := some ((), (q.1, (q.2.1, q.2.2 + 1)))
  have h := C13_binary_exact (b := True) (Sample.bin .add Sample.intVal Sample.intVal) Sample.cpp
    Sample.opts ((Sample.machine .cpp17).withState (Nat × Nat)) (Sample.unset 20) (inList []) 0 0 20
    (Sample.unset_faithful 20) rfl rfl (by decide) (Nat.le_refl 0) (by decide) rfl
    (fun i a _ => rfl) ⟨fun _ _ _ _ _ _ _ _ _ => rfl, fun h => by cases h⟩
    (Sim.bind (.lift f) fun _ => .lift (liftState Sample.read))
    (Sim.bind (.lift g) fun _ => .lift (liftState Sample.read))
  obtain ⟨r', h1, h2⟩ := h.bwd trivial (3, (0, 0)) (Thread.start 20) (.inl rfl)
    (.done 6 (3, (1, 1)))
    ⟨.done (3, 3) (3, (1, 1)), .inl ⟨.done 3 (3, (1, 0)), ⟨.done () (3, (1, 0)), rfl, rfl⟩,
      .done 3 (3, (1, 1)), ⟨.done () (3, (1, 1)), rfl, rfl⟩, rfl⟩, rfl⟩
  cases r' with
  | done v p =>
    obtain ⟨rfl, e, -⟩ := h2
    exact ⟨p, h1, by rw [← e]⟩
  | _ => exact h2.elim

end Dredd
