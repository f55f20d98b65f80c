/-
Relations between computations of a program and computations of the instrumented
program that are respected by everything the languages offer to put computations
together.  Two such relations are used: `Sim` (`Sem/Sim.lean`) and `Cov`
(`Sem/Cov.lean`).
-/
import Verif.Sem.Exec

namespace Dredd

variable {S D α β V : Type}

/-- A relation that is respected by all ways to put computations together. -/
structure Congr (S D : Type) where
  R : ∀ {α : Type}, Comp S α → Comp (S × D) α → Prop
  pure : ∀ {α : Type} (a : α), R (.pure a) (.pure a)
  ub : ∀ {α : Type}, R (.ub : Comp S α) .ub
  timeout : ∀ {α : Type}, R (.timeout : Comp S α) .timeout
  stop : ∀ {α : Type}, R (.stop : Comp S α) .stop
  bind : ∀ {α β : Type} {c : Comp S α} {c' : Comp (S × D) α} {k : α → Comp S β}
    {k' : α → Comp (S × D) β}, R c c' → (∀ a, R (k a) (k' a)) → R (.bind c k) (.bind c' k')
  either : ∀ {α β : Type} {c : Comp S α} {c' : Comp (S × D) α} {k : α → Comp S β}
    {k' : α → Comp (S × D) β} {h : Comp S β} {h' : Comp (S × D) β},
    R c c' → (∀ a, R (k a) (k' a)) → R h h' → R (.either c k h) (.either c' k' h')
  union : ∀ {α ι : Type} (p : ι → Prop) {c : ι → Comp S α} {c' : ι → Comp (S × D) α},
    (∀ i, R (c i) (c' i)) →
    R (fun s r => ∃ i, p i ∧ c i s r) fun s r => ∃ i, p i ∧ c' i s r
  lift : ∀ {α : Type} (f : S → Option (α × S)), R (.lift f) (.lift (liftState f))

namespace Congr

variable (C : Congr S D)

theorem ofOption (o : Option α) : C.R (.ofOption o) (.ofOption o) := by
  cases o
  · exact C.ub
  · exact C.pure _

theorem or {c d : Comp S α} {c' d' : Comp (S × D) α} (h : C.R c c') (k : C.R d d') :
    C.R (.or c d) (.or c' d') := by
  have e : ∀ {T : Type} (c d : Comp T α), Comp.or c d
      = fun s r => ∃ i : Bool, True ∧ (if i then c else d) s r := by
    intro T c d
    refine Comp.ext fun s r => ⟨?_, ?_⟩
    · rintro (h | h)
      · exact ⟨true, trivial, h⟩
      · exact ⟨false, trivial, h⟩
    · rintro ⟨(_ | _), -, h⟩
      · exact .inr h
      · exact .inl h
  rw [e, e]
  refine C.union _ fun i => ?_
  cases i
  · exact k
  · exact h

theorem both (o : Order) {c : Comp S α} {d : Comp S β} {c' : Comp (S × D) α}
    {d' : Comp (S × D) β} (h : C.R c c') (k : C.R d d') :
    C.R (.both o c d) (.both o c' d') := by
  cases o
  · exact C.or (C.bind h fun _ => C.bind k fun _ => C.pure _)
      (C.bind k fun _ => C.bind h fun _ => C.pure _)
  · exact C.bind h fun _ => C.bind k fun _ => C.pure _
  · exact C.bind k fun _ => C.bind h fun _ => C.pure _

theorem logical {M : Machine S V} (op : BOp) {c1 c2 : Comp S V} {c1' c2' : Comp (S × D) V}
    (h1 : C.R c1 c1') (h2 : C.R c2 c2') :
    C.R (M.logical op c1 c2) ((M.withState D).logical op c1' c2') := by
  refine C.bind h1 fun v1 => C.bind (C.ofOption (M.truth v1)) fun b1 => ?_
  by_cases h : (b1 == (op == .lor)) = true
  · simp only [h, if_true]
    exact C.pure _
  · simp only [h]
    exact C.bind h2 fun v2 => C.bind (C.ofOption (M.truth v2)) fun b2 => C.pure _

theorem evalBin {M : Machine S V} (op : BOp) {c1 c2 : Comp S V} {c1' c2' : Comp (S × D) V}
    (h1 : C.R c1 c1') (h2 : C.R c2 c2') :
    C.R (M.evalBin op c1 c2) ((M.withState D).evalBin op c1' c2') := by
  unfold Machine.evalBin
  split
  · exact C.logical op h1 h2
  split
  · exact C.bind h1 fun _ => h2
  · exact C.bind (C.both _ h1 h2) fun p => C.lift _

theorem evalUn {M : Machine S V} (op : UOp) {c : Comp S V} {c' : Comp (S × D) V}
    (h : C.R c c') : C.R (M.evalUn op c) ((M.withState D).evalUn op c') := by
  unfold Machine.evalUn
  split
  · exact C.bind h fun v => C.bind (C.ofOption (M.truth v)) fun _ => C.pure _
  · exact C.bind h fun v => C.lift _

theorem retEval {M : Machine S V} (e : RetE) {a : Arg → Comp S V}
    {a' : Arg → Comp (S × D) V} (h : ∀ x, C.R (a x) (a' x)) :
    C.R (e.eval M a) (e.eval (M.withState D) a') := by
  cases e with
  | bin op => exact C.evalBin op (h _) (h _)
  | arg x => exact h x
  | un op => exact C.evalUn op (h _)
  | ins op => exact C.evalUn op (h _)
  | lit l => exact C.pure _

theorem retRun {M : Machine S V} (ty : Text) (e : RetE) {a : Arg → Comp S V}
    {a' : Arg → Comp (S × D) V} (h : ∀ x, C.R (a x) (a' x)) :
    C.R (e.run M ty a) (e.run (M.withState D) ty a') :=
  C.bind (C.retEval e h) fun _ => C.lift _

theorem withArgs (m1 m2 : ArgMode) {c1 c2 : Comp S V} {c1' c2' : Comp (S × D) V}
    {body : Comp S V → Comp S V → Comp S α}
    {body' : Comp (S × D) V → Comp (S × D) V → Comp (S × D) α}
    (h1 : C.R c1 c1') (h2 : C.R c2 c2')
    (hb : ∀ x y x' y', C.R x x' → C.R y y' → C.R (body x y) (body' x' y')) :
    C.R (withArgs m1 m2 c1 c2 body) (Dredd.withArgs m1 m2 c1' c2' body') := by
  unfold Dredd.withArgs
  split
  · exact hb _ _ _ _ h1 h2
  · exact C.bind h2 fun _ => hb _ _ _ _ h1 (C.pure _)
  · exact C.bind h1 fun _ => hb _ _ _ _ (C.pure _) h2
  · exact C.bind (C.both _ h1 h2) fun _ => hb _ _ _ _ (C.pure _) (C.pure _)

theorem withArg (m : ArgMode) {c : Comp S V} {c' : Comp (S × D) V}
    {body : Comp S V → Comp S α} {body' : Comp (S × D) V → Comp (S × D) α}
    (h : C.R c c') (hb : ∀ x x', C.R x x' → C.R (body x) (body' x')) :
    C.R (withArg m c body) (Dredd.withArg m c' body') := by
  unfold Dredd.withArg
  split
  · exact hb _ _ h
  · exact C.bind h fun _ => hb _ _ (C.pure _)

theorem args2 {c1 c2 : Comp S V} {c1' c2' : Comp (S × D) V}
    (h1 : C.R c1 c1') (h2 : C.R c2 c2') (x : Arg) :
    C.R (args2 c1 c2 x) (Dredd.args2 c1' c2' x) := by
  cases x
  · exact C.ub
  · exact h1
  · exact h2

theorem args1 {c : Comp S V} {c' : Comp (S × D) V} (h : C.R c c') (x : Arg) :
    C.R (args1 c x) (Dredd.args1 c' x) := by
  cases x
  · exact h
  · exact C.ub
  · exact C.ub

end Congr

end Dredd
