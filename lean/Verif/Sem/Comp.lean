/-
Computations of the target languages.

This file does not model code of the repository.  It says what it means to run
a piece of C or C++: from a state, a set of possible results.  Sets are needed
because both languages leave the order of evaluation of many operands open.
-/

namespace Dredd

/-- The result of running a piece of code for a limited number of steps.
* `done a s` – it ended normally with value `a` in state `s`;
* `stop s` – it was left in another way (exception, `exit`, `longjmp`);
* `ub` – undefined behaviour;
* `timeout` – the steps did not suffice. -/
inductive Res (S α : Type) where
  | done (a : α) (s : S)
  | stop (s : S)
  | ub
  | timeout

/-- A computation: which results are possible from which state.  The state
contains everything observable, in particular what has been output so far. -/
def Comp (S α : Type) := S → Res S α → Prop

namespace Comp

variable {S α β γ : Type}

theorem ext {c d : Comp S α} (h : ∀ s r, c s r ↔ d s r) : c = d := by
  funext s r
  exact propext (h s r)

/-- Do nothing. -/
def pure (a : α) : Comp S α := fun s r => r = .done a s

/-- How a result of a first part determines the results of the whole. -/
def next (k : α → Comp S β) : Res S α → Res S β → Prop
  | .done a s, r => k a s r
  | .stop s, r => r = .stop s
  | .ub, r => r = .ub
  | .timeout, r => r = .timeout

/-- One computation and then another. -/
def bind (c : Comp S α) (k : α → Comp S β) : Comp S β :=
  fun s r => ∃ r1, c s r1 ∧ next k r1 r

/-- Either of two computations. -/
def or (c d : Comp S α) : Comp S α := fun s r => c s r ∨ d s r

/-- A deterministic step; `none` is undefined behaviour. -/
def lift (f : S → Option (α × S)) : Comp S α :=
  fun s r => r = match f s with
    | some (a, s') => .done a s'
    | none => .ub

/-- A value that may be undefined. -/
def ofOption : Option α → Comp S α
  | some a => pure a
  | none => fun _ r => r = .ub

/-- Leaving in another way than the normal one. -/
def stop : Comp S α := fun s r => r = .stop s

/-- One computation and then another, or `h` if the first was left in another way. -/
def either (c : Comp S α) (k : α → Comp S β) (h : Comp S β) : Comp S β := fun s r =>
  ∃ r1, c s r1 ∧ match r1 with
    | .done a s1 => k a s1 r
    | .stop s1 => h s1 r
    | .ub => r = .ub
    | .timeout => r = .timeout

/-- Out of steps. -/
def timeout : Comp S α := fun _ r => r = .timeout

/-- Undefined behaviour. -/
def ub : Comp S α := fun _ r => r = .ub

@[simp] theorem pure_bind (a : α) (k : α → Comp S β) : bind (pure a) k = k a :=
  ext fun s r => by simp [bind, pure, next]

@[simp] theorem bind_pure (c : Comp S α) : bind c pure = c := by
  refine ext fun s r => ⟨?_, fun h => ⟨r, h, ?_⟩⟩
  · rintro ⟨r1, h1, h2⟩
    cases r1 <;> simp only [next, pure] at h2 <;> exact h2 ▸ h1
  · cases r <;> simp [next, pure]

theorem bind_assoc (c : Comp S α) (k : α → Comp S β) (m : β → Comp S γ) :
    bind (bind c k) m = bind c fun a => bind (k a) m := by
  refine ext fun s r => ⟨?_, ?_⟩
  · rintro ⟨r2, ⟨r1, h1, h2⟩, h3⟩
    refine ⟨r1, h1, ?_⟩
    cases r1 with
    | done a s1 => exact ⟨r2, h2, h3⟩
    | stop s1 => simp only [next] at h2; subst h2; exact h3
    | ub => simp only [next] at h2; subst h2; exact h3
    | timeout => simp only [next] at h2; subst h2; exact h3
  · rintro ⟨r1, h1, h2⟩
    cases r1 with
    | done a s1 =>
      obtain ⟨r2, h3, h4⟩ := h2
      exact ⟨r2, ⟨_, h1, h3⟩, h4⟩
    | stop s1 => exact ⟨.stop s1, ⟨_, h1, rfl⟩, h2⟩
    | ub => exact ⟨.ub, ⟨_, h1, rfl⟩, h2⟩
    | timeout => exact ⟨.timeout, ⟨_, h1, rfl⟩, h2⟩

theorem or_bind (c d : Comp S α) (k : α → Comp S β) :
    bind (or c d) k = or (bind c k) (bind d k) :=
  ext fun s r => by
    constructor
    · rintro ⟨r1, h1 | h1, h2⟩
      · exact .inl ⟨r1, h1, h2⟩
      · exact .inr ⟨r1, h1, h2⟩
    · rintro (⟨r1, h1, h2⟩ | ⟨r1, h1, h2⟩)
      · exact ⟨r1, .inl h1, h2⟩
      · exact ⟨r1, .inr h1, h2⟩

end Comp

/-- The order in which a construct evaluates two operands. -/
inductive Order
  | unseq | lhsFirst | rhsFirst
deriving DecidableEq, Repr

/-- Evaluate two operands in a given order; with `unseq` the implementation
chooses (C11 6.5 p3, C++11 [intro.execution] p15). -/
def Comp.both {S α β : Type} (o : Order) (c : Comp S α) (d : Comp S β) : Comp S (α × β) :=
  let lr := Comp.bind c fun a => Comp.bind d fun b => Comp.pure (a, b)
  let rl := Comp.bind d fun b => Comp.bind c fun a => Comp.pure (a, b)
  match o with
  | .unseq => .or lr rl
  | .lhsFirst => lr
  | .rhsFirst => rl

end Dredd
