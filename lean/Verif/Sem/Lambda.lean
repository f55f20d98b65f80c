/-
Operands that are passed to generated functions in lambdas
(mutation_replace_binary_operator.cc 674-712, mutation_replace_unary_operator.cc 422-457,
mutation_replace_expr.cc 555-575): `[&]() -> T { return static_cast<T>(e); }`.

A lambda is a function of its own.  Two things may differ from evaluating `e` in its place:
* the temporary objects of `e` are destroyed at the end of the `return` statement of the lambda, and not
  at the end of the full-expression that `e` was part of (C++11 [class.temporary] p3);
* a `return` statement inside `e` (in a statement expression of GNU C++) leaves the lambda.

`Sem/Interp.lean` leaves this out.  Here it is added on top.
-/
import Verif.Sem.Interp
import Verif.Spec.Mutant

namespace Dredd

variable {S T V D : Type}

/-- What a lambda does apart from evaluating its operand. -/
structure Lambda (S V : Type) where
  /-- the beginning of the lambda -/
  enter : S → Option (Unit × S)
  /-- the operand has been evaluated normally -/
  leave : S → Option (Unit × S)
  /-- the operand was left in another way; if by a `return` statement inside, its value -/
  caught : S → Option (Option V × S)

/-- Calling a lambda with operand `c`. -/
def Interp.around (K : Interp S T V) (L : Lambda S V) (c : Comp T V) : Comp T V :=
  Comp.bind (K.step L.enter) fun _ =>
    Comp.either c (fun v => Comp.bind (K.step L.leave) fun _ => .pure v)
      (Comp.bind (K.step L.caught) fun x => match x with
        | some v => .pure v
        | none => .stop)

/-- An operand as the generated function sees it. -/
def Interp.passed (K : Interp S T V) (L : Lambda S V) (m : ArgMode) (c : Comp T V) : Comp T V :=
  match m with
  | .thunk => K.around L c
  | _ => c

/-- A program in which operands are passed in lambdas. -/
def Interp.withLambdas (K : Interp S T V) (l : Lang) (L : Lambda S V) : Interp S T V :=
  { K with
    bin := fun s id c1 c2 =>
      K.bin s id (K.passed L (s.mode1 l) c1) (K.passed L (s.mode2 l) c2)
    un := fun s id c => K.un s id (K.passed L (s.mode l) c)
    expr := fun s id c => K.expr s id (K.passed L (s.mode l) c)
    load := fun s id c => K.load s id (K.passed L (s.mode l) c) }

/-! ### Temporary objects -/

/-- The temporary objects that are alive, in the order of their creation beginning with the last; one
list for every full-expression that is being evaluated, beginning with the innermost. -/
abbrev Stack := List (List Nat)

/-- Temporary objects and their destructors. -/
structure Temps (B : Type) where
  /-- destroys an object; `none` is undefined behaviour -/
  destroy : Nat → B → Option B
  /-- what has happened is an exception (and not the end of the program) -/
  unwinds : B → Bool

variable {B : Type}

/-- Destroys objects. -/
def Temps.destroyAll (Z : Temps B) : List Nat → B → Option B
  | [], b => some b
  | t :: ts, b => (Z.destroy t b).bind (Z.destroyAll ts)

/-- The beginning of a full-expression. -/
def Temps.begin_ (p : B × Stack) : Option (Unit × (B × Stack)) := some ((), (p.1, [] :: p.2))

/-- The end of a full-expression. -/
def Temps.end_ (Z : Temps B) (p : B × Stack) : Option (Unit × (B × Stack)) :=
  match p.2 with
  | [] => none
  | ts :: rest => (Z.destroyAll ts p.1).map fun b => ((), (b, rest))

/-- The end of a full-expression that was left in another way. -/
def Temps.abandon (Z : Temps B) (p : B × Stack) : Option (Unit × (B × Stack)) :=
  if Z.unwinds p.1 then Z.end_ p else some ((), (p.1, p.2.tail))

/-- Creates a temporary object in the innermost full-expression. -/
def Temps.create (t : Nat) (p : B × Stack) : Option (Unit × (B × Stack)) :=
  match p.2 with
  | [] => none
  | ts :: rest => some ((), (p.1, (t :: ts) :: rest))

/-- The lambdas of C++: their `return` statement is a full-expression. -/
def Temps.lambda (Z : Temps B) : Lambda (B × Stack) V where
  enter := Temps.begin_
  leave := Z.end_
  caught p := (Z.abandon p).map fun r => (none, r.2)

/-- A computation that does not concern the temporary objects around it: it works on the other part of
the state, whatever temporary objects there are. -/
def Comp.Uniform {α : Type} (c : Comp (B × D) α) : Prop :=
  ∃ c0 : Comp B α, ∀ p r, c p r ↔ ∃ r0, c0 p.1 r0 ∧ r = r0.withD p.2

/-- An expression that creates no temporary objects, apart from those of functions that it calls. -/
def Exp.NoTemps : Exp (B × D) V → Prop
  | .atom c => c.Uniform
  | .step f a => (∀ v, (f v).Uniform) ∧ a.NoTemps
  | .bin _ a b => a.NoTemps ∧ b.NoTemps
  | .binAt _ _ a b => a.NoTemps ∧ b.NoTemps
  | .un _ a => a.NoTemps
  | .unAt _ _ a => a.NoTemps
  | .exprAt _ _ a => a.NoTemps
  | .load _ a => a.NoTemps
  | .loadAt _ _ a => a.NoTemps
  | .cond a b c => a.NoTemps ∧ b.NoTemps ∧ c.NoTemps
  | .call _ _ args => ∀ i, (args i).NoTemps

/-- A statement whose expressions create no temporary objects. -/
def Stm.NoTemps : Stm (B × D) V → Prop
  | .skip => True
  | .expr e => e.NoTemps
  | .seq a b => a.NoTemps ∧ b.NoTemps
  | .removable _ a => a.NoTemps
  | .ite e a b => e.NoTemps ∧ a.NoTemps ∧ b.NoTemps
  | .loop e step a => e.NoTemps ∧ (∀ x, step = some x → x.NoTemps) ∧ a.NoTemps
  | .doWhile a e => a.NoTemps ∧ e.NoTemps
  | .switch e _ body => e.NoTemps ∧ body.NoTemps
  | .label _ a => a.NoTemps
  | .goto _ => True
  | .brk => True
  | .cont => True
  | .ret e => ∀ x, e = some x → x.NoTemps
  | .try_ a catches _ handler =>
    a.NoTemps ∧ (∃ g, catches = liftState g) ∧ ∀ i, (handler i).NoTemps
  | .scope a unwinds d => a.NoTemps ∧ (∃ g : B → Bool, unwinds = fun p => g p.1) ∧ d.NoTemps

/-- A function whose expressions create no temporary objects. -/
def Prog.NoTemps (P : Prog (B × D) V) (f : Nat) : Prop :=
  (P.body f).NoTemps ∧ (∀ vs, ∃ g, P.enter f vs = liftState g) ∧ ∀ v, ∃ g, P.leave f v = liftState g

end Dredd
