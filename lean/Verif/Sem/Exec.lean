/-
What the generated functions do when they are called.
-/
import Verif.Sem.Machine
import Verif.Model.Apply

namespace Dredd

/-- The part of a prelude that generated functions use
(mutate_ast_consumer.cc 253-473). -/
structure Device (D : Type) where
  /-- `__dredd_some_mutation_enabled` (268-269, 413-415) -/
  some_ : D → Bool
  /-- `__dredd_enabled_mutation` (271-318, 417-452); `none` is undefined
  behaviour or an exception -/
  query : Nat → D → Option (Bool × D)
  /-- `__dredd_record_covered_mutants` (319-352, 453-472) -/
  record : Nat → Nat → D → Option (Unit × D)

variable {S V D : Type}

/-- What a returned expression evaluates to in a function body.  Arguments
passed by value (or reference, or pointer) have been evaluated; arguments
passed as functions are evaluated where they are mentioned. -/
def RetE.eval (M : Machine S V) (arg : Arg → Comp S V) : RetE → Comp S V
  | .bin op => M.evalBin op (arg .arg1) (arg .arg2)
  | .arg a => arg a
  | .un op => M.evalUn op (arg .arg)
  | .ins op => M.evalUn op (arg .arg)
  | .lit l => .pure (M.lit l)

/-- `return e;` in a function with result type `ty`. -/
def RetE.run (M : Machine S V) (ty : Text) (arg : Arg → Comp S V) (e : RetE) : Comp S V :=
  Comp.bind (e.eval M arg) fun v => .lift (M.conv ty v)

/-- A step of the prelude seen as a step on the whole state. -/
def onDevice {α : Type} (f : D → Option (α × D)) : Comp (S × D) α :=
  .lift fun p => (f p.2).map fun r => (r.1, (p.1, r.2))

/-- Runs the lines of a mutator function called with id `id`
(mutation_replace_binary_operator.cc 354-357, 484-513 and the like).  Flowing
off the end of a non-void function is undefined. -/
def runLines (M : Machine S V) (dev : Device D) (ty : Text) (arg : Arg → Comp (S × D) V)
    (id : Nat) : List Line → Comp (S × D) V
  | [] => .ub
  | .quick e :: ls => fun p r =>
    if dev.some_ p.2 then runLines M dev ty arg id ls p r
    else e.run (M.withState D) ty arg p r
  | .guard k e :: ls =>
    Comp.bind (onDevice (dev.query (id + k))) fun b =>
      if b then e.run (M.withState D) ty arg else runLines M dev ty arg id ls
  | .record n :: ls =>
    Comp.bind (onDevice (dev.record id n)) fun _ => runLines M dev ty arg id ls
  | .ret e :: _ => e.run (M.withState D) ty arg

/-- Evaluates the arguments of a call that are not passed as functions and
hands all of them to the body.  Arguments of calls are evaluated in an
unspecified order (C11 6.5.2.2 p10, C++11 [expr.call] p8). -/
def withArgs {α : Type} (m1 m2 : ArgMode) (c1 c2 : Comp S V)
    (body : Comp S V → Comp S V → Comp S α) : Comp S α :=
  match m1, m2 with
  | .thunk, .thunk => body c1 c2
  | .thunk, _ => Comp.bind c2 fun v2 => body c1 (.pure v2)
  | _, .thunk => Comp.bind c1 fun v1 => body (.pure v1) c2
  | _, _ => Comp.bind (Comp.both .unseq c1 c2) fun p => body (.pure p.1) (.pure p.2)

/-- The same for one argument. -/
def withArg {α : Type} (m : ArgMode) (c : Comp S V) (body : Comp S V → Comp S α) : Comp S α :=
  match m with
  | .thunk => body c
  | _ => Comp.bind c fun v => body (.pure v)

/-- The arguments of a function with two parameters. -/
def args2 (c1 c2 : Comp S V) : Arg → Comp S V
  | .arg1 => c1
  | .arg2 => c2
  | .arg => .ub

/-- The argument of a function with one parameter. -/
def args1 (c : Comp S V) : Arg → Comp S V
  | .arg => c
  | _ => .ub

/-- A call `f(lhs, rhs, id)` (mutation_replace_binary_operator.cc 627-712). -/
def MutFn.call2 (f : MutFn) (M : Machine S V) (dev : Device D) (id : Nat)
    (c1 c2 : Comp (S × D) V) : Comp (S × D) V :=
  withArgs (f.mode .arg1) (f.mode .arg2) c1 c2 fun a1 a2 =>
    runLines M dev f.resTy (args2 a1 a2) id f.lines

/-- A call `f(expr, id)` (mutation_replace_unary_operator.cc 401-457,
mutation_replace_expr.cc 538-639). -/
def MutFn.call1 (f : MutFn) (M : Machine S V) (dev : Device D) (id : Nat)
    (c : Comp (S × D) V) : Comp (S × D) V :=
  withArg (f.mode .arg) c fun a => runLines M dev f.resTy (args1 a) id f.lines

/-- The instrumented form of a binary operator at local id `id`: a call of the
generated function, or the three nested calls for C logical operators
(mutation_replace_binary_operator.cc 627-712, 714-897). -/
def BinSite.exec (s : BinSite) (l : Lang) (o : Options) (M : Machine S V) (dev : Device D)
    (id : Nat) (c1 c2 : Comp (S × D) V) : Comp (S × D) V :=
  if !l.cpp && s.op.isLogical then
    let inner :=
      if o.track then (M.withState D).evalBin s.op c1 c2
      else (M.withState D).evalBin s.op ((cLogicalLhsFn s l o).call1 M dev id c1)
        ((cLogicalRhsFn s l o).call1 M dev id c2)
    (cLogicalOuterFn s l o).call1 M dev id inner
  else (s.genFn l o id).call2 M dev id c1 c2

/-- The instrumented form of a unary operator (mutation_replace_unary_operator.cc
401-457). -/
def UnSite.exec (s : UnSite) (l : Lang) (o : Options) (M : Machine S V) (dev : Device D)
    (id : Nat) (c : Comp (S × D) V) : Comp (S × D) V :=
  (s.genFn l o id).call1 M dev id c

/-- The instrumented form of an expression (mutation_replace_expr.cc
538-639). -/
def ExprSite.exec (s : ExprSite) (l : Lang) (o : Options) (M : Machine S V) (dev : Device D)
    (id : Nat) (c : Comp (S × D) V) : Comp (S × D) V :=
  (s.genFn l o id).call1 M dev id c

/-- How a statement ends; `goto_ l` is a jump to label `l`. -/
inductive Ctl (V : Type) where
  | normal | break_ | continue_ | return_ (v : Option V) | goto_ (l : Nat)

/-- The instrumented form of a statement: `if (!__dredd_enabled_mutation(id)) {
... }`, or a call of the recorder followed by the statement
(mutation_remove_stmt.cc 111-154). -/
def stmtExec (o : Options) (dev : Device D) (id : Nat) (c : Comp (S × D) (Ctl V)) :
    Comp (S × D) (Ctl V) :=
  if o.track then Comp.bind (onDevice (dev.record id 1)) fun _ => c
  else Comp.bind (onDevice (dev.query id)) fun en => if !en then c else .pure .normal

end Dredd
