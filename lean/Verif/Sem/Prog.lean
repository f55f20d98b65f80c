/-
Whole programs of the target languages.

A program is a set of functions with bodies built from the statements and
expressions of C and C++ that the tool looks into.  Where the tool instruments an
operator, an expression or a statement, the node carries the instrumentation
point and its first id (mutate_visitor.cc 585-660, 662-720: an expression node can
carry an operator mutation and, around it, an expression mutation).  What an
instrumentation point does is a parameter, so that the same evaluator describes
the original program, the instrumented program and the intended mutant.

Jumps into statements (`goto`, and `case` and `default` labels, which may stand
inside nested statements of a `switch` body) are modelled by giving every
statement its labels, at which its execution can begin.

Destructors of temporary objects and statements inside expressions: see
`Lambda.lean` (lambda expressions are functions of the program).
-/
import Verif.Sem.Sim
import Verif.Spec.Action

namespace Dredd

/-- Expressions.  Everything the tool does not instrument, such as variables,
literals, member accesses and casts, is an `atom` or a `step`. -/
inductive Exp (S V : Type) where
  /-- any computation without instrumented parts -/
  | atom (c : Comp S V)
  /-- a cast, member access, dereference, call of a library function, `throw`, ...
  of an expression -/
  | step (f : V → Comp S V) (a : Exp S V)
  /-- a binary operator -/
  | bin (op : BOp) (a b : Exp S V)
  /-- an instrumented binary operator -/
  | binAt (s : BinSite) (id : Nat) (a b : Exp S V)
  /-- a unary operator -/
  | un (op : UOp) (a : Exp S V)
  /-- an instrumented unary operator -/
  | unAt (s : UnSite) (id : Nat) (a : Exp S V)
  /-- an instrumented expression that is not an l-value -/
  | exprAt (s : ExprSite) (id : Nat) (a : Exp S V)
  /-- reading an l-value of the given type -/
  | load (ty : Text) (a : Exp S V)
  /-- reading an instrumented l-value: the result of the generated function takes
  the place of the value read (mutation_replace_expr.cc 695-716) -/
  | loadAt (s : ExprSite) (id : Nat) (a : Exp S V)
  /-- `a ? b : c` -/
  | cond (a b c : Exp S V)
  /-- a call of a function of the program -/
  | call (f : Nat) (n : Nat) (args : Fin n → Exp S V)

/-- Statements. -/
inductive Stm (S V : Type) where
  | skip
  | expr (e : Exp S V)
  | seq (a b : Stm S V)
  /-- an instrumented statement of a compound statement -/
  | removable (id : Nat) (a : Stm S V)
  | ite (e : Exp S V) (a b : Stm S V)
  /-- `for (; e; step) a`; a `while` loop has no step -/
  | loop (e : Exp S V) (step : Option (Exp S V)) (a : Stm S V)
  /-- `do a while (e)` -/
  | doWhile (a : Stm S V) (e : Exp S V)
  /-- `switch (e)`; the execution of the body starts at the first of the labels that
  `pick` gives and the body has (that of the case, or that of `default`) -/
  | switch (e : Exp S V) (pick : V → List Nat) (body : Stm S V)
  /-- a statement with a label (of any kind); labels are numbered, and no two of a
  function have the same number -/
  | label (l : Nat) (a : Stm S V)
  | goto (l : Nat)
  | brk
  | cont
  | ret (e : Option (Exp S V))
  /-- `try a catch ...` with `n` handlers; `catches` says which one, if any, handles
  what has happened, and may change the state (as handling does) -/
  | try_ (a : Stm S V) (catches : S → Option (Option Nat × S)) (n : Nat) (handler : Fin n → Stm S V)
  /-- the part of a block where an object lives: when it is left, `d` destroys the
  object, also if an exception leaves it, which `unwinds` says -/
  | scope (a : Stm S V) (unwinds : S → Bool) (d : Exp S V)

/-- A program: the bodies of the functions; how parameters come into being and
go away. -/
structure Prog (S V : Type) where
  body : Nat → Stm S V
  enter : Nat → List V → S → Option (Unit × S)
  leave : Nat → Option V → S → Option (V × S)

/-- What instrumented points do, and how the parts that are not instrumented
run, on states of type `T`. -/
structure Interp (S T V : Type) where
  machine : Machine T V
  raise : Comp S V → Comp T V
  step {α : Type} : (S → Option (α × S)) → Comp T α
  bin : BinSite → Nat → Comp T V → Comp T V → Comp T V
  un : UnSite → Nat → Comp T V → Comp T V
  expr : ExprSite → Nat → Comp T V → Comp T V
  load : ExprSite → Nat → Comp T V → Comp T V
  stmt : Nat → Comp T (Ctl V) → Comp T (Ctl V)

variable {S T V : Type}

/-- Evaluates some of `n` arguments in the given order. -/
def runArgs {n : Nat} (c : Fin n → Comp T V) : List (Fin n) → List (Fin n × V) →
    Comp T (List (Fin n × V))
  | [], vs => .pure vs
  | i :: is, vs => Comp.bind (c i) fun v => runArgs c is ((i, v) :: vs)

/-- Evaluates all arguments of a call, in any order. -/
def allArgs {n : Nat} (c : Fin n → Comp T V) : Comp T (List V) := fun s r =>
  ∃ order : List (Fin n), order.Perm (List.finRange n) ∧
    Comp.bind (runArgs c order []) (fun vs =>
      .pure ((List.finRange n).filterMap fun i => vs.lookup i)) s r

/-- Uses a value as a condition. -/
def Machine.test (M : Machine T V) (c : Comp T V) : Comp T Bool :=
  Comp.bind c fun v => .ofOption (M.truth v)

/-- Evaluates an expression; `calls` runs the functions of the program. -/
def Exp.eval (K : Interp S T V) (calls : Nat → List V → Comp T V) : Exp S V → Comp T V
  | .atom c => K.raise c
  | .step f a => Comp.bind (a.eval K calls) fun v => K.raise (f v)
  | .bin op a b => K.machine.evalBin op (a.eval K calls) (b.eval K calls)
  | .binAt s id a b => K.bin s id (a.eval K calls) (b.eval K calls)
  | .un op a => K.machine.evalUn op (a.eval K calls)
  | .unAt s id a => K.un s id (a.eval K calls)
  | .exprAt s id a => K.expr s id (a.eval K calls)
  | .load ty a => (a.eval K calls).to K.machine ty
  | .loadAt s id a => K.load s id (a.eval K calls)
  | .cond a b c => Comp.bind (K.machine.test (a.eval K calls)) fun x =>
      if x then b.eval K calls else c.eval K calls
  | .call f _ args => Comp.bind (allArgs fun i => (args i).eval K calls) (calls f)

/-- One statement and then, if it ended normally, another. -/
def andThen (c d : Comp T (Ctl V)) : Comp T (Ctl V) :=
  Comp.bind c fun x => match x with
    | .normal => d
    | x => .pure x

/-- The end of a loop body: whether the loop goes on. -/
def afterBody (x : Ctl V) : Option (Ctl V) :=
  match x with
  | .break_ => some .normal
  | .return_ v => some (.return_ v)
  | .goto_ l => some (.goto_ l)
  | _ => none

/-- At most `n` iterations of a loop. -/
def loopN (test : Comp T Bool) (step : Comp T Unit) (body : Comp T (Ctl V)) :
    Nat → Comp T (Ctl V)
  | 0 => .timeout
  | n + 1 => Comp.bind test fun x =>
    if x then Comp.bind body fun y =>
      match afterBody y with
      | some y => .pure y
      | none => Comp.bind step fun _ => loopN test step body n
    else .pure .normal

/-- At most `n` iterations of a `do` loop. -/
def doN (test : Comp T Bool) (body : Comp T (Ctl V)) : Nat → Comp T (Ctl V)
  | 0 => .timeout
  | n + 1 => Comp.bind body fun y =>
    match afterBody y with
    | some y => .pure y
    | none => Comp.bind test fun x => if x then doN test body n else .pure .normal

/-- The end of a `switch` body. -/
def afterSwitch (x : Ctl V) : Ctl V :=
  match x with
  | .break_ => .normal
  | x => x

/-- Discards a value. -/
def ignore (c : Comp T V) : Comp T Unit := Comp.bind c fun _ => .pure ()

/-- The step of a loop. -/
def optStep (K : Interp S T V) (calls : Nat → List V → Comp T V) : Option (Exp S V) → Comp T Unit
  | none => .pure ()
  | some e => ignore (e.eval K calls)

/-- The operand of `return`. -/
def optRet (K : Interp S T V) (calls : Nat → List V → Comp T V) :
    Option (Exp S V) → Comp T (Ctl V)
  | none => .pure (.return_ none)
  | some e => Comp.bind (e.eval K calls) fun v => .pure (.return_ (some v))

/-- What a statement does: the labels in it; how it is executed from its beginning
(`none`) or from a label.  Where a label is not found, the jump goes on. -/
structure Code (T V : Type) where
  labels : List Nat
  run : Option Nat → Comp T (Ctl V)
  out : ∀ l, l ∉ labels → run (some l) = .pure (.goto_ l)

namespace Code

/-- A statement without labels. -/
def plain (c : Comp T (Ctl V)) : Code T V where
  labels := []
  run
    | none => c
    | some l => .pure (.goto_ l)
  out _ _ := rfl

/-- The empty statement. -/
def skip : Code T V := plain (.pure .normal)

/-- A statement that `c` executes from the beginning, and `at_` from its labels. -/
def build (labels : List Nat) (c : Comp T (Ctl V)) (at_ : Nat → Comp T (Ctl V)) : Code T V where
  labels := labels
  run
    | none => c
    | some l => if l ∈ labels then at_ l else .pure (.goto_ l)
  out l h := by simp [h]

/-- One statement and then another. -/
def seq (a b : Code T V) : Code T V :=
  build (a.labels ++ b.labels) (andThen (a.run none) (b.run none)) fun l =>
    if l ∈ a.labels then andThen (a.run (some l)) (b.run none) else b.run (some l)

/-- Another beginning for a statement; jumps into it are not concerned. -/
def atStart (f : Comp T (Ctl V) → Comp T (Ctl V)) (a : Code T V) : Code T V :=
  build a.labels (f (a.run none)) fun l => a.run (some l)

/-- `if (c) a else b` -/
def ite (c : Comp T Bool) (a b : Code T V) : Code T V :=
  build (a.labels ++ b.labels) (Comp.bind c fun x => if x then a.run none else b.run none) fun l =>
    if l ∈ a.labels then a.run (some l) else b.run (some l)

/-- `for (; test; step) a` -/
def loop (test : Comp T Bool) (step : Comp T Unit) (a : Code T V) (fuel : Nat) : Code T V :=
  build a.labels (loopN test step (a.run none) fuel) fun l =>
    Comp.bind (a.run (some l)) fun y =>
      match afterBody y with
      | some y => .pure y
      | none => Comp.bind step fun _ => loopN test step (a.run none) fuel

/-- `do a while (test)` -/
def doWhile (test : Comp T Bool) (a : Code T V) (fuel : Nat) : Code T V :=
  build a.labels (doN test (a.run none) fuel) fun l =>
    Comp.bind (a.run (some l)) fun y =>
      match afterBody y with
      | some y => .pure y
      | none => Comp.bind test fun x => if x then doN test (a.run none) fuel else .pure .normal

/-- `switch`, where `c` says at which labels the body may start. -/
def switch (c : Comp T (List Nat)) (a : Code T V) : Code T V :=
  build a.labels
    (Comp.bind c fun x => match x.find? fun l => decide (l ∈ a.labels) with
      | none => .pure .normal
      | some l => Comp.bind (a.run (some l)) fun x => .pure (afterSwitch x))
    fun l => Comp.bind (a.run (some l)) fun x => .pure (afterSwitch x)

/-- A label in front of a statement. -/
def label (l : Nat) (a : Code T V) : Code T V :=
  build (l :: a.labels) (a.run none) fun l' => if l' = l then a.run none else a.run (some l')

/-- What happens when the statement has ended: jumps to its own labels go on at `k`. -/
def after (a : Code T V) (k : Nat → Comp T (Ctl V)) (x : Ctl V) : Comp T (Ctl V) :=
  match x with
  | .goto_ l => if l ∈ a.labels then k l else .pure (.goto_ l)
  | x => .pure x

/-- The statement with at most `n` jumps to its own labels. -/
def settle (a : Code T V) : Nat → Option Nat → Comp T (Ctl V)
  | 0, e => Comp.bind (a.run e) (a.after fun _ => .timeout)
  | n + 1, e => Comp.bind (a.run e) (a.after fun l => a.settle n (some l))

/-- `try a catch ...`, where `c` says which handler is chosen. -/
def try_ {n : Nat} (a : Code T V) (c : Comp T (Option Nat)) (handler : Fin n → Code T V) :
    Code T V :=
  let h := Comp.bind c fun x => match x with
    | none => .stop
    | some k => if hk : k < n then (handler ⟨k, hk⟩).run none else .ub
  build (a.labels ++ (List.finRange n).flatMap fun i => (handler i).labels)
    (Comp.either (a.run none) .pure h) fun l =>
      if l ∈ a.labels then Comp.either (a.run (some l)) .pure h
      else match (List.finRange n).find? fun i => decide (l ∈ (handler i).labels) with
        | some i => (handler i).run (some l)
        | none => .ub

/-- The life of an object that `d` destroys.  Jumps inside do not destroy it. -/
def scope (a : Code T V) (unwinds : Comp T Bool) (d : Comp T Unit) (fuel : Nat) : Code T V :=
  let run e := Comp.either (a.settle fuel e) (fun x => Comp.bind d fun _ => .pure x)
    (Comp.bind unwinds fun u => if u then Comp.bind d fun _ => .stop else .stop)
  build a.labels (run none) fun l => run (some l)

end Code

/-- What a statement does, every loop for at most `fuel` iterations. -/
def Stm.code (K : Interp S T V) (calls : Nat → List V → Comp T V) (fuel : Nat) :
    Stm S V → Code T V
  | .skip => .skip
  | .expr e => .plain (Comp.bind (e.eval K calls) fun _ => .pure .normal)
  | .seq a b => .seq (a.code K calls fuel) (b.code K calls fuel)
  | .removable id a => .atStart (K.stmt id) (a.code K calls fuel)
  | .ite e a b => .ite (K.machine.test (e.eval K calls)) (a.code K calls fuel) (b.code K calls fuel)
  | .loop e step a => .loop (K.machine.test (e.eval K calls)) (optStep K calls step)
      (a.code K calls fuel) fuel
  | .doWhile a e => .doWhile (K.machine.test (e.eval K calls)) (a.code K calls fuel) fuel
  | .switch e pick body => .switch (Comp.bind (e.eval K calls) fun v => .pure (pick v))
      (body.code K calls fuel)
  | .label l a => .label l (a.code K calls fuel)
  | .goto l => .plain (.pure (.goto_ l))
  | .brk => .plain (.pure .break_)
  | .cont => .plain (.pure .continue_)
  | .ret e => .plain (optRet K calls e)
  | .try_ a catches _ handler => .try_ (a.code K calls fuel) (K.step catches)
      fun i => (handler i).code K calls fuel
  | .scope a unwinds d => .scope (a.code K calls fuel) (K.step fun s => some (unwinds s, s))
      (ignore (d.eval K calls)) fuel

/-- Executes the body of a function. -/
def Stm.exec (K : Interp S T V) (calls : Nat → List V → Comp T V) (fuel : Nat) (a : Stm S V) :
    Comp T (Ctl V) :=
  (a.code K calls fuel).settle fuel none

/-- The value with which a function body ended. -/
def returned : Ctl V → Option V
  | .return_ v => v
  | _ => none

/-- Calls a function of a program, with at most `n` nested calls and loop
iterations. -/
def Prog.call (P : Prog S V) (K : Interp S T V) : Nat → Nat → List V → Comp T V
  | 0, _, _ => .timeout
  | n + 1, f, vs =>
    Comp.bind (K.step (P.enter f vs)) fun _ =>
      Comp.bind ((P.body f).exec K (P.call K n) n) fun x => K.step (P.leave f (returned x))

end Dredd
