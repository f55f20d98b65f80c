/-
The abstract machine of the target languages: values, operators, order of
evaluation.  Everything that depends on the implementation or on details of
types is a parameter; the theorems hold for every choice.
-/
import Verif.Sem.Comp
import Verif.Model.Gen

namespace Dredd

/-- Which language rules are in force.  C++17 fixes the order of evaluation of
some operators that older standards (and C) leave open. -/
inductive Std
  | c | cppOld | cpp17
deriving DecidableEq, Repr

/-- An abstract machine.  A value is an r-value or an l-value (a reference to
an object); operators take the values of their operands.  `none` is undefined
behaviour. -/
structure Machine (S V : Type) where
  std : Std
  /-- the non-logical binary operators, including assignments -/
  bin : BOp → V → V → S → Option (V × S)
  /-- the unary operators other than `!` -/
  un : UOp → V → S → Option (V × S)
  /-- an r-value used as a condition -/
  truth : V → Option Bool
  /-- the result of a logical operator -/
  ofBool : Bool → V
  /-- the literals that mutator functions return -/
  lit : Lit → V
  /-- conversion of a returned value to the declared result type of a function;
  reads the object if an l-value is returned from a function returning a
  non-reference -/
  conv : Text → V → S → Option (V × S)

/-- Order of evaluation of the operands of a non-logical operator: C++17
[expr.shift] p4 and [expr.ass] p1; unspecified otherwise. -/
def Std.order : Std → BOp → Order
  | .cpp17, op =>
    if op == .shl || op == .shr then .lhsFirst
    else if op.isAssign then .rhsFirst
    else .unseq
  | _, _ => .unseq

variable {S V D : Type}

/-- The value of `a && b` and `a || b` (C11 6.5.13, 6.5.14): the right operand
is evaluated only if the left one does not decide. -/
def Machine.logical (M : Machine S V) (op : BOp) (c1 c2 : Comp S V) : Comp S V :=
  Comp.bind c1 fun v1 => Comp.bind (.ofOption (M.truth v1)) fun b1 =>
    if b1 == (op == .lor) then .pure (M.ofBool b1)
    else Comp.bind c2 fun v2 => Comp.bind (.ofOption (M.truth v2)) fun b2 => .pure (M.ofBool b2)

/-- The comma operator (C11 6.5.17): left, then right. -/
def Machine.comma (c1 c2 : Comp S V) : Comp S V := Comp.bind c1 fun _ => c2

/-- The meaning of a binary operator expression with the given operands. -/
def Machine.evalBin (M : Machine S V) (op : BOp) (c1 c2 : Comp S V) : Comp S V :=
  if op.isLogical then M.logical op c1 c2
  else if op == .comma then Machine.comma c1 c2
  else Comp.bind (Comp.both (M.std.order op) c1 c2) fun p => .lift (M.bin op p.1 p.2)

/-- The meaning of a unary operator expression with the given operand. -/
def Machine.evalUn (M : Machine S V) (op : UOp) (c : Comp S V) : Comp S V :=
  if op == .lnot then
    Comp.bind c fun v => Comp.bind (.ofOption (M.truth v)) fun b => .pure (M.ofBool !b)
  else Comp.bind c fun v => .lift (M.un op v)

/-- A step on the program's state seen as a step on a larger state. -/
def liftState {α : Type} (f : S → Option (α × S)) : S × D → Option (α × (S × D)) :=
  fun p => (f p.1).map fun r => (r.1, (r.2, p.2))

/-- The same machine when the state also holds the variables of the prelude. -/
def Machine.withState (M : Machine S V) (D : Type) : Machine (S × D) V where
  std := M.std
  bin op a b := liftState (M.bin op a b)
  un op a := liftState (M.un op a)
  truth := M.truth
  ofBool := M.ofBool
  lit := M.lit
  conv t v := liftState (M.conv t v)

end Dredd
