/-
The shape of generated mutator functions, and the state that is threaded
through the code that generates them.
-/
import Verif.Model.Ops

namespace Dredd

/-- `Options` (options.h 20-60). -/
structure Options where
  optimise : Bool
  dumpAsts : Bool
  track : Bool
  showAst : Bool
deriving DecidableEq, Repr

/-- How a mutator function receives an argument and mentions it in its body.
* `value` – by value or by C++ reference: `arg`.
* `thunk` – as `std::function`: `arg()` (mutation_replace_binary_operator.cc
  467-482, mutation_replace_expr.cc 472-476).
* `deref` – as C pointer: `(*arg)` (mutation_replace_binary_operator.cc
  472-475, mutation_replace_expr.cc 478-480). -/
inductive ArgMode
  | value | thunk | deref
deriving DecidableEq, Repr

/-- The parameters a mutator function body can mention. (`arg`:
mutation_replace_unary_operator.cc 195, mutation_replace_expr.cc 470; `arg1`,
`arg2`: mutation_replace_binary_operator.cc 453, 463.) -/
inductive Arg
  | arg | arg1 | arg2
deriving DecidableEq, Repr

/-- Names of the parameters (mutation_replace_binary_operator.cc 453, 463;
mutation_replace_expr.cc 470). -/
def Arg.name : Arg → Text
  | .arg => t!"arg"
  | .arg1 => t!"arg1"
  | .arg2 => t!"arg2"

/-- Literals a mutator function can return (mutation_replace_expr.cc 320-455,
mutation_replace_binary_operator.cc 769-780, 809-820). -/
inductive Lit
  | zero | one | minusOne | true_ | false_ | zeroF | oneF | minusOneF
deriving DecidableEq, Repr

/-- Text of a literal. (mutation_replace_expr.cc 333, 346, 359, 380, 392, 407, 431,
446; mutation_replace_binary_operator.cc 774, 779, 814, 819.) -/
def Lit.str : Lit → Text
  | .zero => t!"0"
  | .one => t!"1"
  | .minusOne => t!"-1"
  | .true_ => t!"true"
  | .false_ => t!"false"
  | .zeroF => t!"0.0"
  | .oneF => t!"1.0"
  | .minusOneF => t!"-1.0"

/-- The expressions that occur after `return` in mutator functions.
(mutation_replace_binary_operator.cc 306-357, 487-512;
mutation_replace_unary_operator.cc 211-222, 239-243, 308-330;
mutation_replace_expr.cc 212-223, 246-278, 332-447, 485-504.) -/
inductive RetE
  /-- `arg1 op arg2` (mutation_replace_binary_operator.cc 354-357, 487-492) -/
  | bin (op : BOp)
  /-- an argument on its own -/
  | arg (a : Arg)
  /-- operator directly before or after the argument
  (mutation_replace_unary_operator.cc 310-317) -/
  | un (op : UOp)
  /-- inserted prefix operator: `op(arg)` (mutation_replace_expr.cc 212-283) -/
  | ins (op : UOp)
  /-- literal -/
  | lit (l : Lit)
deriving DecidableEq, Repr

/-- The lines of a mutator function body. (mutation_replace_binary_operator.cc 306,
353, 487, 505-512; mutation_replace_unary_operator.cc 211, 233-243, 308, 328;
mutation_replace_expr.cc 212, 246, 332, 485, 500-504.) -/
inductive Line
  /-- `if (!__dredd_some_mutation_enabled) return e;` -/
  | quick (e : RetE)
  /-- `if (__dredd_enabled_mutation(local_mutation_id + k)) return e;` -/
  | guard (k : Nat) (e : RetE)
  /-- `__dredd_record_covered_mutants(local_mutation_id, n);` -/
  | record (n : Nat)
  /-- `return e;` -/
  | ret (e : RetE)
deriving DecidableEq, Repr

/-- A parameter: name, printed type (without `std::function`), mode.
(mutation_replace_binary_operator.cc 445-463; mutation_replace_unary_operator.cc
188-195; mutation_replace_expr.cc 463-470.) -/
structure Param where
  arg : Arg
  ty : Text
  mode : ArgMode
deriving DecidableEq, Repr

/-- A generated function. (mutation_replace_binary_operator.cc 438-514;
mutation_replace_unary_operator.cc 182-245; mutation_replace_expr.cc 456-505.) -/
structure MutFn where
  resTy : Text
  name : Text
  params : List Param
  lines : List Line
  /-- `}` followed by one or two line breaks
  (mutation_replace_binary_operator.cc 514 and 782). -/
  tail : Text
deriving DecidableEq, Repr

/-- How an argument is written in the body. (mutation_replace_binary_operator.cc
467-482; mutation_replace_unary_operator.cc 197-206; mutation_replace_expr.cc
472-480.) -/
def argText (a : Arg) : ArgMode → Text
  | .value => a.name
  | .thunk => a.name ++ t!"()"
  | .deref => t!"(*" ++ a.name ++ t!")"

/-- Mode of an argument of a function (`value` if there is no such parameter; never
used in that case). (mutation_replace_binary_operator.cc 467-482;
mutation_replace_unary_operator.cc 197-206; mutation_replace_expr.cc 472-480.) -/
def MutFn.mode (f : MutFn) (a : Arg) : ArgMode :=
  ((f.params.find? fun p => p.arg == a).map (·.mode)).getD .value

/-- Text of a returned expression; `m` gives the mode of each argument.
(mutation_replace_binary_operator.cc 306-357, 487-512;
mutation_replace_unary_operator.cc 211-222, 239-243, 308-330;
mutation_replace_expr.cc 212-223, 246-278, 332-447, 485-504.) -/
def RetE.render (m : Arg → ArgMode) : RetE → Text
  | .bin op => argText .arg1 (m .arg1) ++ t!" " ++ op.str ++ t!" " ++ argText .arg2 (m .arg2)
  | .arg a => argText a (m a)
  | .un op =>
    if op.isPrefix then op.str ++ argText .arg (m .arg)
    else argText .arg (m .arg) ++ op.str
  | .ins op => op.str ++ t!"(" ++ argText .arg (m .arg) ++ t!")"
  | .lit l => l.str

/-- Text of a line. (mutation_replace_binary_operator.cc 306, 353, 487, 505-512;
mutation_replace_unary_operator.cc 211, 233-243, 308, 328; mutation_replace_expr.cc
212, 246, 332, 485, 500-504.) -/
def Line.render (m : Arg → ArgMode) : Line → Text
  | .quick e => t!"  if (!__dredd_some_mutation_enabled) return " ++ e.render m ++ t!";\n"
  | .guard k e =>
    t!"  if (__dredd_enabled_mutation(local_mutation_id + " ++ natDec k ++ t!")) return "
      ++ e.render m ++ t!";\n"
  | .record n => t!"  __dredd_record_covered_mutants(local_mutation_id, " ++ natDec n ++ t!");\n"
  | .ret e => t!"  return " ++ e.render m ++ t!";\n"

/-- Printed type of a parameter (mutation_replace_binary_operator.cc
447-461). -/
def Param.tyText (p : Param) : Text :=
  match p.mode with
  | .thunk => t!"std::function<" ++ p.ty ++ t!"()>"
  | _ => p.ty

/-- Text of the parameter list up to the id parameter
(mutation_replace_binary_operator.cc 447-463, mutation_replace_expr.cc
463-470). -/
def renderParams : List Param → Text
  | [] => []
  | p :: ps => p.tyText ++ t!" " ++ p.arg.name ++ t!", " ++ renderParams ps

/-- Text of a generated function (mutation_replace_binary_operator.cc 438-521,
mutation_replace_unary_operator.cc 182-252, mutation_replace_expr.cc
457-510). -/
def MutFn.render (f : MutFn) : Text :=
  t!"static " ++ f.resTy ++ t!" " ++ f.name ++ t!"(" ++ renderParams f.params
    ++ t!"int local_mutation_id) {\n"
    ++ f.lines.flatMap (Line.render f.mode) ++ f.tail

/-- The mutable state of the code that generates a function: the text stream
`new_function`, `mutation_id_offset`, and the instances added to the protobuf
message. (mutation_replace_binary_operator.cc 273-362,
mutation_replace_unary_operator.cc 285-337, mutation_replace_expr.cc 203-455.) -/
structure GenSt (α : Type) where
  lines : List Line := []
  off : Nat := 0
  insts : List (Nat × α) := []
deriving Repr

/-- The text of one alternative, suppressed in tracking mode (for instance
mutation_replace_binary_operator.cc 305-309). -/
def GenSt.clause {α} (g : GenSt α) (track : Bool) (e : RetE) : GenSt α :=
  if track then g else { g with lines := g.lines ++ [.guard g.off e] }

/-- `AddMutationInstance` (mutation_replace_binary_operator.cc 899-908,
mutation_replace_unary_operator.cc 472-481, mutation_replace_expr.cc
718-726). -/
def GenSt.inst {α} (g : GenSt α) (base : Nat) (a : α) : GenSt α :=
  { g with insts := g.insts ++ [(base + g.off, a)], off := g.off + 1 }

end Dredd
