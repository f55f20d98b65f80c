/-
Facts about expressions that hold in every program clang accepts and that the
visitor passes on.  They are hypotheses of some theorems.
-/
import Verif.Model.Apply

namespace Dredd

/-- Facts about an operator or expression to be mutated.
* The operator is one the visitor keeps (mutate_visitor.cc 367-491): it is
  implemented for it.
* `RB` and `RU` give the type of an operator expression: it depends on the
  operator and the types of the operands only (C11 6.5, C++17 [expr]).
* The operand of `++` and `--` is an l-value that is not const; operands of
  other unary operators are r-values (of l-values the value is taken first,
  which is an implicit cast).
* In C++ the result of prefix `++` and `--` is the operand, an l-value; all other
  results are r-values.
* An l-value that is replaced is not const (mutation_replace_expr.cc 695-716 and
  mutate_visitor.cc 493-583).
* If clang knows the value of an expression of type `bool`, it also knows whether
  it is true. -/
def Mutation.Coherent (l : Lang) (RB : BOp → BTy → BTy → BTy) (RU : UOp → BTy → BTy) :
    Mutation → Prop
  | .bin s => s.op.fnName?.isSome ∧ s.resTy = RB s.op s.lhs.ty s.rhs.ty
  | .un s =>
    s.op.fnName?.isSome ∧ s.self.ty = RU s.op s.sub.ty ∧
    s.sub.lvalue = s.op.isIncDec ∧ (s.sub.lvalue → s.sub.const = false) ∧
    s.self.lvalue = (l.cpp && (s.op == .preInc || s.op == .preDec)) ∧
    (s.self.lvalue → s.self.volatile = s.sub.volatile ∧ s.self.const = false)
  | .expr s =>
    (s.self.lvalue → s.self.const = false ∧ s.canMutateLValue = true) ∧
    (s.self.ty = .bool → s.self.intVal.isSome → s.self.boolVal.isSome)
  | .stmt _ => True

end Dredd
