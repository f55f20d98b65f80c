/-
Arguments that are passed by address, and the objects that have one.
-/
import Verif.Spec.Eligible

namespace Dredd

/-- An object whose address can be taken with `&` in C (C17 6.5.3.2) and to which a reference can be bound in C++:
not a bit-field, not a variable declared `register` in C, not an element of a vector. -/
def HasAddress (e : ExprFacts) : Prop := e.lvalue = true ∧ e.bitField = false ∧ e.noAddress = false

/-- The type of the parameter is a pointer or a reference. -/
def Param.ByAddress (q : Param) : Prop := q.ty.getLast? = some '*' ∨ q.ty.getLast? = some '&'

/-- What is passed as first argument to the functions that a mutation of the expression `e` inserts: the
expression, the operand of the unary operator, the left operand of the binary operator. -/
def PassedFirst (m : Mutation) (ks : List Node) (e a : ExprFacts) : Prop :=
  match m with
  | .expr _ => a = e
  | .un _ => ∃ s, HasChild ks .operand s a
  | .bin _ => ∃ s, HasChild ks .lhs s a
  | .stmt _ => False

/-- What C and C++ say about the operands of operators on numbers: what is incremented, decremented or assigned
to is an l-value; the operand of `-`, `~` and `!` is a value. -/
def OperandsFit (root : Node) : Prop :=
  ∀ p above s ks e, Place root p above (.stmt s ks) → s.kind = .expr e →
    (∀ op s' e', e.cls = .unary op → HasChild ks .operand s' e' →
      (op ∈ [.preInc, .preDec, .postInc, .postDec] → e'.lvalue = true) ∧
      (op ∈ [.minus, .not, .lnot] → e'.lvalue = false)) ∧
    (∀ op s' e', e.cls = .binary op → HasChild ks .lhs s' e' →
      op ∈ [.assign, .mulAssign, .divAssign, .remAssign, .addAssign, .subAssign, .shlAssign, .shrAssign,
        .andAssign, .xorAssign, .orAssign] → e'.lvalue = true)

end Dredd
