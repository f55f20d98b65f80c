/-
Specification: what must not be replaced, no matter whether it is in parentheses.
Nothing here refers to the visitor.
-/
import Verif.Spec.Eligible

namespace Dredd

/-- The node is a pair of parentheses. -/
def IsParen (n : Node) : Prop := ∃ s ks e, n = .stmt s ks ∧ s.kind = .expr e ∧ e.cls = .paren

/-- What is left of the ancestors without the parentheses that directly surround a
node. -/
inductive OutOfParens : List (Node × Nat) → List (Node × Nat) → Prop
  | none {above} : (∀ n ∈ nearest above, ¬ IsParen n) → OutOfParens above above
  | some {n i above above'} : IsParen n → OutOfParens above above' → OutOfParens ((n, i) :: above) above'

/-- The expression is a null pointer constant and is converted to a pointer. -/
def IsNullPointer (above : List (Node × Nat)) (e : ExprFacts) : Prop :=
  e.nullConst = true ∧ ∃ above', OutOfParens above above' ∧ ∃ n ∈ nearest above', ∃ imp k, IsCast n imp k ∧
    k.anyPointer = true

/-- The value may refer to a temporary object, where parentheses make no
difference. -/
inductive MayDangle : Node → Prop
  | temporary {s ks e} : s.kind = .expr e → e.cls = .temporary → MayDangle (.stmt s ks)
  | member {s ks e s' ks'} : s.kind = .expr e → e.cls = .member → (e.lvalue = true ∨ e.pointer = true) →
      .stmt s' ks' ∈ ks → s'.role = .base → MayDangle (.stmt s' ks') → MayDangle (.stmt s ks)
  | call {s ks e f a m s' ks'} : s.kind = .expr e → e.cls = .call f a m →
      (e.lvalue = true ∨ e.pointer = true) →
      .stmt s' ks' ∈ ks → s'.role = .callArg → MayDangle (.stmt s' ks') → MayDangle (.stmt s ks)
  | paren {s ks e k} : s.kind = .expr e → e.cls = .paren → (e.lvalue = true ∨ e.pointer = true) →
      k ∈ ks → MayDangle k → MayDangle (.stmt s ks)

end Dredd
