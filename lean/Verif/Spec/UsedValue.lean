/-
Statements whose value is used: statement expressions, an extension of C and C++ that clang accepts.
-/
import Verif.Spec.Syntax

namespace Dredd

/-- The node with these ancestors is the last item of a compound statement in parentheses, `({ … })`, which is
an expression with a type: the node's value is that of the expression.  (A lambda is the only other expression
with a compound statement below it.) -/
def ValueUsed (above : List (Node × Nat)) : Prop :=
  ∃ b ks i outer kso j post e, above = (.stmt b ks, i) :: (.stmt outer kso, j) :: post ∧ b.kind = .compound ∧
    i + 1 = ks.length ∧ outer.kind = .expr e ∧ (∀ c, e.cls ≠ .lambda c) ∧ e.ty.isSome = true

end Dredd
