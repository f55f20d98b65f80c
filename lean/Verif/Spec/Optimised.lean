/-
Specification: what leaving out mutants means for the mutation information of a
file.  Nothing here refers to the visitor.
-/
import Verif.Spec.Eligible

namespace Dredd

/-- A variable is declared at this location, inside of a statement that consists of
an expression without side effects (in a lambda, say). -/
def DeclaredInPointless (root : Node) (loc : Nat) : Prop :=
  ∃ p above d ks, Place root p above (.decl d ks) ∧ ¬ NoPointless (.decl d ks) above ∧
    ((∃ v, d.kind = .var v ∧ v.loc = loc) ∨ d.kind = .varLike loc)

/-- No expression outside of such statements begins where a variable inside of
one is declared. -/
def LocationsApart (root : Node) : Prop :=
  ∀ p above s ks e, Place root p above (.stmt s ks) → s.kind = .expr e →
    NoPointless (.stmt s ks) above → ¬ DeclaredInPointless root e.beginLoc

/-- The second group is about the same code as the first, and offers what the
first offers, in the same order, and possibly more. -/
inductive Group.Offers : Group → Group → Prop
  | removeStmt {i j r} : Offers (.removeStmt i r) (.removeStmt j r)
  | replaceExpr {r is js} : (is.map (·.2)).Sublist (js.map (·.2)) →
      Offers (.replaceExpr r is) (.replaceExpr r js)
  | replaceBin {op r a b is js} : (is.map (·.2)).Sublist (js.map (·.2)) →
      Offers (.replaceBin op r a b is) (.replaceBin op r a b js)
  | replaceUn {op r a is js} : (is.map (·.2)).Sublist (js.map (·.2)) →
      Offers (.replaceUn op r a is) (.replaceUn op r a js)

/-- The first list can be made from the second by leaving things out, where what
remains is related. -/
inductive Thinned {α β : Type} (R : α → β → Prop) : List α → List β → Prop
  | nil : Thinned R [] []
  | drop {as b bs} : Thinned R as bs → Thinned R as (b :: bs)
  | keep {a as b bs} : R a b → Thinned R as bs → Thinned R (a :: as) (b :: bs)

end Dredd
