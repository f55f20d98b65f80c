/-
Specification: points that stand for other points.  Nothing here refers to the
visitor.
-/
import Verif.Spec.Eligible

namespace Dredd

/-- The node is a pair of parentheses, or an expression with its cleanups. -/
def IsWrapper (n : Node) : Prop :=
  ∃ s ks e, n = .stmt s ks ∧ s.kind = .expr e ∧ (e.cls = .paren ∨ e.cls = .cleanups)

/-- The node consists of wrappers around another node, which is found below it
along the path. -/
inductive Encloses : Node → List Nat → Node → Prop
  | one {s k} : IsWrapper (.stmt s [k]) → Encloses (.stmt s [k]) [0] k
  | more {s k q n} : IsWrapper (.stmt s [k]) → Encloses k q n → Encloses (.stmt s [k]) (0 :: q) n

/-- The node is a cast with a result of this value category (true: an lvalue). -/
def CastOf (n : Node) (lvalue : Bool) : Prop := ∃ imp k, IsCast n imp k ∧ k.lvalue = lvalue

/-- Of the casts that directly surround a node and have results of the same value
category, the outermost has these ancestors, and is so many levels up. -/
inductive OuterCast (lvalue : Bool) : List (Node × Nat) → Nat → Node → List (Node × Nat) → Prop
  | last {n i above} : CastOf n lvalue → (∀ k ∈ nearest above, ¬ CastOf k lvalue) →
      OuterCast lvalue ((n, i) :: above) 1 n above
  | next {n i above d c above'} : CastOf n lvalue → OuterCast lvalue above d c above' →
      OuterCast lvalue ((n, i) :: above) (d + 1) c above'

end Dredd
