/-
Specification: where the prelude should go.  Nothing here refers to the visitor.
-/
import Verif.Spec.Eligible

namespace Dredd

/-- The order in which code is read: a node before what is in it, and what is further left
before what is further right. -/
def Precedes (p q : List Nat) : Prop :=
  (∃ i r, q = p ++ i :: r) ∨ ∃ a i j r r', i < j ∧ p = a ++ i :: r ∧ q = a ++ j :: r'

/-- At the place there is a function that is called `__dredd_prelude_start`; it begins at `off`, is in
the main file, and in code that is looked at. -/
def Marker (l : Lang) (opt : Bool) (root : Node) (p : List Nat) (off : Nat) : Prop :=
  ∃ above d ks constexpr, Place root p above (.decl d ks) ∧ d.kind = .func constexpr (some off) ∧
    d.range.isSome = true ∧ Considered l opt (.decl d ks) above

end Dredd
