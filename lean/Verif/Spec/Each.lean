/-
Two lists, member by member.
-/

namespace Dredd

/-- Two lists of the same length with related members. -/
inductive Each {α β : Type} (R : α → β → Prop) : List α → List β → Prop
  | nil : Each R [] []
  | cons {a b as bs} : R a b → Each R as bs → Each R (a :: as) (b :: bs)

end Dredd
