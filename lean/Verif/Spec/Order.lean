/-
Order of evaluation: what is needed to compare evaluating operands before a
call, or inside the called function, with evaluating them in place.
-/
import Verif.Spec.Action

namespace Dredd

variable {S V α : Type}

/-- The order in which operands end up being evaluated when the lazy ones are
evaluated after the others; `o` is the order of the operator itself. -/
def callOrder (lazy1 lazy2 : Bool) (o : Order) : Order :=
  match lazy1, lazy2 with
  | true, true => o
  | true, false => .rhsFirst
  | false, true => .lhsFirst
  | false, false => .unseq

/-- It makes no difference which of the two is evaluated first. -/
def Comp.Commute (c1 c2 : Comp S V) : Prop :=
  Comp.both .lhsFirst c1 c2 = Comp.both .rhsFirst c1 c2

/-- Evaluation neither changes the state nor is undefined. -/
def Comp.Idle (c : Comp S V) : Prop :=
  ∀ s, (∃ v, c s (.done v s)) ∧ ∀ r, c s r → ∃ v, r = .done v s

/-- `v` is a value that the computation may have, in whatever state it begins. -/
def Comp.Yields (c : Comp S V) (v : V) : Prop := ∃ s s', c s (.done v s')

/-- Converting the result of operator `op`, applied to values of the operands, to type `ty` does
nothing: `ty` is the type of the operator expression. -/
structure Machine.ResultType (M : Machine S V) (op : BOp) (ty : Text) (c1 c2 : Comp S V) : Prop where
  bin : op.isLogical = false → ∀ v1 v2, c1.Yields v1 → c2.Yields v2 → ∀ s v s',
    M.bin op v1 v2 s = some (v, s') → M.conv ty v s' = some (v, s')
  bool : op.isLogical = true → ∀ x s, M.conv ty (M.ofBool x) s = some (M.ofBool x, s)

/-- The same for unary operators. -/
structure Machine.ResultTypeUn (M : Machine S V) (op : UOp) (ty : Text) (c : Comp S V) : Prop where
  un : op ≠ .lnot → ∀ v, c.Yields v → ∀ s v' s', M.un op v s = some (v', s') →
    M.conv ty v' s' = some (v', s')
  bool : op = .lnot → ∀ x s, M.conv ty (M.ofBool x) s = some (M.ofBool x, s)

/-- Converting the results of a computation to type `ty` does nothing. -/
def Comp.HasType (M : Machine S V) (ty : Text) (c : Comp S V) : Prop :=
  ∀ s v s', c s (.done v s') → M.conv ty v s' = some (v, s')

end Dredd
