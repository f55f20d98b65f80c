/-
Truth values of relational and logical operators, and what it means for an
input to kill a mutant of one.
-/
import Verif.Spec.Action

namespace Dredd

/-- The value of a relational operator when the operands compare as given. -/
def BOp.onOrder (c : Ordering) : BOp → Option Bool
  | .eq => some (c == .eq)
  | .ne => some (c != .eq)
  | .lt => some (c == .lt)
  | .le => some (c != .gt)
  | .gt => some (c == .gt)
  | .ge => some (c != .lt)
  | _ => none

/-- The value of an operator on truth values. -/
def BOp.onBools (p q : Bool) : BOp → Option Bool
  | .land => some (p && q)
  | .lor => some (p || q)
  | .eq => some (p == q)
  | .ne => some (p != q)
  | _ => none

/-- A truth value as a number. -/
def ofBool (b : Bool) : Int := if b then 1 else 0

/-- The integer denoted by a literal. -/
def Lit.int? : Lit → Option Int
  | .zero | .false_ => some 0
  | .one | .true_ => some 1
  | .minusOne => some (-1)
  | _ => none

/-- A unary operator applied to a small number. -/
def UOp.onSmall (v : Int) : UOp → Option Int
  | .lnot => some (if v = 0 then 1 else 0)
  | .not => some (-v - 1)
  | .minus => some (-v)
  | _ => none

/-- The number that a changed binary expression yields. -/
def BChange.value (f : BOp → Option Bool) (lhs rhs : Option Bool) : BChange → Option Int
  | .op o => (f o).map ofBool
  | .lhs => lhs.map ofBool
  | .rhs => rhs.map ofBool

/-- The number that a changed expression of value `v` yields. -/
def EChange.value (v : Int) : EChange → Option Int
  | .insert o => o.onSmall v
  | .const l => l.int?

end Dredd
