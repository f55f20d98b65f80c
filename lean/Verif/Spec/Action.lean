/-
What the actions reported in the mutation information mean, independently of
how the tool implements them.
-/
import Verif.Sem.Exec

namespace Dredd

variable {S V D α : Type}

/-- What an action does to a binary operator expression. -/
inductive BChange
  /-- use this operator instead -/
  | op (o : BOp)
  /-- use the left operand instead of the expression -/
  | lhs
  /-- use the right operand instead of the expression -/
  | rhs
deriving DecidableEq

/-- The meaning of the names in dredd.proto 85-117. -/
def BAct.change : BAct → BChange
  | .ReplaceWithLHS => .lhs
  | .ReplaceWithRHS => .rhs
  | .ReplaceWithAdd => .op .add
  | .ReplaceWithDiv => .op .div
  | .ReplaceWithMul => .op .mul
  | .ReplaceWithRem => .op .rem
  | .ReplaceWithSub => .op .sub
  | .ReplaceWithAddAssign => .op .addAssign
  | .ReplaceWithAndAssign => .op .andAssign
  | .ReplaceWithAssign => .op .assign
  | .ReplaceWithDivAssign => .op .divAssign
  | .ReplaceWithMulAssign => .op .mulAssign
  | .ReplaceWithOrAssign => .op .orAssign
  | .ReplaceWithRemAssign => .op .remAssign
  | .ReplaceWithShlAssign => .op .shlAssign
  | .ReplaceWithShrAssign => .op .shrAssign
  | .ReplaceWithSubAssign => .op .subAssign
  | .ReplaceWithXorAssign => .op .xorAssign
  | .ReplaceWithAnd => .op .and
  | .ReplaceWithOr => .op .or
  | .ReplaceWithXor => .op .xor
  | .ReplaceWithLAnd => .op .land
  | .ReplaceWithLOr => .op .lor
  | .ReplaceWithEQ => .op .eq
  | .ReplaceWithGE => .op .ge
  | .ReplaceWithGT => .op .gt
  | .ReplaceWithLE => .op .le
  | .ReplaceWithLT => .op .lt
  | .ReplaceWithNE => .op .ne
  | .ReplaceWithShl => .op .shl
  | .ReplaceWithShr => .op .shr

/-- The changed expression, given the operands. -/
def BChange.eval (M : Machine S V) (c1 c2 : Comp S V) : BChange → Comp S V
  | .op o => M.evalBin o c1 c2
  | .lhs => c1
  | .rhs => c2

/-- What an action does to a unary operator expression. -/
inductive UChange
  /-- use this operator instead -/
  | op (o : UOp)
  /-- use the operand instead of the expression -/
  | operand
deriving DecidableEq

/-- The meaning of the names in dredd.proto 170-179. -/
def UAct.change : UAct → UChange
  | .ReplaceWithOperand => .operand
  | .ReplaceWithMinus => .op .minus
  | .ReplaceWithNot => .op .not
  | .ReplaceWithPreDec => .op .preDec
  | .ReplaceWithPostDec => .op .postDec
  | .ReplaceWithPreInc => .op .preInc
  | .ReplaceWithPostInc => .op .postInc
  | .ReplaceWithLNot => .op .lnot

/-- The changed expression, given the operand. -/
def UChange.eval (M : Machine S V) (c : Comp S V) : UChange → Comp S V
  | .op o => M.evalUn o c
  | .operand => c

/-- What an action does to an expression. -/
inductive EChange
  /-- put this operator before it -/
  | insert (o : UOp)
  /-- use this constant instead -/
  | const (l : Lit)
deriving DecidableEq

/-- The meaning of the names in dredd.proto 57-71.  In C the truth values are
written 1 and 0. -/
def EAct.change (cpp : Bool) : EAct → EChange
  | .InsertPreInc => .insert .preInc
  | .InsertPreDec => .insert .preDec
  | .InsertLNot => .insert .lnot
  | .InsertNot => .insert .not
  | .InsertMinus => .insert .minus
  | .ReplaceWithZeroFloat => .const .zeroF
  | .ReplaceWithOneFloat => .const .oneF
  | .ReplaceWithMinusOneFloat => .const .minusOneF
  | .ReplaceWithZeroInt => .const .zero
  | .ReplaceWithOneInt => .const .one
  | .ReplaceWithMinusOneInt => .const .minusOne
  | .ReplaceWithTrue => .const (if cpp then .true_ else .one)
  | .ReplaceWithFalse => .const (if cpp then .false_ else .zero)

/-- The changed expression, given the expression. -/
def EChange.eval (M : Machine S V) (c : Comp S V) : EChange → Comp S V
  | .insert o => M.evalUn o c
  | .const l => .pure (M.lit l)

/-- `a` is the action of the smallest enabled id of a group. -/
def Smallest (E : Nat → Bool) (insts : List (Nat × α)) (a : α) : Prop :=
  ∃ i, (i, a) ∈ insts ∧ E i = true ∧ ∀ j a', (j, a') ∈ insts → E j = true → i ≤ j

/-- No id of a group is enabled. -/
def NoneEnabled (E : Nat → Bool) (insts : List (Nat × α)) : Prop :=
  ∀ i a, (i, a) ∈ insts → E i = false

/-- Operands that are not evaluated lazily are evaluated beforehand (in any
order); lazy ones are evaluated when (and if) the expression needs them. -/
def prepare2 (lazy1 lazy2 : Bool) (c1 c2 : Comp S V) (k : Comp S V → Comp S V → Comp S α) :
    Comp S α :=
  match lazy1, lazy2 with
  | true, true => k c1 c2
  | true, false => Comp.bind c2 fun v2 => k c1 (.pure v2)
  | false, true => Comp.bind c1 fun v1 => k (.pure v1) c2
  | false, false => Comp.bind (Comp.both .unseq c1 c2) fun p => k (.pure p.1) (.pure p.2)

/-- The same for one operand. -/
def prepare1 (lazy : Bool) (c : Comp S V) (k : Comp S V → Comp S α) : Comp S α :=
  if lazy then k c else Comp.bind c fun v => k (.pure v)

/-- Conversion to the result type `ty`. -/
def Comp.to (M : Machine S V) (ty : Text) (c : Comp S V) : Comp S V :=
  Comp.bind c fun v => .lift (M.conv ty v)

/-- The prelude answers queries about the ids below `n` according to `en` and
the quick check is only ever false if none of these is enabled.  `Ok` is an
invariant of the prelude's variables. -/
structure Device.Faithful (dev : Device D) (Ok : D → Prop) (en : Nat → Bool) (n : Nat) :
    Prop where
  query : ∀ d i, Ok d → i < n → ∃ d', dev.query i d = some (en i, d') ∧ Ok d'
  some_ : ∀ d, Ok d → dev.some_ d = false → ∀ i, i < n → en i = false

/-- The recorder of coverage never fails on groups of ids below `n`. -/
def Device.Records (dev : Device D) (Ok : D → Prop) (n : Nat) : Prop :=
  ∀ d i k, Ok d → i < n → i + k ≤ n → ∃ d', dev.record i k d = some ((), d') ∧ Ok d'

end Dredd
