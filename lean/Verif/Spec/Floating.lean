/-
Floating-point arithmetic: signed zeros, infinities, not-a-number and any rounding (C81, C82).
-/
import Verif.Spec.Truth

namespace Dredd

/-- A floating-point value: a sign and a magnitude that is not negative, an infinity, or not a number. -/
inductive FVal
  | nan
  | inf (neg : Bool)
  | fin (neg : Bool) (mag : Rat)
deriving DecidableEq

/-- What a floating-point type is like: the magnitudes that it has, and how others are rounded (to
another magnitude or to infinity).  `down`: the sum of numbers that cancel out is -0. -/
structure FloatFmt where
  fits : Rat → Prop
  round : Bool → Rat → FVal
  down : Bool
  fits_zero : fits 0
  fits_one : fits 1
  round_fits : ∀ s q, fits q → round s q = .fin s q

/-- The number with a sign and a magnitude. -/
def signed (neg : Bool) (q : Rat) : Rat := if neg then -q else q

/-- `v` is a value of the type. -/
def FloatFmt.Holds (F : FloatFmt) : FVal → Prop
  | .fin _ q => 0 ≤ q ∧ F.fits q
  | _ => True

/-- The other sign. -/
def FVal.neg : FVal → FVal
  | .nan => .nan
  | .inf s => .inf !s
  | .fin s q => .fin (!s) q

/-- A number that is not zero, rounded. -/
def FloatFmt.number (F : FloatFmt) (x : Rat) : FVal := if x < 0 then F.round true (-x) else F.round false x

/-- Addition. -/
def FloatFmt.add (F : FloatFmt) : FVal → FVal → FVal
  | .nan, _ | _, .nan => .nan
  | .inf s, .inf t => if s = t then .inf s else .nan
  | .inf s, .fin .. | .fin .., .inf s => .inf s
  | .fin s p, .fin t q =>
    if signed s p + signed t q = 0 then .fin (if s = t then s else F.down) 0
    else F.number (signed s p + signed t q)

/-- Multiplication. -/
def FloatFmt.mul (F : FloatFmt) : FVal → FVal → FVal
  | .nan, _ | _, .nan => .nan
  | .inf s, .inf t => .inf (s != t)
  | .inf s, .fin t q | .fin t q, .inf s => if q = 0 then .nan else .inf (s != t)
  | .fin s p, .fin t q => F.round (s != t) (p * q)

/-- Division. -/
def FloatFmt.div (F : FloatFmt) : FVal → FVal → FVal
  | .nan, _ | _, .nan => .nan
  | .inf _, .inf _ => .nan
  | .inf s, .fin t _ => .inf (s != t)
  | .fin s _, .inf t => .fin (s != t) 0
  | .fin s p, .fin t q =>
    if q = 0 then (if p = 0 then .nan else .inf (s != t)) else F.round (s != t) (p / q)

/-- The operators that floating-point numbers have, but for assignments and comparisons. -/
def FloatFmt.bin (F : FloatFmt) (a b : FVal) : BOp → Option FVal
  | .add => some (F.add a b)
  | .sub => some (F.add a b.neg)
  | .mul => some (F.mul a b)
  | .div => some (F.div a b)
  | _ => none

/-- The number of a truth value. -/
def FVal.ofBool (b : Bool) : FVal := .fin false (if b then 1 else 0)

/-- `-` and `!`; the result of `!` converted to the type. -/
def FVal.un (v : FVal) : UOp → Option FVal
  | .minus => some v.neg
  | .lnot => some (.ofBool (match v with | .fin _ q => q == 0 | _ => false))
  | _ => none

/-- The value of a literal. -/
def Lit.float? : Lit → Option FVal
  | .zeroF => some (.fin false 0)
  | .oneF => some (.fin false 1)
  | .minusOneF => some (.fin true 1)
  | _ => none

/-- The value of a constant, if it is among those that are told apart. -/
def FConst.val : FConst → Option FVal
  | .zero => some (.fin false 0)
  | .one => some (.fin false 1)
  | .minusOne => some (.fin true 1)
  | .other => none

/-- The numbers are equal (`==`): zeros are, whatever their signs. -/
def FVal.Equal : FVal → FVal → Prop
  | .inf s, .inf t => s = t
  | .fin s p, .fin t q => signed s p = signed t q
  | _, _ => False

/-- How values compare; not at all if one of them is not a number. -/
def FVal.cmp : FVal → FVal → Option Ordering
  | .nan, _ | _, .nan => none
  | .inf s, .inf t => some (if s = t then .eq else if s then .lt else .gt)
  | .inf s, .fin .. => some (if s then .lt else .gt)
  | .fin .., .inf s => some (if s then .gt else .lt)
  | .fin s p, .fin t q =>
    some (if signed s p < signed t q then .lt else if signed s p = signed t q then .eq else .gt)

/-- The value of a relational operator when the operands compare as given, or not at all. -/
def BOp.onCmp : Option Ordering → BOp → Option Bool
  | some c, o => o.onOrder c
  | none, .ne => some true
  | none, .eq | none, .lt | none, .le | none, .gt | none, .ge => some false
  | none, _ => none

end Dredd
