/-
Integer arithmetic of C and C++: types of any width, signed overflow and
division by zero undefined.
-/
import Verif.Spec.Truth

namespace Dredd

/-- What a target says about integer types. -/
structure Platform where
  /-- number of bits -/
  width : BTy → Nat
  width_gt : ∀ t, 1 < width t
  /-- integer promotion -/
  prom : BTy → BTy
  /-- shifting negative numbers to the left, or shifting bits out of a signed
  number, is defined (C++20) -/
  shlDefined : Bool

variable (P : Platform) (l : Lang)

/-- The smallest and the largest number of a type. -/
def Platform.lo (t : BTy) : Int :=
  if t.isBool then 0 else if t.isSigned l then -2 ^ (P.width t - 1) else 0

@[inherit_doc Platform.lo]
def Platform.hi (t : BTy) : Int :=
  if t.isBool then 1 else if t.isSigned l then 2 ^ (P.width t - 1) - 1 else 2 ^ P.width t - 1

/-- `v` is a value of the type. -/
def Platform.Holds (t : BTy) (v : Int) : Prop := P.lo l t ≤ v ∧ v ≤ P.hi l t

instance (t : BTy) (v : Int) : Decidable (P.Holds l t v) := by
  unfold Platform.Holds; infer_instance

/-- Conversion to a type: truth value for `bool`, otherwise modulo the number
of values. -/
def Platform.conv (t : BTy) (v : Int) : Int :=
  if t.isBool then (if v = 0 then 0 else 1)
  else if P.Holds l t v then v
  else if t.isSigned l then v.bmod (2 ^ P.width t) else v % 2 ^ P.width t

/-- The result of an operation in a type: signed overflow is undefined,
unsigned arithmetic is modulo the number of values. -/
def Platform.result (t : BTy) (v : Int) : Option Int :=
  if t.isSigned l then (if P.Holds l t v then some v else none) else some (P.conv l t v)

/-- The number of a bit pattern. -/
def Platform.ofBits (t : BTy) (x : BitVec (P.width t)) : Int :=
  if t.isSigned l then x.toInt else x.toNat

/-- The bit pattern of a number. -/
def Platform.bits (t : BTy) (v : Int) : BitVec (P.width t) := BitVec.ofInt _ v

/-- All bits flipped. -/
def Platform.flip (t : BTy) (v : Int) : Int := P.ofBits l t (~~~ P.bits t v)

/-- Arithmetic, shift and bitwise operators in type `t`. -/
def Platform.bin (t : BTy) (a b : Int) : BOp → Option Int
  | .add => P.result l t (a + b)
  | .sub => P.result l t (a - b)
  | .mul => P.result l t (a * b)
  | .div => if b = 0 then none else P.result l t (a.tdiv b)
  | .rem => if b = 0 then none
      else if (P.result l t (a.tdiv b)).isNone then none else P.result l t (a.tmod b)
  | .shl => if b < 0 ∨ P.width t ≤ b then none
      else if t.isSigned l && !P.shlDefined && decide (a < 0) then none
      else if t.isSigned l && P.shlDefined then some (P.conv l t (a * 2 ^ b.toNat))
      else P.result l t (a * 2 ^ b.toNat)
  | .shr => if b < 0 ∨ P.width t ≤ b then none else some (a / 2 ^ b.toNat)
  | .and => some (P.ofBits l t (P.bits t a &&& P.bits t b))
  | .or => some (P.ofBits l t (P.bits t a ||| P.bits t b))
  | .xor => some (P.ofBits l t (P.bits t a ^^^ P.bits t b))
  | _ => none

/-- `-`, `~` and `!` on a value of type `t`, the result converted to type
`r`. -/
def Platform.un (t r : BTy) (v : Int) : UOp → Option Int
  | .minus => (P.result l (P.prom t) (-v)).map (P.conv l r)
  | .not => some (P.conv l r (P.flip l (P.prom t) v))
  | .lnot => some (P.conv l r (if v = 0 then 1 else 0))
  | _ => none

end Dredd
