/-
A small machine used in examples and counterexamples: one variable `x`, whose
address is 0; unbounded integers.
-/
import Verif.Spec.Order
import Verif.Proofs.Devices
import Verif.Spec.Samples

namespace Dredd.Sample

/-- The machine. -/
def machine (std : Std) : Machine Int Int where
  std := std
  bin op a b s :=
    match op with
    | .add => some (a + b, s)
    | .sub => some (a - b, s)
    | .mul => some (a * b, s)
    | .div => if b = 0 then none else some (a / b, s)
    | .shl => if b < 0 then none else some (a * 2 ^ b.toNat, s)
    | .eq => some (if a = b then 1 else 0, s)
    | .ne => some (if a = b then 0 else 1, s)
    | .assign => if a = 0 then some (b, b) else none
    | _ => none
  un op a s :=
    match op with
    | .minus => some (-a, s)
    | .preInc => if a = 0 then some (s + 1, s + 1) else none
    | .preDec => if a = 0 then some (s - 1, s - 1) else none
    | _ => none
  truth v := some (decide (v ≠ 0))
  ofBool x := if x then 1 else 0
  lit l :=
    match l with
    | .zero | .false_ | .zeroF => 0
    | .one | .true_ | .oneF => 1
    | .minusOne | .minusOneF => -1
  conv _ v s := some (v, s)

/-- `x` -/
def read (x : Int) : Option (Int × Int) := some (x, x)
/-- `++x` -/
def inc (x : Int) : Option (Int × Int) := some (x + 1, x + 1)
/-- A literal. -/
def num (n : Int) : Comp Int Int := .pure n

/-- A computation of the program as a computation of the instrumented program. -/
def up {D α : Type} (f : Int → Option (α × Int)) : Comp (Int × D) α := .lift (liftState f)

/-- The prelude of the first file of a C++ program with `n` mutants, variable
unset. -/
def unset (n : Nat) : Device Thread := mutatingPrelude true 0 n none

theorem unset_faithful (n : Nat) :
    (unset n).Faithful (PreludeOk 0 n []) (fun i => inList [] (0 + i)) n :=
  mutatingPrelude_faithful true 0 n none [] (.inl ⟨rfl, rfl⟩) (by simp)

/-- An `int` call. -/
def intCall : ExprInfo := { intVal with sideEffects := true }

end Dredd.Sample
