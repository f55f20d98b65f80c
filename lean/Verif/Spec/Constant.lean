/-
Integer constants in a program and the literals that denote them.
-/
import Verif.Model.Ast
import Verif.Spec.Env

namespace Dredd

/-- The constant occurs in the template argument. -/
inductive TArg.Mentions (a : ConstArg) : TArg → Prop
  | expr : TArg.Mentions a (.expr a)
  | type {args x} : x ∈ args → TArg.Mentions a x → TArg.Mentions a (.type args)

/-- The node uses an integer constant: as the size of an array, as a template
argument in the type of a variable, or as the argument of
`__builtin_frame_address`. -/
inductive UsesConstant (a : ConstArg) : Node → Prop
  | field {d ks constArray dims} : d.kind = .field constArray dims → a ∈ dims →
      UsesConstant a (.decl d ks)
  | var {d ks v} : d.kind = .var v → a ∈ v.dims → UsesConstant a (.decl d ks)
  | template {d ks v x} : d.kind = .var v → x ∈ v.targs → x.Mentions a → UsesConstant a (.decl d ks)
  | frame {s ks e adl member} : s.kind = .expr e → e.cls = .call (some a) adl member →
      UsesConstant a (.stmt s ks)

/-- The node is a static assertion of the constant. -/
def Asserts (a : ConstArg) (n : Node) : Prop := ∃ d ks, n = .decl d ks ∧ d.kind = .staticAssert a

/-- The text is an integer literal of C and C++ with the given value: decimal, so
it does not begin with `0` unless it is `0`. -/
def IntLiteral (t : Text) (v : Int) : Prop :=
  (t = ['0'] ∧ v = 0) ∨
  (∃ c rest, t = c :: rest ∧ c ≠ '0' ∧ (∀ x ∈ t, IsDigit x) ∧ v = decVal t)

end Dredd
