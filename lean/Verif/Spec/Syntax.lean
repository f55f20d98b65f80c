/-
Specification: places in a syntax tree, and the order of places.  Nothing here
refers to the visitor.
-/
import Verif.Model.Ast

namespace Dredd

/-- `Place root p above n`: following the child indices `p` from `root` leads to
`n`; `above` are the ancestors, nearest first, each with the index of the child
that was taken. -/
inductive Place (root : Node) : List Nat → List (Node × Nat) → Node → Prop
  | root : Place root [] [] root
  | kid {p above n i k} : Place root p above n → n.kids[i]? = some k →
      Place root (p ++ [i]) ((n, i) :: above) k

/-- The declaration is a function. -/
def Decl.isFunction (d : Decl) : Prop := ∃ constexpr placeholder, d.kind = .func constexpr placeholder

/-- The declaration is a variable (a parameter is one too). -/
def Decl.isVariable (d : Decl) : Prop :=
  (∃ v, d.kind = .var v) ∨ (∃ loc, d.kind = .varLike loc) ∨ d.kind = .parm

/-- Going up from a place, the first declaration that is not a variable is a
function.  (Translation units are not inside anything.) -/
def InFunction (above : List (Node × Nat)) : Prop :=
  ∃ pre d ks i post, above = pre ++ (.decl d ks, i) :: post ∧ d.isFunction ∧
    ∀ x ∈ pre, ∀ d' ks', x.1 = .decl d' ks' → d'.isVariable ∨ d'.isTU = true

/-- The class of the expression that a node is. -/
def Node.cls? : Node → Option ExprCls
  | .stmt ⟨.expr e, _, _, _, _, _, _, _, _⟩ _ => some e.cls
  | _ => none

/-- Below the node, at its child `i`, code is evaluated at compile time or not at
all, or is part of a type, or is otherwise not to be changed: constant
expressions, `noexcept` operators, user-defined literals, the labels of a `case`,
`constexpr` functions, variables that are `constexpr` or must be initialised at
compile time, static assertions, parameters, template arguments, lambda captures
and arrays of constant or dependent size, and in C++ of variable size. -/
def CompileTime (l : Lang) : Node × Nat → Prop
  | (.stmt s ks, i) =>
    (∃ e, s.kind = .expr e ∧ (e.cls = .constant ∨ e.cls = .noexcept ∨ e.cls = .userLiteral ∨
      (∃ a adl m, e.cls = .call (some a) adl m) ∨ ∃ imp, e.cls = .cast imp true)) ∨
    (s.kind = .case_ ∧ i + 1 ≠ ks.length)
  | (.decl d _, _) =>
    (∃ p, d.kind = .func true p) ∨
    (∃ v, d.kind = .var v ∧ (v.constexpr = true ∨ v.constInit = true ∨
      (l.cpp = false ∧ v.staticLocal = true))) ∨
    (∃ a, d.kind = .staticAssert a) ∨ d.kind = .parm ∨ (d.isTU = false ∧ d.range = none)
  | (.other k _, _) =>
    k = .constArrayType ∨ k = .depArrayType ∨ k = .templateArg ∨ k = .lambdaCapture ∨
    (l.cpp = true ∧ k = .varArrayType)

/-- The child is evaluated at compile time or not at all: an expression that is
the operand of `sizeof` or `alignof`, the condition of an `if constexpr`, the
array size of a `new`. -/
def CompileTimeChild (parent kid : Node) : Prop :=
  ∃ s' ks', kid = .stmt s' ks' ∧
    (parent.cls? = some (.sizeOrAlign true) ∨
     (parent.cls? = some .new ∧ s'.role = .newSize) ∨
     (s'.role = .ifCond ∧ ∃ s ks, parent = .stmt s ks ∧ s.kind = .if_ true))

/-- Places where the English of C40 forbids mutants but which `CompileTime` does
not cover: anything below `sizeof` or any kind of `alignof`, in any array type,
in a lambda that is `constexpr`. -/
def OtherCompileTime : Node × Nat → Prop
  | (.stmt s _, _) =>
    ∃ e, s.kind = .expr e ∧ ((∃ b, e.cls = .sizeOrAlign b) ∨ e.cls = .lambda true)
  | (.decl _ _, _) => False
  | (.other k _, _) => k = .varArrayType

/-- No two neighbours in the chain from a node to the root are related. -/
def NoPair (R : Node → Node → Prop) : Node → List (Node × Nat) → Prop
  | _, [] => True
  | k, (n, _) :: above => ¬ R n k ∧ NoPair R n above

/-- The node with these ancestors is an item of a compound statement, possibly
after labels. -/
def ItemOfBlock (above : List (Node × Nat)) : Prop :=
  ∃ labels s ks i post, above = labels ++ (.stmt s ks, i) :: post ∧ s.kind = .compound ∧
    ∀ x ∈ labels, ∃ s' ks', x.1 = .stmt s' ks' ∧ (s'.kind = .case_ ∨ s'.kind = .default_)

/-- The span of the code that a mutation is about. -/
def Mutation.span : Mutation → Span
  | .un s => s.span
  | .bin s => s.span
  | .expr s => s.span
  | .stmt s => s.span

/-- The mutation removes a statement. -/
def Mutation.isRemoval : Mutation → Bool
  | .stmt _ => true
  | _ => false

/-- The kind of a mutation: of an operator, of an expression, removal. -/
def Mutation.rank : Mutation → Nat
  | .un _ => 0
  | .bin _ => 0
  | .expr _ => 1
  | .stmt _ => 2

/-- The order in which mutations should come: those inside before those around,
those further left before those further right, and for the same place the
operator, the expression, the removal. -/
def Before (a b : List Nat × Mutation) : Prop :=
  (∃ i r, a.1 = b.1 ++ i :: r) ∨
  (∃ p i j r r', i < j ∧ a.1 = p ++ i :: r ∧ b.1 = p ++ j :: r') ∨
  (a.1 = b.1 ∧ a.2.rank < b.2.rank)

end Dredd
