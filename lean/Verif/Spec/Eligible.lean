/-
Specification: what should be mutated.  Nothing here refers to the visitor.
-/
import Verif.Spec.Syntax
import Verif.Spec.Tree

namespace Dredd

/-- The first child with a role is this expression. -/
def HasChild (ks : List Node) (r : Role) (s : AStmt) (e : ExprFacts) : Prop :=
  ∃ pre k post, ks = pre ++ k :: post ∧ k.expr? = some (s, e) ∧ s.role = r ∧
    ∀ k' ∈ pre, ∀ s' e', k'.expr? = some (s', e') → s'.role ≠ r

/-- The nearest ancestor. -/
def nearest (above : List (Node × Nat)) : Option Node := above.head?.map (·.1)

/-- The class of the nearest ancestor. -/
def nearestCls (above : List (Node × Nat)) : Option ExprCls := (nearest above).bind Node.cls?

/-- The node is a cast; what it yields. -/
def IsCast (n : Node) (implicit : Bool) (k : InitCast) : Prop :=
  ∃ s ks e dt, n = .stmt s ks ∧ s.kind = .expr e ∧ e.cls = .cast implicit dt ∧
    k = ⟨e.lvalue, e.anyPointer, e.ty⟩

/-- The expression is the operand of a cast: its parent is one, or it is an
element of an initializer list and converted in the semantic form of the list. -/
def Converted (above : List (Node × Nat)) (e : ExprFacts) (k : InitCast) : Prop :=
  (∃ n ∈ nearest above, ∃ imp, IsCast n imp k) ∨
  ((∀ n ∈ nearest above, ∀ imp k', ¬ IsCast n imp k') ∧ e.initCast = some k)

/-- The same for implicit casts only. -/
def ImplicitlyConverted (above : List (Node × Nat)) (e : ExprFacts) (k : InitCast) : Prop :=
  (∃ n ∈ nearest above, IsCast n true k) ∨
  ((∀ n ∈ nearest above, ∀ k', ¬ IsCast n true k') ∧ e.initCast = some k)

/-- An lvalue that may be replaced: it can be modified, is not a truth value and
not a bit-field, and only its value is used. -/
def ReplaceableLValue (above : List (Node × Nat)) (e : ExprFacts) : Prop :=
  e.const = false ∧ e.ty ≠ some .bool ∧ e.bitField = false ∧
    ∃ k, ImplicitlyConverted above e k ∧ k.lvalue = false

/-- An enumeration constant that is converted for a constructor. -/
def EnumForConstructor (above : List (Node × Nat)) (e : ExprFacts) (ks : List Node) : Prop :=
  (∃ dt, e.cls = .cast true dt) ∧ nearestCls above = some .construct ∧
    ∃ s' e', HasChild ks .operand s' e' ∧ e'.cls = .enumRef

/-- A bit-field that is converted to become a temporary object. -/
def BitFieldTemporary (above : List (Node × Nat)) (e : ExprFacts) (ks : List Node) : Prop :=
  (∃ imp dt, e.cls = .cast imp dt) ∧ nearestCls above = some .temporary ∧
    ∃ s' e', HasChild ks .operand s' e' ∧ e'.bitField = true

/-- The parent is a compound statement or a switch case. -/
def ParentIsBlock (above : List (Node × Nat)) : Prop :=
  ∃ s ks, nearest above = some (.stmt s ks) ∧
    (s.kind = .compound ∨ s.kind = .case_ ∨ s.kind = .default_)

/-- Calls for which replacing an argument could change which function is
called. -/
def IsAdlCall (c : Option ExprCls) : Prop := ∃ f m, c = some (.call f true m)

/-- Calls of member functions. -/
def IsMemberCall (c : ExprCls) : Prop := ∃ f a, c = .call f a true

/-- Replacing the expression could change which function is called: it is an
argument of a call that uses argument-dependent lookup, and converted from
something that is not a number or is the result of a member function; or it is
such a result. -/
def AffectsLookup (above : List (Node × Nat)) (e : ExprFacts) (ks : List Node) : Prop :=
  ((∃ dt, e.cls = .cast true dt) ∧ IsAdlCall (nearestCls above) ∧
    ∃ s' e', HasChild ks .operand s' e' ∧ (e'.ty = none ∨ IsMemberCall e'.cls)) ∨
  (IsMemberCall e.cls ∧
    (((∃ n ∈ nearest above, ∃ k, IsCast n true k) ∧ IsAdlCall (nearestCls above.tail)) ∨
     ((∀ n ∈ nearest above, ∀ k, ¬ IsCast n true k) ∧ e.initCast = none ∧
       IsAdlCall (nearestCls above))))

/-- The value may refer to a temporary object, which would be gone after a
function that yields the value returns. -/
inductive RefersToTemporary : Node → Prop
  | temporary {s ks e} : s.kind = .expr e → e.cls = .temporary → RefersToTemporary (.stmt s ks)
  | member {s ks e s' ks'} : s.kind = .expr e → e.cls = .member → (e.lvalue = true ∨ e.pointer = true) →
      .stmt s' ks' ∈ ks → s'.role = .base → RefersToTemporary (.stmt s' ks') →
      RefersToTemporary (.stmt s ks)
  | call {s ks e f a m s' ks'} : s.kind = .expr e → e.cls = .call f a m →
      (e.lvalue = true ∨ e.pointer = true) →
      .stmt s' ks' ∈ ks → s'.role = .callArg → RefersToTemporary (.stmt s' ks') →
      RefersToTemporary (.stmt s ks)

/-- An expression without side effects whose value is not used. -/
def Pointless (n : Node) : Prop := ∃ s ks e, n = .stmt s ks ∧ s.kind = .expr e ∧ e.sideEffects = false

/-- Neither the node nor anything above it is a statement that consists of an
expression without side effects. -/
def NoPointless : Node → List (Node × Nat) → Prop
  | _, [] => True
  | k, (n, i) :: above => ¬ (ItemOfBlock ((n, i) :: above) ∧ Pointless k) ∧ NoPointless n above

/-- The node is in code that is looked at. -/
structure Considered (l : Lang) (opt : Bool) (n : Node) (above : List (Node × Nat)) : Prop where
  outside : ∀ x ∈ above, ¬ CompileTime l x
  pairs : NoPair CompileTimeChild n above
  useful : opt = true → NoPointless n above

/-- The variables of the tree are declared at these locations. -/
def DeclaredAt (root : Node) (loc : Nat) : Prop :=
  ∃ p above d ks, Place root p above (.decl d ks) ∧
    ((∃ v, d.kind = .var v ∧ v.loc = loc) ∨ d.kind = .varLike loc)

/-- An expression of the main file, of supported type, to which mutations may be
applied. -/
structure ExprOk (l : Lang) (opt : Bool) (above : List (Node × Nat)) (s : AStmt) (e : ExprFacts)
    (ks : List Node) (sp : Span) (t : BTy) : Prop where
  considered : Considered l opt (.stmt s ks) above
  self : ¬ CompileTime l (.stmt s ks, 0)
  kind : s.kind = .expr e
  inFunction : InFunction above
  range : s.range = some sp
  ty : e.ty = some t
  consistent : e.consistent = true
  lookup : ¬ AffectsLookup above e ks
  temporary : ¬ RefersToTemporary (.stmt s ks)
  wrapper : opt = true → e.cls ≠ .paren ∧ e.cls ≠ .cleanups

/-- The expression may be replaced as a whole. -/
structure Replaceable (opt : Bool) (above : List (Node × Nat)) (e : ExprFacts) (ks : List Node) :
    Prop where
  lvalue : e.lvalue = true → ReplaceableLValue above e
  initList : e.cls ≠ .initList
  null : ¬ (e.nullConst = true ∧ ∃ k, Converted above e k ∧ k.anyPointer = true)
  enum : ¬ EnumForConstructor above e ks
  bitField : ¬ BitFieldTemporary above e ks
  cast : opt = true → ¬ ((∃ k, Converted above e k ∧ k.lvalue = e.lvalue) ∧
    nearestCls above ≠ some .initList)
  block : opt = true → ¬ ParentIsBlock above

/-- The expression is an operand of a logical operator. -/
def LogicalArg (above : List (Node × Nat)) (s : AStmt) : Prop :=
  (nearestCls above = some (.binary .land) ∨ nearestCls above = some (.binary .lor)) ∧
    (s.role = .lhs ∨ s.role = .rhs)

/-- The expression, possibly in parentheses, is an element of an initializer list and converted there,
to a value of type `t`. -/
inductive CastInList : List (Node × Nat) → ExprFacts → BTy → Prop
  | element {above e k t} : nearestCls above = some .initList → e.initCast = some k → k.ty = some t →
      CastInList above e t
  | paren {s ks i above e e' t} : s.kind = .expr e' → e'.cls = .paren → CastInList above e' t →
      CastInList ((.stmt s ks, i) :: above) e t

/-- The mutation is that of the expression as a whole. -/
def Mutation.IsExpr (m : Mutation) (above : List (Node × Nat)) (s : AStmt) (e : ExprFacts) (sp : Span)
    (t : BTy) : Prop :=
  ∃ x, m = .expr x ∧ x.self = e.infoAt t ∧ x.span = sp ∧ x.info = s.info ∧ x.node = s.node ∧
    (∀ op, x.binOp = some op ↔ e.cls = .binary op) ∧ (x.logicalArg = true ↔ LogicalArg above s) ∧
    (x.canMutateLValue = true ↔ ReplaceableLValue above e) ∧ x.precIdent = e.precIdent ∧
    ∀ t', x.initListCast = some t' ↔ CastInList above e t'

/-- The mutation is that of the unary operator. -/
def Mutation.IsUnary (m : Mutation) (s : AStmt) (ks : List Node) (e : ExprFacts) (sp : Span) (t : BTy)
    (op : UOp) (e' : ExprFacts) (t' : BTy) : Prop :=
  ∃ x, m = .un x ∧ x.op = op ∧ x.sub = e'.infoAt t' ∧ x.self = e.infoAt t ∧ x.opOff = e.opOff ∧
    x.span = sp ∧ x.info = s.info ∧ x.node = s.node ∧
    ∃ s', HasChild ks .operand s' e' ∧ x.subInfo = s'.info

/-- The mutation is that of the binary operator. -/
def Mutation.IsBinary (m : Mutation) (s : AStmt) (e : ExprFacts) (sp : Span) (t : BTy) (op : BOp)
    (sl : AStmt) (el : ExprFacts) (tl : BTy) (sr : AStmt) (er : ExprFacts) (tr : BTy) : Prop :=
  ∃ x, m = .bin x ∧ x.op = op ∧ x.lhs = el.infoAt tl ∧ x.rhs = er.infoAt tr ∧ x.resTy = t ∧
    x.opOff = e.opOff ∧ x.span = sp ∧ some x.lhsSpan = sl.range ∧ some x.rhsSpan = sr.range ∧
    x.info = s.info ∧ x.node = s.node ∧ x.lhsInfo = sl.info ∧ x.rhsInfo = sr.info

/-- The number that a floating-point constant is, if it is told apart. -/
def FConst.value? : FConst → Option Int
  | .zero => some 0
  | .one => some 1
  | .minusOne => some (-1)
  | .other => none

/-- The expression is known to have a value. -/
def ValueIs (e : ExprFacts) (t : BTy) (n : Int) : Prop :=
  (t.isInteger = true ∧ e.intVal = some n) ∨
  (t.isFloat = true ∧ ∃ f, e.floatVal = some f ∧ f.value? = some n)

/-- The unary operator may be replaced: it is not `+`, its operand is in the main
file and of supported type; an increment or decrement is not of a bit-field; with
optimisation, it is not `-1`, `~0` or `~1`. -/
structure UnaryOk (opt : Bool) (e : ExprFacts) (ks : List Node) (op : UOp) (e' : ExprFacts) (t' : BTy) :
    Prop where
  cls : e.cls = .unary op
  operand : ∃ s' sp', HasChild ks .operand s' e' ∧ s'.range = some sp'
  ty : e'.ty = some t'
  plus : op ≠ .plus
  bitField : op = .preInc ∨ op = .preDec ∨ op = .postInc ∨ op = .postDec → e'.bitField = false
  const : opt = true → ¬ (op = .minus ∧ ValueIs e' t' 1) ∧
    ¬ (op = .not ∧ (ValueIs e' t' 0 ∨ ValueIs e' t' 1))

/-- The binary operator may be replaced: it is not the comma, its operands are in
the main file and of supported type; a bit-field is not assigned to; with
optimisation, the operands are not 0 and 1. -/
structure BinaryOk (opt : Bool) (e : ExprFacts) (ks : List Node) (op : BOp) (sl : AStmt)
    (el : ExprFacts) (tl : BTy) (sr : AStmt) (er : ExprFacts) (tr : BTy) : Prop where
  cls : e.cls = .binary op
  lhs : HasChild ks .lhs sl el
  rhs : HasChild ks .rhs sr er
  lrange : sl.range.isSome = true
  rrange : sr.range.isSome = true
  lty : el.ty = some tl
  rty : er.ty = some tr
  comma : op ≠ .comma
  bitField : op ∈ [.assign, .mulAssign, .divAssign, .remAssign, .addAssign, .subAssign, .shlAssign,
    .shrAssign, .andAssign, .xorAssign, .orAssign] → el.bitField = false
  const : opt = true → ¬ (ValueIs el tl 0 ∧ ValueIs er tr 1)

/-- The statement may be removed: it is an item of a compound statement, in the
main file, and not empty, a declaration or a label; with optimisation, it is not
itself a compound statement. -/
structure Removable (opt : Bool) (above : List (Node × Nat)) (s : AStmt) (sp : Span) : Prop where
  item : ItemOfBlock above
  range : s.range = some sp
  kind : s.kind ∉ [.null, .declStmt, .label, .case_, .default_]
  block : opt = true → s.kind ≠ .compound

/-- The mutation removes the statement. -/
def Mutation.IsRemovalOf (m : Mutation) (s : AStmt) (sp : Span) : Prop :=
  ∃ x, m = .stmt x ∧ x.span = sp ∧ x.extEnd = s.extEnd ∧ x.extComment = s.extComment ∧
    x.extSemi = s.extSemi ∧ x.nextHash = s.nextHash ∧ x.info = s.info ∧ x.node = s.node

/-- Trees as clang builds them: the items of a compound statement are statements,
a `default` has one child, which is a statement, and so is the last child of a
`case`. -/
def WellFormed (root : Node) : Prop :=
  ∀ p above s ks, Place root p above (.stmt s ks) →
    (s.kind = .compound → ∀ k ∈ ks, ∃ s' ks', k = .stmt s' ks') ∧
    (s.kind = .case_ → ∀ k ∈ ks, ∃ s' ks', k = .stmt s' ks') ∧
    (s.kind = .default_ → ∃ s' ks', ks = [.stmt s' ks'])

end Dredd
