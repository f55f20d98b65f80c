/-
Abstract syntax trees as the visitor sees them: for every node the facts that
mutate_visitor.cc asks clang about, and the children in the order in which
clang's `RecursiveASTVisitor` hands them to the `Traverse..` methods.  Clang's
trees and its `RecursiveASTVisitor` are external; there is nothing in /repo that
defines them, so the citations say where the facts are used.
-/
import Verif.Model.GenExpr

namespace Dredd

/-- An integer constant as clang holds it (`llvm::APSInt`;
mutate_ast_consumer.cc 200-205, 227-232). -/
structure ApInt where
  width : Nat
  signed : Bool
  bits : BitVec width
deriving DecidableEq, Repr

/-- The value that the constant denotes. (What the literal put in place of the
constant should denote; mutate_ast_consumer.cc 198-205, 227-232.) -/
def ApInt.value (a : ApInt) : Int := if a.signed then a.bits.toInt else a.bits.toNat

/-- `APInt::getLimitedValue()` (called in mutate_ast_consumer.cc 205, 232; the
function is LLVM's): the bits as an unsigned number, at most `UINT64_MAX`. -/
def ApInt.limited (a : ApInt) : Nat := min a.bits.toNat (2 ^ 64 - 1)

/-- A constant expression that may be rewritten (mutate_ast_consumer.cc
177-235): which expression it is (its address, 220-226), its range
(`GetSourceRangeInMainFile`, 239-240) and its value (`getSize()`, 200-205;
`getIntegerConstantExpr`, 227-229). -/
structure ConstArg where
  addr : Nat
  range : Option Span
  value : Option ApInt
deriving DecidableEq, Repr

/-- A template argument (mutate_visitor.cc 864-889): an expression, a type that
is a template specialisation with its own arguments, or something else. -/
inductive TArg
  | expr (e : ConstArg)
  | type (args : List TArg)
  | other
deriving Repr

/-- Facts about a variable (mutate_visitor.cc 166-209, 727).
* `loc` – `getLocation()`.
* `targs` – the arguments if its type is a template specialisation, else none.
* `dims` – if its type is a constant-sized array, the size expressions, outermost
  first (mutate_ast_consumer.cc 195-207). -/
structure VarFacts where
  loc : Nat
  constArray : Bool
  dims : List ConstArg
  targs : List TArg
  constexpr : Bool
  constInit : Bool
  staticLocal : Bool
deriving Repr

/-- The kinds of declarations that the visitor distinguishes (mutate_visitor.cc
72-209).  `func`: `FunctionDecl` and its subclasses; `placeholder` is the offset
of its beginning if it is called `__dredd_prelude_start` (135-140).  `var`:
exactly `VarDecl`; `varLike`: a subclass other than `ParmVarDecl`. -/
inductive DeclKind
  | tu
  | staticAssert (arg : ConstArg)
  | func (constexpr : Bool) (placeholder : Option Nat)
  | field (constArray : Bool) (dims : List ConstArg)
  | var (v : VarFacts)
  | varLike (loc : Nat)
  | parm
  | other
deriving Repr

/-- A declaration; `range` is `GetSourceRangeInMainFile` (mutate_visitor.cc
110-116). -/
structure Decl where
  kind : DeclKind
  range : Option Span
deriving Repr

/-- `dyn_cast<TranslationUnitDecl>` (mutate_visitor.cc 101). -/
def Decl.isTU (d : Decl) : Bool :=
  match d.kind with
  | .tu => true
  | _ => false

/-- What a child is for its parent, as far as the visitor asks: the condition of
an `if` (mutate_visitor.cc 251), the array size of a `new` (261), an argument of
a call (852), the base of a member expression (839), the operand of a unary
operator or a cast (373, 532), the operands of a binary operator (438-441). -/
inductive Role
  | plain | ifCond | newSize | callArg | base | operand | lhs | rhs
deriving DecidableEq, Repr

/-- The classes of expressions that the visitor distinguishes.
* `userLiteral`, `constant`, `noexcept` – mutate_visitor.cc 219-233.
* `sizeOrAlign both` – `UnaryExprOrTypeTraitExpr`; `both`: its kind is
  `UETT_SizeOf` or `UETT_AlignOf` (239-246).
* `new` – 259-264.
* `call frame adl member` – `CallExpr`: the callee is `__builtin_frame_address`
  with the given argument (271-278), uses argument-dependent lookup (769), is a
  `CXXMemberCallExpr` (796, 809).
* `cast implicit decltype` – `CastExpr` (282-286, 531, 549, 747, 794).
* `paren`, `cleanups`, `initList`, `temporary`, `member`, `construct`, `enumRef`
  – 587, 593, 503, 827, 832, 752, 758-763.
* `unary`, `binary` – 649-655.
* `lambda constexpr` – `LambdaExpr`; clang's traversal goes to its captures,
  parameters and body, not to the function it stands for. -/
inductive ExprCls
  | userLiteral | constant | noexcept
  | sizeOrAlign (both : Bool)
  | new
  | call (frame : Option ConstArg) (adl member : Bool)
  | cast (implicit decltype : Bool)
  | paren | cleanups | initList | temporary | member | construct | enumRef
  | unary (op : UOp)
  | binary (op : BOp)
  | lambda (constexpr : Bool)
  | other
deriving DecidableEq, Repr

/-- The implicit cast around an element of an initializer list in the list's
semantic form; it is a second parent of the element (mutation_replace_expr.cc
889-907, mutate_visitor.cc 549-562). -/
structure InitCast where
  lvalue : Bool
  anyPointer : Bool
  ty : Option BTy
deriving DecidableEq, Repr

/-- Facts about an expression.
* `ty` – the builtin type, if the type is supported (mutate_visitor.cc 63-70).
* `anyPointer`, `pointer` – `isAnyPointerType`, `isPointerType` (516, 837, 851).
* `bitField` – `refersToBitField` (394, 460, 532; mutation_replace_expr.cc 705).
* `noAddress` – the address of the object cannot be taken although it is not a bit-field: it is a variable
  declared `register` in C, or an element of a vector.  The code does not ask for this where it asks for
  bit-fields (394, 460; mutation_replace_expr.cc 705).
* `mustBeConst` – an argument that a builtin function requires to be an integer constant; the code knows this of
  `__builtin_frame_address` only (266-278) and does not ask for it otherwise.
* `nullConst` – `isNullPointerConstant` is not `NPCK_NotNull` (510-513).
* `consistent` – `SourceRangeConsistencyCheck` (626; `Model/Util.lean`).
* `beginLoc` – `getBeginLoc()` (606).
* `opOff` – offset of the operator if it is not in a macro expansion, `precIdent` – see `Model/Sites.lean`.
The others are as in `ExprInfo`. -/
structure ExprFacts where
  cls : ExprCls
  ty : Option BTy
  lvalue : Bool
  volatile : Bool
  const : Bool
  sideEffects : Bool
  intVal : Option Int
  floatVal : Option FConst
  boolVal : Option Bool
  cxx11Const : Bool
  anyPointer : Bool
  pointer : Bool
  bitField : Bool
  nullConst : Bool
  consistent : Bool
  beginLoc : Nat
  initCast : Option InitCast
  opOff : Option Nat
  precIdent : Bool
  noAddress : Bool := false
  mustBeConst : Bool := false
deriving DecidableEq, Repr

/-- The kinds of statements that the visitor distinguishes (mutate_visitor.cc
211-299, 662-720).  The children of a `case` are the labels and, last, the
statement. -/
inductive StmtKind
  | compound
  | case_
  | default_
  | null
  | declStmt
  | label
  | if_ (constexpr : Bool)
  | other
  | expr (e : ExprFacts)
deriving DecidableEq, Repr

/-- A statement or expression.
* `range` – `GetSourceRangeInMainFile`.
* `info`, `node` – what is recorded and shown for it (util.cc 121-166;
  mutation_remove_stmt.cc 103-109).
* `extEnd` .. `nextHash` – what follows it (mutation_remove_stmt.cc 61-97,
  163-176), see `StmtSite`. -/
structure AStmt where
  kind : StmtKind
  role : Role
  range : Option Span
  info : RangeInfo
  node : Text
  extEnd : Nat
  extComment : Bool
  extSemi : Bool
  nextHash : Bool
deriving DecidableEq, Repr

/-- Other things that clang traverses: the kinds of type locations that the
visitor distinguishes, template arguments, lambda captures (mutate_visitor.cc
301-357), and anything else. -/
inductive OtherKind
  | constArrayType | varArrayType | depArrayType | templateArg | lambdaCapture | other
deriving DecidableEq, Repr

/-- Syntax trees. (the trees that mutate_visitor.cc 95-357 walks over.) -/
inductive Node
  | decl (d : Decl) (kids : List Node)
  | stmt (s : AStmt) (kids : List Node)
  | other (k : OtherKind) (kids : List Node)
deriving Repr

/-- A node without its children. (what `GetFirstParentOfType` inspects; util.h
100-109.) -/
inductive NodeInfo
  | decl (d : Decl)
  | stmt (s : AStmt)
  | other (k : OtherKind)
deriving Repr

/-- The node itself. (util.h 100-109.) -/
def Node.info : Node → NodeInfo
  | .decl d _ => .decl d
  | .stmt s _ => .stmt s
  | .other k _ => .other k

/-- The children. (the nodes that mutate_visitor.cc 95-357 is called for next.) -/
def Node.kids : Node → List Node
  | .decl _ ks => ks
  | .stmt _ ks => ks
  | .other _ ks => ks

/-- The facts about an expression of a supported type that the mutations use.
(mutate_visitor.cc 63-70; the uses are cited in `Model/Types.lean`.) -/
def ExprFacts.infoAt (e : ExprFacts) (t : BTy) : ExprInfo where
  ty := t
  lvalue := e.lvalue
  volatile := e.volatile
  const := e.const
  sideEffects := e.sideEffects
  intVal := e.intVal
  floatVal := e.floatVal
  boolVal := e.boolVal
  cxx11Const := e.cxx11Const

/-- The expression that a node is, if it is one. (`VisitExpr` and `dyn_cast`s like
mutate_visitor.cc 514, 549.) -/
def Node.expr? : Node → Option (AStmt × ExprFacts)
  | .stmt s _ =>
    match s.kind with
    | .expr e => some (s, e)
    | _ => none
  | _ => none

/-- The expression that is the child with a role, if there is one. (`getSubExpr`,
`getLHS`, `getRHS`; mutate_visitor.cc 373, 438-441, 532.) -/
def childExpr (r : Role) : List Node → Option (AStmt × ExprFacts)
  | [] => none
  | k :: ks =>
    match k.expr? with
    | some (s, e) => if s.role = r then some (s, e) else childExpr r ks
    | none => childExpr r ks

end Dredd
