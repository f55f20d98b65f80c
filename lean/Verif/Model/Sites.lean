/-
The places in the source that are mutated, the edits that are made to the
source, and the records written for them.
-/
import Verif.Model.Gen

namespace Dredd

/-- `SourceLocation` (dredd.proto 45-48). -/
structure Loc where
  line : Nat
  column : Nat
deriving DecidableEq, Repr

/-- `InfoForSourceRange` (util.cc 121-166; see `Model/Util.lean` for how it is
computed). -/
structure RangeInfo where
  start : Loc
  fin : Loc
  snippet : Text
deriving DecidableEq, Repr

/-- A range of the main file, `[b, e)` in character offsets, as obtained from
`GetSourceRangeInMainFile` (util.cc 192-214): `b` is the offset of the first
token, `e` the offset just after the last token (which is where
`Rewriter::InsertTextAfterToken` inserts). -/
structure Span where
  b : Nat
  e : Nat
deriving DecidableEq, Repr

/-- Inserted text is built from fixed text and file-local mutation ids
(`std::to_string(local_mutation_id)`); keeping the two apart lets theorems talk
about the ids without parsing the text. (for instance
mutation_replace_binary_operator.cc 696.) -/
inductive Piece
  | txt (t : Text)
  | id (n : Nat)
deriving DecidableEq, Repr

/-- Text of a piece. (for instance mutation_replace_binary_operator.cc 696.) -/
def Piece.render : Piece → Text
  | .txt t => t
  | .id n => natDec n

/-- Text of several pieces. (for instance mutation_replace_binary_operator.cc 696.) -/
def renderPieces (ps : List Piece) : Text := ps.flatMap Piece.render

/-- Calls of `clang::Rewriter`, in terms of offsets in the original file.
* `before o t` – `InsertTextBefore`.
* `after o t` – `InsertTextAfterToken` for the token that ends at `o`.
* `replace o n t` – `ReplaceText(loc, n, t)`.
(for instance mutation_replace_binary_operator.cc 657, 699, 702.) -/
inductive Edit
  | before (o : Nat) (t : List Piece)
  | after (o : Nat) (t : List Piece)
  | replace (o : Nat) (n : Nat) (t : Text)
deriving DecidableEq, Repr

/-- `Rewriter::ReplaceText` for an operator token (mutation_replace_binary_operator.cc
657-662, mutation_replace_unary_operator.cc 412-417).  The location is not mapped to the
main file as ranges are; if it is in a macro expansion, clang refuses to replace
(`Rewriter::isRewritable`), and the result, which says so, is not looked at. -/
def replaceSymbol (o : Option Nat) (n : Nat) (t : Text) : List Edit :=
  match o with
  | some o => [.replace o n t]
  | none => []

/-- A binary operator to be mutated (`MutationReplaceBinaryOperator`, ctor at
mutation_replace_binary_operator.cc 40-52). -/
structure BinSite where
  op : BOp
  lhs : ExprInfo
  rhs : ExprInfo
  /-- `binary_operator_->getType()`; 559 -/
  resTy : BTy
  /-- where the operator token is, unless it comes from a macro expansion; 658 -/
  opOff : Option Nat
  span : Span
  lhsSpan : Span
  rhsSpan : Span
  info : RangeInfo
  lhsInfo : RangeInfo
  rhsInfo : RangeInfo
  /-- statement class and address shown by --show-ast-node-types; 667-672 -/
  node : Text
deriving DecidableEq, Repr

/-- A unary operator to be mutated (`MutationReplaceUnaryOperator`, ctor at
mutation_replace_unary_operator.cc 36-45). -/
structure UnSite where
  op : UOp
  /-- the operand -/
  sub : ExprInfo
  /-- the whole expression -/
  self : ExprInfo
  /-- where the operator token is, unless it comes from a macro expansion; 413 -/
  opOff : Option Nat
  span : Span
  info : RangeInfo
  subInfo : RangeInfo
  node : Text
deriving DecidableEq, Repr

/-- An expression to be mutated (`MutationReplaceExpr`, ctor at
mutation_replace_expr.cc 61-66). -/
structure ExprSite where
  self : ExprInfo
  /-- the opcode if the expression is a binary operator; 734-735, 830-831, 580 -/
  binOp : Option BOp
  /-- the expression is a direct operand of a logical operator; 878-884 -/
  logicalArg : Bool
  /-- `CanMutateLValue` (695-716) -/
  canMutateLValue : Bool
  /-- type of the implicit cast the expression is subject to in an initializer
  list, if any; 598-616, 889-907 -/
  initListCast : Option BTy
  /-- `PrecedingCharacterIsIdentifierCharacter`; 41-57, 627-630 -/
  precIdent : Bool
  span : Span
  info : RangeInfo
  node : Text
deriving DecidableEq, Repr

/-- A statement to be removed (`MutationRemoveStmt`, ctor at
mutation_remove_stmt.cc 36-41). -/
structure StmtSite where
  /-- the statement, before extension by comments and semicolon -/
  span : Span
  /-- end of the range after extension over comments and a semicolon; 61-97 -/
  extEnd : Nat
  /-- 70-86 -/
  extComment : Bool
  /-- 88-97 -/
  extSemi : Bool
  /-- `IsNextTokenHash` (163-176) -/
  nextHash : Bool
  info : RangeInfo
  node : Text
deriving DecidableEq, Repr

/-- `Mutation` (mutation.h) and its four subclasses. (mutation.h 30-57.) -/
inductive Mutation
  | bin (s : BinSite)
  | un (s : UnSite)
  | expr (s : ExprSite)
  | stmt (s : StmtSite)
deriving DecidableEq, Repr

/-- `MutationGroup` (dredd.proto 36-205). -/
inductive Group
  | removeStmt (id : Nat) (info : RangeInfo)
  | replaceExpr (info : RangeInfo) (insts : List (Nat × EAct))
  | replaceBin (op : PBOp) (info lhs rhs : RangeInfo) (insts : List (Nat × BAct))
  | replaceUn (op : PUOp) (info sub : RangeInfo) (insts : List (Nat × UAct))
deriving DecidableEq, Repr

/-- The ids listed in a group. (dredd.proto 36-51.) -/
def Group.ids : Group → List Nat
  | .removeStmt id _ => [id]
  | .replaceExpr _ is => is.map (·.1)
  | .replaceBin _ _ _ _ is => is.map (·.1)
  | .replaceUn _ _ _ is => is.map (·.1)

/-- What `Mutation::Apply` does: the group it returns, the new value of the id
counter, its calls of the rewriter in order, and the function definitions it adds to
the set of declarations. (mutation.h 44-56.) -/
structure Applied where
  group : Group
  nextId : Nat
  edits : List Edit
  decls : List MutFn
deriving Repr

end Dredd
