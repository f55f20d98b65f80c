/-
Operators of the C family, as clang enumerates them, and the tables of the
tool that are indexed by them.
-/
import Verif.Model.Types

namespace Dredd

/-- `clang::BinaryOperatorKind`: every kind clang has. (the kinds that
mutation_replace_binary_operator.cc 95-192 can be asked about.) -/
inductive BOp
  | ptrMemD | ptrMemI
  | mul | div | rem | add | sub | shl | shr | cmp
  | lt | gt | le | ge | eq | ne
  | and | xor | or | land | lor
  | assign | mulAssign | divAssign | remAssign | addAssign | subAssign
  | shlAssign | shrAssign | andAssign | xorAssign | orAssign
  | comma
deriving DecidableEq, Repr

/-- All binary operator kinds. (the kinds that mutation_replace_binary_operator.cc
95-192 can be asked about.) -/
def BOp.all : List BOp :=
  [.ptrMemD, .ptrMemI, .mul, .div, .rem, .add, .sub, .shl, .shr, .cmp,
   .lt, .gt, .le, .ge, .eq, .ne, .and, .xor, .or, .land, .lor,
   .assign, .mulAssign, .divAssign, .remAssign, .addAssign, .subAssign,
   .shlAssign, .shrAssign, .andAssign, .xorAssign, .orAssign, .comma]

/-- `clang::UnaryOperatorKind`: every kind clang has. (the kinds that
mutation_replace_unary_operator.cc 104-128 can be asked about.) -/
inductive UOp
  | postInc | postDec | preInc | preDec
  | addrOf | deref | plus | minus | not | lnot
  | real | imag | extension | coawait
deriving DecidableEq, Repr

/-- All unary operator kinds. (the kinds that mutation_replace_unary_operator.cc
104-128 can be asked about.) -/
def UOp.all : List UOp :=
  [.postInc, .postDec, .preInc, .preDec, .addrOf, .deref, .plus, .minus,
   .not, .lnot, .real, .imag, .extension, .coawait]

/-- `clang::BinaryOperator::getOpcodeStr`. (mutation_replace_binary_operator.cc 356,
489, 509.) -/
def BOp.str : BOp → Text
  | .ptrMemD => t!".*" | .ptrMemI => t!"->*"
  | .mul => t!"*" | .div => t!"/" | .rem => t!"%" | .add => t!"+"
  | .sub => t!"-" | .shl => t!"<<" | .shr => t!">>" | .cmp => t!"<=>"
  | .lt => t!"<" | .gt => t!">" | .le => t!"<=" | .ge => t!">="
  | .eq => t!"==" | .ne => t!"!="
  | .and => t!"&" | .xor => t!"^" | .or => t!"|"
  | .land => t!"&&" | .lor => t!"||"
  | .assign => t!"=" | .mulAssign => t!"*=" | .divAssign => t!"/="
  | .remAssign => t!"%=" | .addAssign => t!"+=" | .subAssign => t!"-="
  | .shlAssign => t!"<<=" | .shrAssign => t!">>=" | .andAssign => t!"&="
  | .xorAssign => t!"^=" | .orAssign => t!"|="
  | .comma => t!","

/-- `clang::UnaryOperator::getOpcodeStr`. (mutation_replace_unary_operator.cc 213,
219, 238, 311, 315.) -/
def UOp.str : UOp → Text
  | .postInc => t!"++" | .postDec => t!"--" | .preInc => t!"++" | .preDec => t!"--"
  | .addrOf => t!"&" | .deref => t!"*" | .plus => t!"+" | .minus => t!"-"
  | .not => t!"~" | .lnot => t!"!" | .real => t!"__real" | .imag => t!"__imag"
  | .extension => t!"__extension__" | .coawait => t!"co_await"

/-- The operator's part of the mutator function name (`GetFunctionName`,
mutation_replace_binary_operator.cc 95-185).  `none` is the `default:` branch,
an assertion failure. -/
def BOp.fnName? : BOp → Option Text
  | .add => some t!"Add" | .div => some t!"Div" | .mul => some t!"Mul"
  | .rem => some t!"Rem" | .sub => some t!"Sub"
  | .addAssign => some t!"AddAssign" | .andAssign => some t!"AndAssign"
  | .assign => some t!"Assign" | .divAssign => some t!"DivAssign"
  | .mulAssign => some t!"MulAssign" | .orAssign => some t!"OrAssign"
  | .remAssign => some t!"RemAssign" | .shlAssign => some t!"ShlAssign"
  | .shrAssign => some t!"ShrAssign" | .subAssign => some t!"SubAssign"
  | .xorAssign => some t!"XorAssign"
  | .and => some t!"And" | .or => some t!"Or" | .xor => some t!"Xor"
  | .land => some t!"LAnd" | .lor => some t!"LOr"
  | .eq => some t!"EQ" | .ge => some t!"GE" | .gt => some t!"GT"
  | .le => some t!"LE" | .lt => some t!"LT" | .ne => some t!"NE"
  | .shl => some t!"Shl" | .shr => some t!"Shr"
  | .ptrMemD | .ptrMemI | .cmp | .comma => none

/-- The operator's part of the mutator function name (`GetFunctionName`,
mutation_replace_unary_operator.cc 104-128).  `none` is the `default:` branch,
an assertion failure. -/
def UOp.fnName? : UOp → Option Text
  | .minus => some t!"Minus" | .not => some t!"Not"
  | .preDec => some t!"PreDec" | .postDec => some t!"PostDec"
  | .preInc => some t!"PreInc" | .postInc => some t!"PostInc"
  | .lnot => some t!"LNot"
  | .addrOf | .deref | .plus | .real | .imag | .extension | .coawait => none

/-- `clang::BinaryOperator::isAssignmentOp` (used in
mutation_replace_binary_operator.cc 189, 281, 473, 589). -/
def BOp.isAssign : BOp → Bool
  | .assign | .mulAssign | .divAssign | .remAssign | .addAssign | .subAssign
  | .shlAssign | .shrAssign | .andAssign | .xorAssign | .orAssign => true
  | _ => false

/-- `clang::BinaryOperator::isLogicalOp` (mutation_replace_binary_operator.cc
456, 574). -/
def BOp.isLogical : BOp → Bool
  | .land | .lor => true
  | _ => false

/-- The operators listed in the `switch` of `GenerateArgumentReplacement`
(mutation_replace_binary_operator.cc 266-271). -/
def BOp.isRelational : BOp → Bool
  | .gt | .ge | .lt | .le | .eq | .ne => true
  | _ => false

/-- `MutationReplaceUnaryOperator::IsPrefix`
(mutation_replace_unary_operator.cc 47-51). -/
def UOp.isPrefix : UOp → Bool
  | .postInc | .postDec => false
  | _ => true

/-- `clang::UnaryOperator::isIncrementDecrementOp` (mutate_visitor.cc 393,
mutation_replace_unary_operator.cc 204, 444). -/
def UOp.isIncDec : UOp → Bool
  | .postInc | .postDec | .preInc | .preDec => true
  | _ => false

/-- `MutationReplaceBinaryOperatorAction` (dredd.proto 85-117). -/
inductive BAct
  | ReplaceWithLHS | ReplaceWithRHS | ReplaceWithAdd | ReplaceWithDiv
  | ReplaceWithMul | ReplaceWithRem | ReplaceWithSub | ReplaceWithAddAssign
  | ReplaceWithAndAssign | ReplaceWithAssign | ReplaceWithDivAssign
  | ReplaceWithMulAssign | ReplaceWithOrAssign | ReplaceWithRemAssign
  | ReplaceWithShlAssign | ReplaceWithShrAssign | ReplaceWithSubAssign
  | ReplaceWithXorAssign | ReplaceWithAnd | ReplaceWithOr | ReplaceWithXor
  | ReplaceWithLAnd | ReplaceWithLOr | ReplaceWithEQ | ReplaceWithGE
  | ReplaceWithGT | ReplaceWithLE | ReplaceWithLT | ReplaceWithNE
  | ReplaceWithShl | ReplaceWithShr
deriving DecidableEq, Repr

/-- `MutationReplaceUnaryOperatorAction` (dredd.proto 170-179). -/
inductive UAct
  | ReplaceWithOperand | ReplaceWithMinus | ReplaceWithNot
  | ReplaceWithPreDec | ReplaceWithPostDec | ReplaceWithPreInc
  | ReplaceWithPostInc | ReplaceWithLNot
deriving DecidableEq, Repr

/-- `MutationReplaceExprAction` (dredd.proto 57-71). -/
inductive EAct
  | InsertPreInc | InsertPreDec | InsertLNot | InsertNot | InsertMinus
  | ReplaceWithZeroFloat | ReplaceWithOneFloat | ReplaceWithMinusOneFloat
  | ReplaceWithZeroInt | ReplaceWithOneInt | ReplaceWithMinusOneInt
  | ReplaceWithTrue | ReplaceWithFalse
deriving DecidableEq, Repr

/-- Protobuf enum `BinaryOperator` (dredd.proto 124-154). -/
inductive PBOp
  | Add | Div | Mul | Rem | Sub | AddAssign | AndAssign | Assign | DivAssign
  | MulAssign | OrAssign | RemAssign | ShlAssign | ShrAssign | SubAssign
  | XorAssign | And | Or | Xor | LAnd | LOr | EQ | GE | GT | LE | LT | NE
  | Shl | Shr
deriving DecidableEq, Repr

/-- Protobuf enum `UnaryOperator` (dredd.proto 186-194). -/
inductive PUOp
  | Minus | Not | PreDec | PostDec | PreInc | PostInc | LNot
deriving DecidableEq, Repr

/-- `OperatorKindToAction` (mutation_replace_binary_operator.cc 910-986).
`none` is the `default:` branch, an assertion failure. -/
def BOp.action? : BOp → Option BAct
  | .add => some .ReplaceWithAdd
  | .div => some .ReplaceWithDiv
  | .mul => some .ReplaceWithMul
  | .rem => some .ReplaceWithRem
  | .sub => some .ReplaceWithSub
  | .addAssign => some .ReplaceWithAddAssign
  | .andAssign => some .ReplaceWithAndAssign
  | .assign => some .ReplaceWithAssign
  | .divAssign => some .ReplaceWithDivAssign
  | .mulAssign => some .ReplaceWithMulAssign
  | .orAssign => some .ReplaceWithOrAssign
  | .remAssign => some .ReplaceWithRemAssign
  | .shlAssign => some .ReplaceWithShlAssign
  | .shrAssign => some .ReplaceWithShrAssign
  | .subAssign => some .ReplaceWithSubAssign
  | .xorAssign => some .ReplaceWithXorAssign
  | .and => some .ReplaceWithAnd
  | .or => some .ReplaceWithOr
  | .xor => some .ReplaceWithXor
  | .land => some .ReplaceWithLAnd
  | .lor => some .ReplaceWithLOr
  | .eq => some .ReplaceWithEQ
  | .ge => some .ReplaceWithGE
  | .gt => some .ReplaceWithGT
  | .le => some .ReplaceWithLE
  | .lt => some .ReplaceWithLT
  | .ne => some .ReplaceWithNE
  | .shl => some .ReplaceWithShl
  | .shr => some .ReplaceWithShr
  | .ptrMemD | .ptrMemI | .cmp | .comma => none

/-- `OperatorKindToAction` (mutation_replace_unary_operator.cc 483-504).
`none` is the `default:` branch (`..Action_MAX`). -/
def UOp.action? : UOp → Option UAct
  | .minus => some .ReplaceWithMinus
  | .not => some .ReplaceWithNot
  | .preDec => some .ReplaceWithPreDec
  | .postDec => some .ReplaceWithPostDec
  | .preInc => some .ReplaceWithPreInc
  | .postInc => some .ReplaceWithPostInc
  | .lnot => some .ReplaceWithLNot
  | .addrOf | .deref | .plus | .real | .imag | .extension | .coawait => none

/-- `ClangOperatorKindToProtobufOperatorKind`
(mutation_replace_binary_operator.cc 988-1054).  `none` is the `default:`
branch, an assertion failure. -/
def BOp.proto? : BOp → Option PBOp
  | .add => some .Add
  | .div => some .Div
  | .mul => some .Mul
  | .rem => some .Rem
  | .sub => some .Sub
  | .addAssign => some .AddAssign
  | .andAssign => some .AndAssign
  | .assign => some .Assign
  | .divAssign => some .DivAssign
  | .mulAssign => some .MulAssign
  | .orAssign => some .OrAssign
  | .remAssign => some .RemAssign
  | .shlAssign => some .ShlAssign
  | .shrAssign => some .ShrAssign
  | .subAssign => some .SubAssign
  | .xorAssign => some .XorAssign
  | .and => some .And
  | .or => some .Or
  | .xor => some .Xor
  | .land => some .LAnd
  | .lor => some .LOr
  | .eq => some .EQ
  | .ge => some .GE
  | .gt => some .GT
  | .le => some .LE
  | .lt => some .LT
  | .ne => some .NE
  | .shl => some .Shl
  | .shr => some .Shr
  | .ptrMemD | .ptrMemI | .cmp | .comma => none

/-- `ClangOperatorKindToProtobufOperatorKind`
(mutation_replace_unary_operator.cc 506-528).  `none` is the `default:`
branch, an assertion failure. -/
def UOp.proto? : UOp → Option PUOp
  | .minus => some .Minus
  | .not => some .Not
  | .preDec => some .PreDec
  | .postDec => some .PostDec
  | .preInc => some .PreInc
  | .postInc => some .PostInc
  | .lnot => some .LNot
  | .addrOf | .deref | .plus | .real | .imag | .extension | .coawait => none

/-- `OperatorKindToAction` in a release build (no assertions): the default
branch returns `MutationReplaceBinaryOperatorAction_MAX`, the largest
enumerator (mutation_replace_binary_operator.cc 982-984, dredd.proto 116). -/
def BOp.action (op : BOp) : BAct := op.action?.getD .ReplaceWithShr

/-- `OperatorKindToAction` in a release build: the default branch returns
`MutationReplaceUnaryOperatorAction_MAX` (mutation_replace_unary_operator.cc
501-502, dredd.proto 178). -/
def UOp.action (op : UOp) : UAct := op.action?.getD .ReplaceWithLNot

/-- `ClangOperatorKindToProtobufOperatorKind` in a release build
(mutation_replace_binary_operator.cc 1050-1052, dredd.proto 153). -/
def BOp.proto (op : BOp) : PBOp := op.proto?.getD .OrAssign

/-- `ClangOperatorKindToProtobufOperatorKind` in a release build
(mutation_replace_unary_operator.cc 524-526, dredd.proto 193). -/
def UOp.proto (op : UOp) : PUOp := op.proto?.getD .LNot

/-- The operator's part of the function name in a release build: the default
branch adds nothing (mutation_replace_binary_operator.cc 183-184). -/
def BOp.fnName (op : BOp) : Text := op.fnName?.getD []

/-- The operator's part of the function name in a release build: the default
branch adds nothing (mutation_replace_unary_operator.cc 126-127). -/
def UOp.fnName (op : UOp) : Text := op.fnName?.getD []

end Dredd
