/-
The mutation information file: `MessageToJsonString` (main.cc 174-191) on the
messages of dredd.proto.  The conversion itself is protobuf's; what is modelled
is its documented behaviour: field names in lower camel case, enumerators by
name, members of a `oneof` only if set, sub-messages only if set (all of them are
set here), and primitive and repeated fields with their default value (zero,
empty) only with `always_print_primitive_fields`.
-/
import Verif.Model.TransUnit

namespace Dredd

/-- JSON values, as far as they occur. (main.cc 174-191.) -/
inductive Json
  | num (n : Int)
  | str (s : Text)
  | arr (vs : List Json)
  | obj (fs : List (Text × Json))
deriving Repr, Inhabited

/-- A primitive `uint32`/`int32` field (dredd.proto 33, 46-47, 51, 75, 121,
183); `always` is `always_print_primitive_fields` (main.cc 180). -/
def Json.numField (always : Bool) (k : Text) (n : Nat) : List (Text × Json) :=
  if always || n != 0 then [(k, .num n)] else []

/-- A `string` field (dredd.proto 21, 54, 82). -/
def Json.strField (always : Bool) (k : Text) (s : Text) : List (Text × Json) :=
  if always || !s.isEmpty then [(k, .str s)] else []

/-- An enum field; `zero` says that the value is the enumerator 0. (dredd.proto
57-190.) -/
def Json.enumField (always : Bool) (k : Text) (name : Text) (zero : Bool) : List (Text × Json) :=
  if always || !zero then [(k, .str name)] else []

/-- A repeated field (dredd.proto 18, 25, 29, 33, 83, 167, 204). -/
def Json.repField (always : Bool) (k : Text) (vs : List Json) : List (Text × Json) :=
  if always || !vs.isEmpty then [(k, .arr vs)] else []

/-- Names of the enumerators of `MutationReplaceBinaryOperatorAction`
(dredd.proto 85-117). -/
def BAct.name : BAct → Text
  | .ReplaceWithLHS => t!"ReplaceWithLHS"
  | .ReplaceWithRHS => t!"ReplaceWithRHS"
  | .ReplaceWithAdd => t!"ReplaceWithAdd"
  | .ReplaceWithDiv => t!"ReplaceWithDiv"
  | .ReplaceWithMul => t!"ReplaceWithMul"
  | .ReplaceWithRem => t!"ReplaceWithRem"
  | .ReplaceWithSub => t!"ReplaceWithSub"
  | .ReplaceWithAddAssign => t!"ReplaceWithAddAssign"
  | .ReplaceWithAndAssign => t!"ReplaceWithAndAssign"
  | .ReplaceWithAssign => t!"ReplaceWithAssign"
  | .ReplaceWithDivAssign => t!"ReplaceWithDivAssign"
  | .ReplaceWithMulAssign => t!"ReplaceWithMulAssign"
  | .ReplaceWithOrAssign => t!"ReplaceWithOrAssign"
  | .ReplaceWithRemAssign => t!"ReplaceWithRemAssign"
  | .ReplaceWithShlAssign => t!"ReplaceWithShlAssign"
  | .ReplaceWithShrAssign => t!"ReplaceWithShrAssign"
  | .ReplaceWithSubAssign => t!"ReplaceWithSubAssign"
  | .ReplaceWithXorAssign => t!"ReplaceWithXorAssign"
  | .ReplaceWithAnd => t!"ReplaceWithAnd"
  | .ReplaceWithOr => t!"ReplaceWithOr"
  | .ReplaceWithXor => t!"ReplaceWithXor"
  | .ReplaceWithLAnd => t!"ReplaceWithLAnd"
  | .ReplaceWithLOr => t!"ReplaceWithLOr"
  | .ReplaceWithEQ => t!"ReplaceWithEQ"
  | .ReplaceWithGE => t!"ReplaceWithGE"
  | .ReplaceWithGT => t!"ReplaceWithGT"
  | .ReplaceWithLE => t!"ReplaceWithLE"
  | .ReplaceWithLT => t!"ReplaceWithLT"
  | .ReplaceWithNE => t!"ReplaceWithNE"
  | .ReplaceWithShl => t!"ReplaceWithShl"
  | .ReplaceWithShr => t!"ReplaceWithShr"

/-- Names of the enumerators of `MutationReplaceUnaryOperatorAction`
(dredd.proto 170-179). -/
def UAct.name : UAct → Text
  | .ReplaceWithOperand => t!"ReplaceWithOperand"
  | .ReplaceWithMinus => t!"ReplaceWithMinus"
  | .ReplaceWithNot => t!"ReplaceWithNot"
  | .ReplaceWithPreDec => t!"ReplaceWithPreDec"
  | .ReplaceWithPostDec => t!"ReplaceWithPostDec"
  | .ReplaceWithPreInc => t!"ReplaceWithPreInc"
  | .ReplaceWithPostInc => t!"ReplaceWithPostInc"
  | .ReplaceWithLNot => t!"ReplaceWithLNot"

/-- Names of the enumerators of `MutationReplaceExprAction` (dredd.proto
57-71). -/
def EAct.name : EAct → Text
  | .InsertPreInc => t!"InsertPreInc"
  | .InsertPreDec => t!"InsertPreDec"
  | .InsertLNot => t!"InsertLNot"
  | .InsertNot => t!"InsertNot"
  | .InsertMinus => t!"InsertMinus"
  | .ReplaceWithZeroFloat => t!"ReplaceWithZeroFloat"
  | .ReplaceWithOneFloat => t!"ReplaceWithOneFloat"
  | .ReplaceWithMinusOneFloat => t!"ReplaceWithMinusOneFloat"
  | .ReplaceWithZeroInt => t!"ReplaceWithZeroInt"
  | .ReplaceWithOneInt => t!"ReplaceWithOneInt"
  | .ReplaceWithMinusOneInt => t!"ReplaceWithMinusOneInt"
  | .ReplaceWithTrue => t!"ReplaceWithTrue"
  | .ReplaceWithFalse => t!"ReplaceWithFalse"

/-- Names of the enumerators of `BinaryOperator` (dredd.proto 124-154). -/
def PBOp.name : PBOp → Text
  | .Add => t!"Add" | .Div => t!"Div" | .Mul => t!"Mul" | .Rem => t!"Rem" | .Sub => t!"Sub"
  | .AddAssign => t!"AddAssign" | .AndAssign => t!"AndAssign" | .Assign => t!"Assign"
  | .DivAssign => t!"DivAssign" | .MulAssign => t!"MulAssign" | .OrAssign => t!"OrAssign"
  | .RemAssign => t!"RemAssign" | .ShlAssign => t!"ShlAssign" | .ShrAssign => t!"ShrAssign"
  | .SubAssign => t!"SubAssign" | .XorAssign => t!"XorAssign"
  | .And => t!"And" | .Or => t!"Or" | .Xor => t!"Xor" | .LAnd => t!"LAnd" | .LOr => t!"LOr"
  | .EQ => t!"EQ" | .GE => t!"GE" | .GT => t!"GT" | .LE => t!"LE" | .LT => t!"LT" | .NE => t!"NE"
  | .Shl => t!"Shl" | .Shr => t!"Shr"

/-- Names of the enumerators of `UnaryOperator` (dredd.proto 186-194). -/
def PUOp.name : PUOp → Text
  | .Minus => t!"Minus" | .Not => t!"Not" | .PreDec => t!"PreDec" | .PostDec => t!"PostDec"
  | .PreInc => t!"PreInc" | .PostInc => t!"PostInc" | .LNot => t!"LNot"

/-- `SourceLocation` (dredd.proto 45-48). -/
def Loc.toJson (always : Bool) (l : Loc) : Json :=
  .obj (Json.numField always t!"line" l.line ++ Json.numField always t!"column" l.column)

/-- The three kinds of `..Instance` message (dredd.proto 73-76, 119-122,
181-184). -/
def instToJson (always : Bool) (name : Text) (zero : Bool) (id : Nat) : Json :=
  .obj (Json.enumField always t!"action" name zero ++ Json.numField always t!"mutationId" id)

/-- `MutationReplaceExprInstance` (dredd.proto 73-76). -/
def EAct.instJson (always : Bool) (i : Nat × EAct) : Json :=
  instToJson always i.2.name (i.2 == .InsertPreInc) i.1

/-- `MutationReplaceBinaryOperatorInstance` (dredd.proto 119-122). -/
def BAct.instJson (always : Bool) (i : Nat × BAct) : Json :=
  instToJson always i.2.name (i.2 == .ReplaceWithLHS) i.1

/-- `MutationReplaceUnaryOperatorInstance` (dredd.proto 181-184). -/
def UAct.instJson (always : Bool) (i : Nat × UAct) : Json :=
  instToJson always i.2.name (i.2 == .ReplaceWithOperand) i.1

/-- `MutationGroup` (dredd.proto 36-43) with its four alternatives (50-55, 78-83,
156-168, 196-205). -/
def Group.toJson (always : Bool) : Group → Json
  | .removeStmt id r => .obj [(t!"removeStmt", .obj (
      Json.numField always t!"mutationId" id ++
      [(t!"start", r.start.toJson always), (t!"end", r.fin.toJson always)] ++
      Json.strField always t!"snippet" r.snippet))]
  | .replaceExpr r is => .obj [(t!"replaceExpr", .obj (
      [(t!"start", r.start.toJson always), (t!"end", r.fin.toJson always)] ++
      Json.strField always t!"snippet" r.snippet ++
      Json.repField always t!"instances" (is.map (EAct.instJson always))))]
  | .replaceBin op r lhs rhs is => .obj [(t!"replaceBinaryOperator", .obj (
      [(t!"exprStart", r.start.toJson always), (t!"exprEnd", r.fin.toJson always),
       (t!"lhsStart", lhs.start.toJson always), (t!"lhsEnd", lhs.fin.toJson always),
       (t!"rhsStart", rhs.start.toJson always), (t!"rhsEnd", rhs.fin.toJson always)] ++
      Json.strField always t!"exprSnippet" r.snippet ++
      Json.strField always t!"lhsSnippet" lhs.snippet ++
      Json.strField always t!"rhsSnippet" rhs.snippet ++
      Json.enumField always t!"operator" op.name (op == .Mul) ++
      Json.repField always t!"instances" (is.map (BAct.instJson always))))]
  | .replaceUn op r sub is => .obj [(t!"replaceUnaryOperator", .obj (
      [(t!"exprStart", r.start.toJson always), (t!"exprEnd", r.fin.toJson always),
       (t!"operandStart", sub.start.toJson always), (t!"operandEnd", sub.fin.toJson always)] ++
      Json.strField always t!"exprSnippet" r.snippet ++
      Json.strField always t!"operandSnippet" sub.snippet ++
      Json.enumField always t!"operator" op.name (op == .PostInc) ++
      Json.repField always t!"instances" (is.map (UAct.instJson always))))]

/-- `MutationTreeNode` (dredd.proto 28-34). -/
def PNode.toJson (always : Bool) (n : PNode) : Json :=
  .obj (Json.repField always t!"mutationGroups" (n.groups.map (Group.toJson always)) ++
    Json.repField always t!"children" (n.children.map fun (c : Nat) => .num c))

/-- `MutationInfoForFile` (dredd.proto 20-26). -/
def FileInfo.toJson (always : Bool) (f : FileInfo) : Json :=
  .obj (Json.strField always t!"filename" f.filename ++
    Json.repField always t!"mutationTree" (f.nodes.map (PNode.toJson always)))

/-- `MutationInfo` (dredd.proto 18). -/
def infoToJson (always : Bool) (fs : List FileInfo) : Json :=
  .obj (Json.repField always t!"infoForFiles" (fs.map (FileInfo.toJson always)))

/-- What main.cc 174-191 writes: `always_print_primitive_fields` is set. -/
def infoFile (fs : List FileInfo) : Json := infoToJson true fs

end Dredd
