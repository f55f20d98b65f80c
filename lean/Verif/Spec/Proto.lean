/-
What the mutation information file says, for a reader who only has dredd.proto
and knows how protobuf messages are written as JSON: names of fields in lower
camel case, enumerators by their name, no unknown fields, and an absent field
has its default value.
-/
import Verif.Model.Json
import Verif.Spec.Action
import Verif.Spec.Tree

namespace Dredd.Proto

/-- The type of a field. -/
inductive Kind
  | number
  | string
  | enum (name : Text)
  | message (name : Text)

/-- A field of a message. -/
structure Field where
  name : Text
  kind : Kind
  repeated : Bool := false

/-- The message types (dredd.proto 18-55, 73-83, 119-122, 156-168, 181-184, 196-205).
What is in a `oneof` is listed like any other field: it may be absent. -/
def messages : List (Text × List Field) :=
  [(t!"MutationInfo", [⟨t!"info_for_files", .message t!"MutationInfoForFile", true⟩]),
   (t!"MutationInfoForFile",
    [⟨t!"filename", .string, false⟩, ⟨t!"mutation_tree", .message t!"MutationTreeNode", true⟩]),
   (t!"MutationTreeNode",
    [⟨t!"mutation_groups", .message t!"MutationGroup", true⟩, ⟨t!"children", .number, true⟩]),
   (t!"MutationGroup",
    [⟨t!"remove_stmt", .message t!"MutationRemoveStmt", false⟩,
     ⟨t!"replace_expr", .message t!"MutationReplaceExpr", false⟩,
     ⟨t!"replace_binary_operator", .message t!"MutationReplaceBinaryOperator", false⟩,
     ⟨t!"replace_unary_operator", .message t!"MutationReplaceUnaryOperator", false⟩]),
   (t!"SourceLocation", [⟨t!"line", .number, false⟩, ⟨t!"column", .number, false⟩]),
   (t!"MutationRemoveStmt",
    [⟨t!"mutation_id", .number, false⟩, ⟨t!"start", .message t!"SourceLocation", false⟩,
     ⟨t!"end", .message t!"SourceLocation", false⟩, ⟨t!"snippet", .string, false⟩]),
   (t!"MutationReplaceExprInstance",
    [⟨t!"action", .enum t!"MutationReplaceExprAction", false⟩, ⟨t!"mutation_id", .number, false⟩]),
   (t!"MutationReplaceExpr",
    [⟨t!"start", .message t!"SourceLocation", false⟩, ⟨t!"end", .message t!"SourceLocation", false⟩,
     ⟨t!"snippet", .string, false⟩,
     ⟨t!"instances", .message t!"MutationReplaceExprInstance", true⟩]),
   (t!"MutationReplaceBinaryOperatorInstance",
    [⟨t!"action", .enum t!"MutationReplaceBinaryOperatorAction", false⟩,
     ⟨t!"mutation_id", .number, false⟩]),
   (t!"MutationReplaceBinaryOperator",
    [⟨t!"expr_start", .message t!"SourceLocation", false⟩,
     ⟨t!"expr_end", .message t!"SourceLocation", false⟩,
     ⟨t!"lhs_start", .message t!"SourceLocation", false⟩,
     ⟨t!"lhs_end", .message t!"SourceLocation", false⟩,
     ⟨t!"rhs_start", .message t!"SourceLocation", false⟩,
     ⟨t!"rhs_end", .message t!"SourceLocation", false⟩,
     ⟨t!"expr_snippet", .string, false⟩, ⟨t!"lhs_snippet", .string, false⟩,
     ⟨t!"rhs_snippet", .string, false⟩, ⟨t!"operator", .enum t!"BinaryOperator", false⟩,
     ⟨t!"instances", .message t!"MutationReplaceBinaryOperatorInstance", true⟩]),
   (t!"MutationReplaceUnaryOperatorInstance",
    [⟨t!"action", .enum t!"MutationReplaceUnaryOperatorAction", false⟩,
     ⟨t!"mutation_id", .number, false⟩]),
   (t!"MutationReplaceUnaryOperator",
    [⟨t!"expr_start", .message t!"SourceLocation", false⟩,
     ⟨t!"expr_end", .message t!"SourceLocation", false⟩,
     ⟨t!"operand_start", .message t!"SourceLocation", false⟩,
     ⟨t!"operand_end", .message t!"SourceLocation", false⟩,
     ⟨t!"expr_snippet", .string, false⟩, ⟨t!"operand_snippet", .string, false⟩,
     ⟨t!"operator", .enum t!"UnaryOperator", false⟩,
     ⟨t!"instances", .message t!"MutationReplaceUnaryOperatorInstance", true⟩])]

/-- The enumerations, each enumerator at the place of its number (dredd.proto 57-71,
85-117, 124-154, 170-179, 186-194). -/
def enums : List (Text × List Text) :=
  [(t!"MutationReplaceExprAction",
    [t!"InsertPreInc", t!"InsertPreDec", t!"InsertLNot", t!"InsertNot", t!"InsertMinus",
     t!"ReplaceWithZeroFloat", t!"ReplaceWithOneFloat", t!"ReplaceWithMinusOneFloat",
     t!"ReplaceWithZeroInt", t!"ReplaceWithOneInt", t!"ReplaceWithMinusOneInt",
     t!"ReplaceWithTrue", t!"ReplaceWithFalse"]),
   (t!"MutationReplaceBinaryOperatorAction",
    [t!"ReplaceWithLHS", t!"ReplaceWithRHS", t!"ReplaceWithAdd", t!"ReplaceWithDiv",
     t!"ReplaceWithMul", t!"ReplaceWithRem", t!"ReplaceWithSub", t!"ReplaceWithAddAssign",
     t!"ReplaceWithAndAssign", t!"ReplaceWithAssign", t!"ReplaceWithDivAssign",
     t!"ReplaceWithMulAssign", t!"ReplaceWithOrAssign", t!"ReplaceWithRemAssign",
     t!"ReplaceWithShlAssign", t!"ReplaceWithShrAssign", t!"ReplaceWithSubAssign",
     t!"ReplaceWithXorAssign", t!"ReplaceWithAnd", t!"ReplaceWithOr", t!"ReplaceWithXor",
     t!"ReplaceWithLAnd", t!"ReplaceWithLOr", t!"ReplaceWithEQ", t!"ReplaceWithGE",
     t!"ReplaceWithGT", t!"ReplaceWithLE", t!"ReplaceWithLT", t!"ReplaceWithNE",
     t!"ReplaceWithShl", t!"ReplaceWithShr"]),
   (t!"BinaryOperator",
    [t!"Mul", t!"Div", t!"Rem", t!"Add", t!"Sub", t!"Shl", t!"Shr", t!"LT", t!"GT", t!"LE",
     t!"GE", t!"EQ", t!"NE", t!"And", t!"Xor", t!"Or", t!"LAnd", t!"LOr", t!"Assign",
     t!"MulAssign", t!"DivAssign", t!"RemAssign", t!"AddAssign", t!"SubAssign", t!"ShlAssign",
     t!"ShrAssign", t!"AndAssign", t!"XorAssign", t!"OrAssign"]),
   (t!"MutationReplaceUnaryOperatorAction",
    [t!"ReplaceWithOperand", t!"ReplaceWithMinus", t!"ReplaceWithNot", t!"ReplaceWithPreDec",
     t!"ReplaceWithPostDec", t!"ReplaceWithPreInc", t!"ReplaceWithPostInc", t!"ReplaceWithLNot"]),
   (t!"UnaryOperator",
    [t!"PostInc", t!"PostDec", t!"PreInc", t!"PreDec", t!"Minus", t!"Not", t!"LNot"])]

/-- `mutation_id` becomes `mutationId`. -/
def camel : Text → Text
  | [] => []
  | ['_'] => ['_']
  | '_' :: c :: cs => c.toUpper :: camel cs
  | c :: cs => c :: camel cs

/-- The first entry with this name. -/
def look {α : Type} (k : Text) : List (Text × α) → Option α
  | [] => none
  | (k', v) :: r => if k = k' then some v else look k r

/-- All results, if there are all. -/
def allSome {α : Type} : List (Option α) → Option (List α)
  | [] => some []
  | x :: xs => x.bind fun v => (allSome xs).map (v :: ·)

/-- Contents of a message. -/
inductive Val
  | num (n : Int)
  | str (s : Text)
  | enumerator (s : Text)
  | list (vs : List Val)
  | msg (fs : List (Text × Val))

/-- The value of a field that is absent; messages have none. -/
def default (f : Field) : Option Val :=
  if f.repeated then some (.list [])
  else match f.kind with
    | .number => some (.num 0)
    | .string => some (.str [])
    | .enum e => ((look e enums).bind (·.head?)).map .enumerator
    | .message _ => none

/-- The value of a field, given how single values are read. -/
def readField (rd : Kind → Json → Option Val) (kvs : List (Text × Json)) (f : Field) :
    Option (List (Text × Val)) :=
  match look (camel f.name) kvs with
  | none => some (((default f).map fun v => (f.name, v)).toList)
  | some j =>
    if f.repeated then
      match j with
      | .arr js => (allSome (js.map (rd f.kind))).map fun vs => [(f.name, .list vs)]
      | _ => none
    else (rd f.kind j).map fun v => [(f.name, v)]

/-- Keys are known and none occurs twice. -/
def keysOk (fs : List Field) (kvs : List (Text × Json)) : Bool :=
  kvs.all (fun p => fs.any fun f => camel f.name == p.1) &&
    decide ((kvs.map (·.1)).Nodup)

/-- A single value; the first argument bounds the nesting of messages. -/
def readVal : Nat → Kind → Json → Option Val
  | 0, _, _ => none
  | _ + 1, .number, .num n => some (.num n)
  | _ + 1, .string, .str s => some (.str s)
  | _ + 1, .enum e, .str s =>
    match look e enums with
    | some names => if names.contains s then some (.enumerator s) else none
    | none => none
  | n + 1, .message m, .obj kvs =>
    match look m messages with
    | some fs =>
      if keysOk fs kvs then
        (allSome (fs.map (readField (readVal n) kvs))).map fun l => .msg l.flatten
      else none
    | none => none
  | _ + 1, _, _ => none

/-- A field of a message. -/
def Val.get (v : Val) (k : Text) : Option Val :=
  match v with
  | .msg fs => look k fs
  | _ => none

/-- A number that is not negative. -/
def Val.nat : Val → Option Nat
  | .num n => if 0 ≤ n then some n.toNat else none
  | _ => none

/-- A string. -/
def Val.text : Val → Option Text
  | .str s => some s
  | _ => none

/-- An enumerator. -/
def Val.name : Val → Option Text
  | .enumerator s => some s
  | _ => none

/-- A list. -/
def Val.items : Val → Option (List Val)
  | .list vs => some vs
  | _ => none

/-! ### What the names mean -/

/-- The symbols of the binary operators of C. -/
def symbols : List (Text × Text) :=
  [(t!"Mul", t!"*"), (t!"Div", t!"/"), (t!"Rem", t!"%"), (t!"Add", t!"+"), (t!"Sub", t!"-"),
   (t!"Shl", t!"<<"), (t!"Shr", t!">>"), (t!"LT", t!"<"), (t!"GT", t!">"), (t!"LE", t!"<="),
   (t!"GE", t!">="), (t!"EQ", t!"=="), (t!"NE", t!"!="), (t!"And", t!"&"), (t!"Xor", t!"^"),
   (t!"Or", t!"|"), (t!"LAnd", t!"&&"), (t!"LOr", t!"||"), (t!"Assign", t!"="),
   (t!"MulAssign", t!"*="), (t!"DivAssign", t!"/="), (t!"RemAssign", t!"%="),
   (t!"AddAssign", t!"+="), (t!"SubAssign", t!"-="), (t!"ShlAssign", t!"<<="),
   (t!"ShrAssign", t!">>="), (t!"AndAssign", t!"&="), (t!"XorAssign", t!"^="),
   (t!"OrAssign", t!"|=")]

/-- The symbols of the unary operators and whether they come first. -/
def unarySymbols : List (Text × (Text × Bool)) :=
  [(t!"PostInc", (t!"++", false)), (t!"PostDec", (t!"--", false)), (t!"PreInc", (t!"++", true)),
   (t!"PreDec", (t!"--", true)), (t!"Minus", (t!"-", true)), (t!"Not", (t!"~", true)),
   (t!"LNot", (t!"!", true))]

/-- The binary operator of this name. -/
def binNamed (n : Text) : Option BOp :=
  (look n symbols).bind fun s => BOp.all.find? fun o => o.str == s

/-- The unary operator of this name. -/
def unNamed (n : Text) : Option UOp :=
  (look n unarySymbols).bind fun s => UOp.all.find? fun o => o.str == s.1 && o.isPrefix == s.2

/-- What is left after this beginning. -/
def after (p n : Text) : Option Text := if n.take p.length = p then some (n.drop p.length) else none

/-- What an action on a binary operator does. -/
def binAction (n : Text) : Option BChange :=
  (after t!"ReplaceWith" n).bind fun x =>
    if x = t!"LHS" then some .lhs
    else if x = t!"RHS" then some .rhs
    else (binNamed x).map .op

/-- What an action on a unary operator does. -/
def unAction (n : Text) : Option UChange :=
  (after t!"ReplaceWith" n).bind fun x =>
    if x = t!"Operand" then some .operand else (unNamed x).map .op

/-- What an action on an expression does: it puts an operator before it, or uses a
number instead, or a truth value. -/
inductive ExprAction
  | insert (o : UOp)
  | number (n : Int) (floating : Bool)
  | truth (b : Bool)
deriving DecidableEq

/-- What an action on an expression does. -/
def exprAction (n : Text) : Option ExprAction :=
  match after t!"Insert" n with
  | some x => (unNamed x).map .insert
  | none =>
    (after t!"ReplaceWith" n).bind fun x =>
      look x [(t!"ZeroFloat", .number 0 true), (t!"OneFloat", .number 1 true),
        (t!"MinusOneFloat", .number (-1) true), (t!"ZeroInt", .number 0 false),
        (t!"OneInt", .number 1 false), (t!"MinusOneInt", .number (-1) false),
        (t!"True", .truth true), (t!"False", .truth false)]

/-- A part of the program as a person sees it. -/
structure Region where
  start : Nat × Nat
  fin : Nat × Nat
  snippet : Text
deriving DecidableEq

/-- What is said about one point of the program. -/
inductive Report
  | stmt (id : Nat) (here : Region)
  | expr (here : Region) (mutants : List (Nat × ExprAction))
  | bin (op : BOp) (here lhs rhs : Region) (mutants : List (Nat × BChange))
  | un (op : UOp) (here operand : Region) (mutants : List (Nat × UChange))
deriving DecidableEq

/-- A location. -/
def location (v : Val) (k : Text) : Option (Nat × Nat) :=
  (v.get k).bind fun p => ((p.get t!"line").bind Val.nat).bind fun l =>
    ((p.get t!"column").bind Val.nat).map fun c => (l, c)

/-- A range with its text, from the three fields of this name. -/
def region (v : Val) (b e t : Text) : Option Region :=
  (location v b).bind fun b => (location v e).bind fun e =>
    ((v.get t).bind Val.text).map fun t => ⟨b, e, t⟩

/-- The mutants of a point, given what actions mean. -/
def mutants {α : Type} (v : Val) (act : Text → Option α) : Option (List (Nat × α)) :=
  ((v.get t!"instances").bind Val.items).bind fun is => allSome (is.map fun i =>
    ((i.get t!"mutation_id").bind Val.nat).bind fun n =>
      (((i.get t!"action").bind Val.name).bind act).map fun a => (n, a))

/-- What a group says: exactly one of its alternatives is there. -/
def report (v : Val) : Option Report :=
  match v with
  | .msg [(k, g)] =>
    if k = t!"remove_stmt" then
      ((g.get t!"mutation_id").bind Val.nat).bind fun n =>
        (region g t!"start" t!"end" t!"snippet").map fun r => .stmt n r
    else if k = t!"replace_expr" then
      (region g t!"start" t!"end" t!"snippet").bind fun r =>
        (mutants g exprAction).map fun is => .expr r is
    else if k = t!"replace_binary_operator" then
      (((g.get t!"operator").bind Val.name).bind binNamed).bind fun op =>
        (region g t!"expr_start" t!"expr_end" t!"expr_snippet").bind fun r =>
        (region g t!"lhs_start" t!"lhs_end" t!"lhs_snippet").bind fun r1 =>
        (region g t!"rhs_start" t!"rhs_end" t!"rhs_snippet").bind fun r2 =>
          (mutants g binAction).map fun is => .bin op r r1 r2 is
    else if k = t!"replace_unary_operator" then
      (((g.get t!"operator").bind Val.name).bind unNamed).bind fun op =>
        (region g t!"expr_start" t!"expr_end" t!"expr_snippet").bind fun r =>
        (region g t!"operand_start" t!"operand_end" t!"operand_snippet").bind fun r1 =>
          (mutants g unAction).map fun is => .un op r r1 is
    else none
  | _ => none

/-- A node of the tree: what is said there, and the numbers of its children. -/
structure ReportNode where
  reports : List Report
  children : List Nat
deriving DecidableEq

mutual
/-- Node `i` is the root of this tree. -/
def IsTree (nodes : List ReportNode) : Nat → MTree Report → Prop
  | i, .node rs ks => ∃ n, nodes[i]? = some n ∧ n.reports = rs ∧ AreTrees nodes n.children ks
/-- These nodes are the roots of these trees. -/
def AreTrees (nodes : List ReportNode) : List Nat → List (MTree Report) → Prop
  | [], [] => True
  | c :: cs, k :: ks => IsTree nodes c k ∧ AreTrees nodes cs ks
  | _, _ => False
end

/-- What is said about a file. -/
structure FileReport where
  filename : Text
  nodes : List ReportNode
deriving DecidableEq

/-- A node. -/
def node (v : Val) : Option ReportNode :=
  (((v.get t!"mutation_groups").bind Val.items).bind fun gs => allSome (gs.map report)).bind
    fun gs => (((v.get t!"children").bind Val.items).bind fun cs => allSome (cs.map Val.nat)).map
      fun cs => ⟨gs, cs⟩

/-- A file. -/
def file (v : Val) : Option FileReport :=
  ((v.get t!"filename").bind Val.text).bind fun n =>
    (((v.get t!"mutation_tree").bind Val.items).bind fun ns => allSome (ns.map node)).map
      fun ns => ⟨n, ns⟩

/-- The message in a JSON document; messages of this schema are nested six deep. -/
def message (j : Json) : Option Val := readVal 7 (.message t!"MutationInfo") j

/-- What a mutation information file says. -/
def readInfo (j : Json) : Option (List FileReport) :=
  (message j).bind fun v =>
    ((v.get t!"info_for_files").bind Val.items).bind fun fs => allSome (fs.map file)

end Dredd.Proto
