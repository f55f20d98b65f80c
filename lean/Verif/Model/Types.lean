/-
Builtin types, language options and the facts the tool asks clang about an
expression.
-/
import Verif.Model.Text

namespace Dredd

/-- The language facts used by the tool (`ast_context.getLangOpts()` and the
printing policy; for instance mutation_replace_expr.cc 431 and 464,
mutate_ast_consumer.cc 163).
* `cpp` – `LangOpts.CPlusPlus`.
* `boolKw` – the printing policy writes `bool` rather than `_Bool`.
* `charSigned`, `wcharSigned` – signedness of `char` and `wchar_t` on the
  target. -/
structure Lang where
  cpp : Bool
  boolKw : Bool
  charSigned : Bool
  wcharSigned : Bool
deriving DecidableEq, Repr

/-- The builtin types for which `MutateVisitor::IsTypeSupported`
(mutate_visitor.cc 63-70) can be true: clang's integer kinds (`Bool` ..
`Int128`) and floating-point kinds (`Half` .. `Ibm128`).  Clang has two kinds
each for `char` and `wchar_t` (signed and unsigned); a given target has one of
the two, so there is one constructor and the signedness is in `Lang`. -/
inductive BTy
  | bool | char | wchar | uchar | char8 | char16 | char32
  | ushort | uint | ulong | ulonglong | uint128
  | schar | short | int | long | longlong | int128
  | half | float | double | longdouble | float16 | bfloat16 | float128 | ibm128
deriving DecidableEq, Repr

/-- All builtin types of the model. (mutate_visitor.cc 63-70.) -/
def BTy.all : List BTy :=
  [.bool, .char, .wchar, .uchar, .char8, .char16, .char32,
   .ushort, .uint, .ulong, .ulonglong, .uint128,
   .schar, .short, .int, .long, .longlong, .int128,
   .half, .float, .double, .longdouble, .float16, .bfloat16, .float128, .ibm128]

/-- `clang::BuiltinType::isFloatingPoint` (used in
mutation_replace_binary_operator.cc 78, mutation_replace_expr.cc 272, 327). -/
def BTy.isFloat : BTy → Bool
  | .half | .float | .double | .longdouble | .float16 | .bfloat16
  | .float128 | .ibm128 => true
  | _ => false

/-- `clang::BuiltinType::isInteger` (includes `bool`; used in
mutate_visitor.cc 69, mutation_replace_expr.cc 242, 257, 375).  Every type of
the model is an integer or a floating-point type. -/
def BTy.isInteger (t : BTy) : Bool := !t.isFloat

/-- `isBooleanType` (mutation_replace_expr.cc 105, 121, 242, 423). -/
def BTy.isBool : BTy → Bool
  | .bool => true
  | _ => false

/-- `clang::BuiltinType::isSignedInteger` (mutation_replace_expr.cc 272, 401)
and `Type::isSignedIntegerType` (774, 791). -/
def BTy.isSigned (l : Lang) : BTy → Bool
  | .char => l.charSigned
  | .wchar => l.wcharSigned
  | .schar | .short | .int | .long | .longlong | .int128 => true
  | _ => false

/-- `clang::BuiltinType::getName(printing policy)` (for instance
mutation_replace_binary_operator.cc 201-213). -/
def BTy.name (l : Lang) : BTy → Text
  | .bool => if l.boolKw then t!"bool" else t!"_Bool"
  | .char => t!"char"
  | .wchar => t!"wchar_t"
  | .uchar => t!"unsigned char"
  | .char8 => t!"char8_t"
  | .char16 => t!"char16_t"
  | .char32 => t!"char32_t"
  | .ushort => t!"unsigned short"
  | .uint => t!"unsigned int"
  | .ulong => t!"unsigned long"
  | .ulonglong => t!"unsigned long long"
  | .uint128 => t!"unsigned __int128"
  | .schar => t!"signed char"
  | .short => t!"short"
  | .int => t!"int"
  | .long => t!"long"
  | .longlong => t!"long long"
  | .int128 => t!"__int128"
  | .half => t!"__fp16"
  | .float => t!"float"
  | .double => t!"double"
  | .longdouble => t!"long double"
  | .float16 => t!"_Float16"
  | .bfloat16 => t!"__bf16"
  | .float128 => t!"__float128"
  | .ibm128 => t!"__ibm128"

/-- `SpaceToUnderscore` (util.cc 93-97). -/
def spaceToUnderscore (t : Text) : Text := t.map fun c => if c = ' ' then '_' else c

/-- What the tool distinguishes of a floating-point constant
(`APFloat::isExactlyValue` against 0.0, 1.0, -1.0; mutation_replace_expr.cc
155-165).  Note that `isExactlyValue(0.0)` is false for -0.0. -/
inductive FConst
  | zero | one | minusOne | other
deriving DecidableEq, Repr

/-- What the tool asks clang about an expression. (for instance
mutation_replace_expr.cc 68-165, 203-285; mutation_replace_binary_operator.cc
69-85.) -/
structure ExprInfo where
  /-- `getType()->getAs<BuiltinType>()`; the visitor only keeps expressions
  for which this exists (mutate_visitor.cc 63-70). -/
  ty : BTy
  /-- `isLValue()` -/
  lvalue : Bool
  /-- `getType().isVolatileQualified()` -/
  volatile : Bool
  /-- `getType().isConstQualified()` -/
  const : Bool
  /-- `HasSideEffects(ast_context)` -/
  sideEffects : Bool
  /-- `EvaluateAsInt` (util.cc 175-179): the value if it succeeds. -/
  intVal : Option Int
  /-- `EvaluateAsFloat` (util.cc 181-185). -/
  floatVal : Option FConst
  /-- `EvaluateAsBooleanCondition` (util.cc 168-173). -/
  boolVal : Option Bool
  /-- `IsCxx11ConstantExpr` (util.cc 187-190). -/
  cxx11Const : Bool
deriving DecidableEq, Repr

/-- `MutationReplaceExpr::ExprIsEquivalentToInt` (mutation_replace_expr.cc
142-153).  `APSInt::isSameValue` compares mathematical values. -/
def ExprInfo.isInt (e : ExprInfo) (c : Int) : Bool :=
  e.ty.isInteger && e.intVal == some c

/-- `MutationReplaceExpr::ExprIsEquivalentToFloat` (mutation_replace_expr.cc
155-165); the constant is one of 0.0, 1.0, -1.0. -/
def ExprInfo.isFlt (e : ExprInfo) (c : FConst) : Bool :=
  e.ty.isFloat && e.floatVal == some c

/-- `MutationReplaceExpr::ExprIsEquivalentToBool` (mutation_replace_expr.cc
167-177). -/
def ExprInfo.isBoolConst (e : ExprInfo) (b : Bool) : Bool :=
  e.ty.isBool && e.boolVal == some b

/-- The disjunction "equivalent to int 0 or float 0.0" written out at many
places (for instance mutation_replace_binary_operator.cc 220-223). -/
def ExprInfo.isZero (e : ExprInfo) : Bool := e.isInt 0 || e.isFlt .zero

/-- "equivalent to int 1 or float 1.0" (mutation_replace_binary_operator.cc
225-228). -/
def ExprInfo.isOne (e : ExprInfo) : Bool := e.isInt 1 || e.isFlt .one

/-- "equivalent to int -1 or float -1.0" (mutation_replace_binary_operator.cc
230-233). -/
def ExprInfo.isMinusOne (e : ExprInfo) : Bool := e.isInt (-1) || e.isFlt .minusOne

end Dredd
