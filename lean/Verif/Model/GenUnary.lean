/-
Mutation of unary operators: mutation_replace_unary_operator.cc.
-/
import Verif.Model.GenBinary

namespace Dredd

/-- `IsValidReplacementOperator` (mutation_replace_unary_operator.cc 53-95). -/
def UnSite.isValid (s : UnSite) (op : UOp) : Bool :=
  if !s.sub.lvalue && (op == .preInc || op == .preDec || op == .postInc || op == .postDec) then
    false
  else if (s.op == .postDec || s.op == .postInc) && (op == .preDec || op == .preInc) then false
  else if (s.op == .preDec || s.op == .preInc) && (op == .postDec || op == .postInc) then false
  else if s.self.lvalue && !(op == .preInc || op == .preDec) then false
  else if op == .not && s.sub.ty.isFloat then false
  else true

/-- `IsRedundantReplacementOperator` (mutation_replace_unary_operator.cc
254-283). -/
def UnSite.isRedundant (s : UnSite) (op : UOp) : Bool :=
  if (s.sub.isInt 0 || s.sub.isFlt .zero || s.sub.isInt 1 || s.sub.isFlt .one)
      && (op == .minus || op == .lnot) then true
  else if (s.sub.isInt (-1) || s.sub.isFlt .minusOne) && op == .minus then true
  else false

/-- `IsOperatorSelfInverse` (mutation_replace_unary_operator.cc 530-539). -/
def UOp.isSelfInverse : UOp → Bool
  | .lnot | .minus | .not => true
  | _ => false

/-- `GetFunctionName` (mutation_replace_unary_operator.cc 97-180). -/
def UnSite.fnName (s : UnSite) (l : Lang) (opt : Bool) : Text :=
  t!"__dredd_replace_unary_operator_" ++ s.op.fnName
  ++ (if s.sub.lvalue && s.sub.volatile then t!"_volatile" else [])
  ++ t!"_" ++ spaceToUnderscore (s.sub.ty.name l)
  ++ (if opt && s.sub.isZero then t!"_zero" else [])
  ++ (if opt && s.sub.isOne then t!"_one" else [])
  ++ (if opt && s.sub.isMinusOne then t!"_minus_one" else [])

/-- `candidate_replacement_operators` (mutation_replace_unary_operator.cc
291-298). -/
def unaryCandidates : List UOp :=
  [.preInc, .postInc, .preDec, .postDec, .not, .minus, .lnot]

/-- The operators that survive the checks (mutation_replace_unary_operator.cc
300-306). -/
def UnSite.replacements (s : UnSite) (opt : Bool) : List UOp :=
  unaryCandidates.filter fun op =>
    !(op == s.op || !s.isValid op || (opt && s.isRedundant op))

/-- `GenerateUnaryOperatorReplacement` (mutation_replace_unary_operator.cc
285-337). -/
def UnSite.genOps (s : UnSite) (opt track : Bool) (base : Nat) (g : GenSt UAct) : GenSt UAct :=
  let g := (s.replacements opt).foldl
    (fun g op => (g.clause track (.un op)).inst base op.action) g
  if !opt || !s.op.isSelfInverse then
    (g.clause track (.arg .arg)).inst base .ReplaceWithOperand
  else g

/-- `MutationReplaceExpr::ApplyCppTypeModifiers` (mutation_replace_expr.cc
512-523). -/
def cppTypeModifiers (e : ExprInfo) (ty : Text) : Text :=
  if e.lvalue then
    (if e.volatile then t!"volatile " else if e.const then t!"const " else []) ++ ty ++ t!"&"
  else ty

/-- `MutationReplaceExpr::ApplyCTypeModifiers` (mutation_replace_expr.cc
525-536).  In the `const` case the code appends (`+=`) instead of prepending,
which duplicates the type; this is as in the code. -/
def cTypeModifiers (e : ExprInfo) (ty : Text) : Text :=
  if e.lvalue then
    if e.volatile then t!"volatile " ++ ty ++ t!"*"
    else if e.const then ty ++ t!"*" ++ t!"const " ++ ty ++ t!"*"
    else ty ++ t!"*"
  else ty

/-- `input_type` (mutation_replace_unary_operator.cc 376-389). -/
def UnSite.inputTy (s : UnSite) (l : Lang) : Text :=
  if l.cpp then cppTypeModifiers s.sub (s.sub.ty.name l) else cTypeModifiers s.sub (s.sub.ty.name l)

/-- `result_type` (mutation_replace_unary_operator.cc 372-375, 385). -/
def UnSite.resTyText (s : UnSite) (l : Lang) : Text :=
  if l.cpp then cppTypeModifiers s.self (s.self.ty.name l) else s.self.ty.name l

/-- How the operand is passed (mutation_replace_unary_operator.cc 189-194,
197-206). -/
def UnSite.mode (s : UnSite) (l : Lang) : ArgMode :=
  if l.cpp && s.self.sideEffects then .thunk
  else if !l.cpp && s.op.isIncDec then .deref
  else .value

/-- The body of `GenerateMutatorFunction` before the closing lines
(mutation_replace_unary_operator.cc 208-230). -/
def UnSite.genBody (s : UnSite) (o : Options) (base : Nat) : GenSt UAct :=
  let g : GenSt UAct := { lines := if o.track then [] else [.quick (.un s.op)] }
  s.genOps o.optimise o.track base g

/-- `GenerateMutatorFunction` (mutation_replace_unary_operator.cc 182-252). -/
def UnSite.genFn (s : UnSite) (l : Lang) (o : Options) (base : Nat) : MutFn :=
  let g := s.genBody o base
  { resTy := s.resTyText l
    name := s.fnName l o.optimise
    params := [⟨.arg, s.inputTy l, s.mode l⟩]
    lines := g.lines ++ (if o.track then [.record g.off] else []) ++ [.ret (.un s.op)]
    tail := t!"}\n\n" }

/-- The text put before an expression that is passed as lambda: no cast if it
is a constant expression (mutation_replace_unary_operator.cc 431-436,
mutation_replace_expr.cc 565-569). -/
def exprLambdaPrefix (constExpr : Bool) (ty : Text) : Text :=
  t!"[&]() -> " ++ ty ++ t!" { return "
    ++ (if constExpr then [] else t!"static_cast<" ++ ty ++ t!">(")

/-- The text put after an expression that is passed as lambda
(mutation_replace_unary_operator.cc 437-440, mutation_replace_expr.cc
570-571). -/
def exprLambdaSuffix (constExpr : Bool) : Text :=
  (if constExpr then [] else t!")") ++ t!"; }"

/-- The edits of `MutationReplaceUnaryOperator::Apply`
(mutation_replace_unary_operator.cc 401-457). -/
def UnSite.edits (s : UnSite) (l : Lang) (o : Options) (localId : Nat) : List Edit :=
  let (lamPre, lamSuf) : Text × Text :=
    if l.cpp && s.self.sideEffects then
      (exprLambdaPrefix s.sub.cxx11Const (s.inputTy l), exprLambdaSuffix s.sub.cxx11Const)
    else ([], [])
  let (refPre, refSuf) : Text × Text :=
    if !l.cpp && s.op.isIncDec then (t!"&(", t!")") else ([], [])
  replaceSymbol s.opOff s.op.str.length [] ++
  [ .before s.span.b
      [.txt (s.fnName l o.optimise ++ nodeComment o s.node ++ t!"(" ++ lamPre ++ refPre)],
    .after s.span.e [.txt (lamSuf ++ refSuf ++ t!", "), .id localId, .txt t!")"] ]

/-- `MutationReplaceUnaryOperator::Apply` (mutation_replace_unary_operator.cc
339-470). -/
def UnSite.apply (s : UnSite) (l : Lang) (o : Options) (first id : Nat) : Applied :=
  let g := s.genBody o id
  { group := .replaceUn s.op.proto s.info s.subInfo g.insts
    nextId := id + g.off
    edits := s.edits l o (id - first)
    decls := [s.genFn l o id] }

end Dredd
