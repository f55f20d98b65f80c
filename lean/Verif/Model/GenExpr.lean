/-
Mutation of expressions: mutation_replace_expr.cc.
-/
import Verif.Model.GenUnary

namespace Dredd

/-- `IsBooleanReplacementRedundantForBinaryOperator` (mutation_replace_expr.cc
728-759). -/
def ExprSite.boolRedundant (s : ExprSite) (l : Lang) (v : Bool) : Bool :=
  match s.binOp with
  | some .land => l.cpp && v
  | some .lor => l.cpp && !v
  | some .gt | some .lt | some .eq => v
  | some .ge | some .le | some .ne => !v
  | _ => false

/-- `IsRedundantUnaryMinusInsertion` (mutation_replace_expr.cc 761-784). -/
def ExprSite.minusRedundant (s : ExprSite) (l : Lang) : Bool :=
  if s.self.isInt 0 || s.self.isFlt .zero then true
  else if s.self.ty.isSigned l && (s.self.isInt 1 || s.self.isInt (-1)) then true
  else if s.self.isFlt .one || s.self.isFlt .minusOne then true
  else false

/-- `IsRedundantUnaryNotInsertion` (mutation_replace_expr.cc 786-797). -/
def ExprSite.notRedundant (s : ExprSite) (l : Lang) : Bool :=
  s.self.ty.isSigned l && (s.self.isInt 0 || s.self.isInt (-1))

/-- `IsRedundantUnaryLogicalNotInsertion` (mutation_replace_expr.cc
799-826). -/
def ExprSite.lnotRedundant (s : ExprSite) : Bool :=
  (s.self.ty.isBool && s.self.boolVal.isSome) || s.self.intVal.isSome

/-- `IsRedundantOperatorInsertionBeforeBinaryExpr` (mutation_replace_expr.cc
828-862). -/
def ExprSite.beforeBinaryRedundant (s : ExprSite) (l : Lang) : Bool :=
  match s.binOp with
  | some .land | some .lor => l.cpp
  | some .eq | some .ne | some .gt | some .ge | some .lt | some .le => true
  | _ => false

/-- `IsRedundantOperatorInsertionBeforeLogicalOperatorArgument`
(mutation_replace_expr.cc 864-887). -/
def ExprSite.beforeLogicalArgRedundant (s : ExprSite) (l : Lang) : Bool :=
  l.cpp && s.logicalArg

/-- `IsRedundantOperatorInsertion` (mutation_replace_expr.cc 179-201); the
operator is one of `-`, `~`, `!`. -/
def ExprSite.insertionRedundant (s : ExprSite) (l : Lang) (op : UOp) : Bool :=
  if s.beforeBinaryRedundant l then true
  else if s.beforeLogicalArgRedundant l then true
  else match op with
    | .minus => s.minusRedundant l
    | .not => s.notRedundant l
    | .lnot => s.lnotRedundant
    | _ => false

/-- `AddOptimisationSpecifier` (mutation_replace_expr.cc 101-140). -/
def ExprSite.optSpecifier (s : ExprSite) (l : Lang) : Text :=
  (if (s.self.ty.isInteger && !s.self.ty.isBool) || s.self.ty.isFloat then
    if s.self.isZero then t!"_zero"
    else if s.self.isOne then t!"_one"
    else if s.self.isMinusOne then t!"_minus_one"
    else if s.self.intVal.isSome then t!"_constant"
    else []
   else [])
  ++ (if s.self.ty.isBool then
        if s.self.isBoolConst true then t!"_true"
        else if s.self.isBoolConst false then t!"_false"
        else []
      else [])
  ++ (if s.beforeLogicalArgRedundant l then t!"_before_logical_operator_argument" else [])
  ++ (if s.boolRedundant l true then t!"_omit_true" else [])
  ++ (if s.boolRedundant l false then t!"_omit_false" else [])

/-- `GetFunctionName` (mutation_replace_expr.cc 68-99). -/
def ExprSite.fnName (s : ExprSite) (l : Lang) (opt : Bool) : Text :=
  t!"__dredd_replace_expr_"
  ++ (if s.self.lvalue && s.self.volatile then t!"volatile_" else [])
  ++ spaceToUnderscore (s.self.ty.name l)
  ++ (if s.self.lvalue then t!"_lvalue" else [])
  ++ (if opt then s.optSpecifier l else [])

/-- `GenerateUnaryOperatorInsertionBeforeLValue` (mutation_replace_expr.cc
203-228). -/
def ExprSite.genInsLValue (s : ExprSite) (track : Bool) (base : Nat) (g : GenSt EAct) :
    GenSt EAct :=
  if !s.self.lvalue || !s.canMutateLValue then g
  else
    let g := (g.clause track (.ins .preInc)).inst base .InsertPreInc
    (g.clause track (.ins .preDec)).inst base .InsertPreDec

/-- `GenerateUnaryOperatorInsertionBeforeNonLValue` (mutation_replace_expr.cc
230-285). -/
def ExprSite.genInsNonLValue (s : ExprSite) (l : Lang) (opt track : Bool) (base : Nat)
    (g : GenSt EAct) : GenSt EAct :=
  if s.self.lvalue then g
  else
    let g :=
      if s.self.ty.isBool || s.self.ty.isInteger then
        if !opt || !s.insertionRedundant l .lnot then
          (g.clause track (.ins .lnot)).inst base .InsertLNot
        else g
      else g
    let g :=
      if s.self.ty.isInteger && !s.self.ty.isBool then
        if !opt || !s.insertionRedundant l .not then
          (g.clause track (.ins .not)).inst base .InsertNot
        else g
      else g
    if s.self.ty.isSigned l || s.self.ty.isFloat then
      if !opt || !s.insertionRedundant l .minus then
        (g.clause track (.ins .minus)).inst base .InsertMinus
      else g
    else g

/-- `GenerateBooleanConstantReplacement` (mutation_replace_expr.cc 416-455). -/
def ExprSite.genBool (s : ExprSite) (l : Lang) (opt track : Bool) (base : Nat)
    (g : GenSt EAct) : GenSt EAct :=
  if s.self.ty.isBool then
    let g :=
      if !opt || (!s.self.isBoolConst true && !s.boolRedundant l true) then
        (g.clause track (.lit (if l.cpp then .true_ else .one))).inst base .ReplaceWithTrue
      else g
    if !opt || (!s.self.isBoolConst false && !s.boolRedundant l false) then
      (g.clause track (.lit (if l.cpp then .false_ else .zero))).inst base .ReplaceWithFalse
    else g
  else g

/-- `GenerateIntegerConstantReplacement` (mutation_replace_expr.cc 368-415). -/
def ExprSite.genInt (s : ExprSite) (l : Lang) (opt track : Bool) (base : Nat)
    (g : GenSt EAct) : GenSt EAct :=
  let g :=
    if s.self.ty.isInteger && !s.self.ty.isBool then
      let g :=
        if !opt || !s.self.isInt 0 then
          (g.clause track (.lit .zero)).inst base .ReplaceWithZeroInt
        else g
      if !opt || !s.self.isInt 1 then
        (g.clause track (.lit .one)).inst base .ReplaceWithOneInt
      else g
    else g
  if s.self.ty.isSigned l then
    if !opt || !s.self.isInt (-1) then
      (g.clause track (.lit .minusOne)).inst base .ReplaceWithMinusOneInt
    else g
  else g

/-- `GenerateFloatConstantReplacement` (mutation_replace_expr.cc 320-367). -/
def ExprSite.genFloat (s : ExprSite) (opt track : Bool) (base : Nat)
    (g : GenSt EAct) : GenSt EAct :=
  if s.self.ty.isFloat then
    let g :=
      if !opt || !s.self.isFlt .zero then
        (g.clause track (.lit .zeroF)).inst base .ReplaceWithZeroFloat
      else g
    let g :=
      if !opt || !s.self.isFlt .one then
        (g.clause track (.lit .oneF)).inst base .ReplaceWithOneFloat
      else g
    if !opt || !s.self.isFlt .minusOne then
      (g.clause track (.lit .minusOneF)).inst base .ReplaceWithMinusOneFloat
    else g
  else g

/-- `GenerateConstantReplacement` (mutation_replace_expr.cc 302-318). -/
def ExprSite.genConsts (s : ExprSite) (l : Lang) (opt track : Bool) (base : Nat)
    (g : GenSt EAct) : GenSt EAct :=
  if !s.self.lvalue then
    s.genFloat opt track base (s.genInt l opt track base (s.genBool l opt track base g))
  else g

/-- `GenerateUnaryOperatorInsertion` (mutation_replace_expr.cc 287-300). -/
def ExprSite.genIns (s : ExprSite) (l : Lang) (opt track : Bool) (base : Nat)
    (g : GenSt EAct) : GenSt EAct :=
  s.genInsNonLValue l opt track base (s.genInsLValue track base g)

/-- How the expression is passed (mutation_replace_expr.cc 464-480). -/
def ExprSite.mode (s : ExprSite) (l : Lang) : ArgMode :=
  if l.cpp && s.self.sideEffects then .thunk
  else if !l.cpp && s.self.lvalue then .deref
  else .value

/-- `input_type` (mutation_replace_expr.cc 664-673). -/
def ExprSite.inputTy (s : ExprSite) (l : Lang) : Text :=
  if l.cpp then cppTypeModifiers s.self (s.self.ty.name l)
  else cTypeModifiers s.self (s.self.ty.name l)

/-- The body of `GenerateMutatorFunction` before the closing lines
(mutation_replace_expr.cc 482-497). -/
def ExprSite.genBody (s : ExprSite) (l : Lang) (o : Options) (base : Nat) : GenSt EAct :=
  let g : GenSt EAct := { lines := if o.track then [] else [.quick (.arg .arg)] }
  s.genConsts l o.optimise o.track base (s.genIns l o.optimise o.track base g)

/-- `GenerateMutatorFunction` (mutation_replace_expr.cc 457-510). -/
def ExprSite.genFn (s : ExprSite) (l : Lang) (o : Options) (base : Nat) : MutFn :=
  let g := s.genBody l o base
  { resTy := s.self.ty.name l
    name := s.fnName l o.optimise
    params := [⟨.arg, s.inputTy l, s.mode l⟩]
    lines := g.lines ++ (if o.track then [.record g.off] else []) ++ [.ret (.arg .arg)]
    tail := t!"}\n\n" }

/-- `ReplaceExprWithFunctionCall` (mutation_replace_expr.cc 538-639). -/
def ExprSite.edits (s : ExprSite) (l : Lang) (o : Options) (localId : Nat) : List Edit :=
  let prefix0 := s.fnName l o.optimise ++ nodeComment o s.node ++ t!"("
  let (prefix1, suffix1) : Text × Text :=
    if l.cpp && s.self.sideEffects then
      (prefix0 ++ exprLambdaPrefix s.self.cxx11Const (s.inputTy l),
        exprLambdaSuffix s.self.cxx11Const)
    else (prefix0, [])
  let (prefix2, suffix2) : Text × Text :=
    if !l.cpp && s.self.lvalue && (s.inputTy l).getLast? == some '*' then
      (prefix1 ++ t!"&(", t!")" ++ suffix1)
    else (prefix1, suffix1)
  let (prefix3, suffix3) : Text × Text :=
    if s.binOp == some .comma then (prefix2 ++ t!"(", t!")" ++ suffix2)
    else (prefix2, suffix2)
  let (prefix4, castSuf) : Text × Text :=
    match s.initListCast with
    | some ty => (t!"static_cast<" ++ ty.name l ++ t!">(" ++ prefix3, t!")")
    | none => (prefix3, [])
  let prefix5 := if s.precIdent then t!" " ++ prefix4 else prefix4
  [ .before s.span.b [.txt prefix5],
    .after s.span.e [.txt (suffix3 ++ t!", "), .id localId, .txt (t!")" ++ castSuf)] ]

/-- `MutationReplaceExpr::Apply` (mutation_replace_expr.cc 641-693). -/
def ExprSite.apply (s : ExprSite) (l : Lang) (o : Options) (first id : Nat) : Applied :=
  let g := s.genBody l o id
  { group := .replaceExpr s.info g.insts
    nextId := id + g.off
    edits := s.edits l o (id - first)
    decls := [s.genFn l o id] }

end Dredd
