/-
Mutation of binary operators: mutation_replace_binary_operator.cc.
-/
import Verif.Model.Sites

namespace Dredd

/-- `IsValidReplacementOperator` (mutation_replace_binary_operator.cc
68-86). -/
def BinSite.isValid (s : BinSite) (op : BOp) : Bool :=
  !((s.lhs.ty.isFloat || s.rhs.ty.isFloat) &&
    (op == .rem || op == .andAssign || op == .orAssign || op == .remAssign ||
     op == .shlAssign || op == .shrAssign || op == .xorAssign))

/-- `IsRedundantReplacementForBooleanValuedOperator`
(mutation_replace_binary_operator.cc 1056-1082). -/
def redundantBool (orig op : BOp) : Bool :=
  match orig with
  | .land => op != .eq
  | .lor => op != .ne
  | .gt => op != .ge && op != .ne
  | .ge => op != .gt && op != .eq
  | .lt => op != .le && op != .ne
  | .le => op != .lt && op != .eq
  | .eq => op != .le && op != .ge
  | .ne => op != .lt && op != .gt
  | _ => false

/-- `IsRedundantReplacementForArithmeticOperator`
(mutation_replace_binary_operator.cc 1084-1155). -/
def redundantArith (lhs rhs : ExprInfo) (op : BOp) : Bool :=
  if lhs.isZero && rhs.isZero && op == .div then false
  else if rhs.isZero && (op == .add || op == .sub || op == .shl || op == .shr ||
      op == .mul || op == .rem) then true
  else if rhs.isOne && (op == .mul || op == .div) then true
  else if lhs.isZero && (op == .add || op == .shl || op == .shr || op == .mul ||
      op == .rem || op == .div) then true
  else if lhs.isOne && op == .mul then true
  else false

/-- `IsRedundantReplacementOperator` (mutation_replace_binary_operator.cc
54-64). -/
def BinSite.isRedundant (s : BinSite) (op : BOp) : Bool :=
  redundantBool s.op op || redundantArith s.lhs s.rhs op

/-- The suffix that `GetFunctionName` adds for one operand
(mutation_replace_binary_operator.cc 220-235 and 237-252). -/
def operandSuffix (e : ExprInfo) (zero one minusOne : Text) : Text :=
  if e.isZero then zero
  else if e.isOne then one
  else if e.isMinusOne then minusOne
  else []

/-- `GetFunctionName` (mutation_replace_binary_operator.cc 88-256). -/
def BinSite.fnName (s : BinSite) (l : Lang) (opt : Bool) : Text :=
  t!"__dredd_replace_binary_operator_" ++ s.op.fnName
  ++ t!"_arg1_"
  ++ spaceToUnderscore
      ((if s.op.isAssign && s.lhs.volatile then t!"volatile " else []) ++ s.lhs.ty.name l)
  ++ t!"_arg2_" ++ spaceToUnderscore (s.rhs.ty.name l)
  ++ (if opt && !s.op.isAssign then
        operandSuffix s.rhs t!"_rhs_zero" t!"_rhs_one" t!"_rhs_minus_one"
        ++ operandSuffix s.lhs t!"_lhs_zero" t!"_lhs_one" t!"_lhs_minus_one"
      else [])

/-- The six families of operators, in the order in which they are listed
(mutation_replace_binary_operator.cc 367-403). -/
def opFamilies : List (List BOp) :=
  [ [.add, .div, .mul, .rem, .sub],
    [.addAssign, .andAssign, .assign, .divAssign, .mulAssign, .orAssign,
     .remAssign, .shlAssign, .shrAssign, .subAssign, .xorAssign],
    [.and, .or, .xor],
    [.land, .lor],
    [.eq, .ne, .ge, .gt, .le, .lt],
    [.shl, .shr] ]

/-- `candidate_operator_kinds` (mutation_replace_binary_operator.cc
400-423). -/
def BinSite.candidates (s : BinSite) : List BOp :=
  match opFamilies.find? (fun fam => fam.contains s.op) with
  | none => []
  | some fam =>
    fam
    ++ (if s.op == .land || s.op == .lor then [.eq, .ne] else [])
    ++ (if s.lhs.ty.isBool && (s.op == .eq || s.op == .ne) then [.land, .lor] else [])

/-- `GetReplacementOperators` (mutation_replace_binary_operator.cc 364-436). -/
def BinSite.replacements (s : BinSite) (opt : Bool) : List BOp :=
  s.candidates.filter fun op =>
    !(op == s.op || !s.isValid op || (opt && s.isRedundant op))

/-- `GenerateBinaryOperatorReplacement` (mutation_replace_binary_operator.cc
344-362). -/
def BinSite.genOps (s : BinSite) (opt track : Bool) (base : Nat) (g : GenSt BAct) : GenSt BAct :=
  (s.replacements opt).foldl (fun g op => (g.clause track (.bin op)).inst base op.action) g

/-- "the operand is equivalent to 0, 1 or -1"
(mutation_replace_binary_operator.cc 293-304 and 320-331). -/
def ExprInfo.isSmallConst (e : ExprInfo) : Bool :=
  e.isInt 0 || e.isFlt .zero || e.isInt 1 || e.isFlt .one || e.isInt (-1) || e.isFlt .minusOne

/-- `GenerateArgumentReplacement` (mutation_replace_binary_operator.cc
258-342). -/
def BinSite.genArgs (s : BinSite) (opt track : Bool) (base : Nat) (g : GenSt BAct) : GenSt BAct :=
  if opt && s.op.isRelational then g
  else if s.op.isAssign then g
  else
    let g :=
      if !opt || !s.lhs.isSmallConst then
        (g.clause track (.arg .arg1)).inst base .ReplaceWithLHS
      else g
    if !opt || !s.rhs.isSmallConst then
      (g.clause track (.arg .arg2)).inst base .ReplaceWithRHS
    else g

/-- `lhs_type` after the adjustments of `Apply`
(mutation_replace_binary_operator.cc 563-567, 589-606). -/
def BinSite.lhsTyText (s : BinSite) (l : Lang) : Text :=
  let t := s.lhs.ty.name l
  if s.op.isAssign then
    (if s.lhs.volatile then t!"volatile " else []) ++ t ++ (if l.cpp then t!"&" else t!"*")
  else t

/-- `result_type` after the adjustments of `Apply`
(mutation_replace_binary_operator.cc 559-562, 589-606). -/
def BinSite.resTyText (s : BinSite) (l : Lang) : Text :=
  let t := s.resTy.name l
  if s.op.isAssign && l.cpp then
    (if s.lhs.volatile then t!"volatile " else []) ++ t ++ t!"&"
  else t

/-- How the left operand is passed (mutation_replace_binary_operator.cc
447-453, 467-475). -/
def BinSite.mode1 (s : BinSite) (l : Lang) : ArgMode :=
  if l.cpp && s.lhs.sideEffects then .thunk
  else if !l.cpp && s.op.isAssign then .deref
  else .value

/-- How the right operand is passed (mutation_replace_binary_operator.cc
455-461, 477-482). -/
def BinSite.mode2 (s : BinSite) (l : Lang) : ArgMode :=
  if l.cpp && (s.op.isLogical || s.rhs.sideEffects) then .thunk else .value

/-- The body of `GenerateMutatorFunction` before the closing lines
(mutation_replace_binary_operator.cc 484-502). -/
def BinSite.genBody (s : BinSite) (o : Options) (base : Nat) : GenSt BAct :=
  let g : GenSt BAct := { lines := if o.track then [] else [.quick (.bin s.op)] }
  s.genArgs o.optimise o.track base (s.genOps o.optimise o.track base g)

/-- `GenerateMutatorFunction` (mutation_replace_binary_operator.cc 438-521). -/
def BinSite.genFn (s : BinSite) (l : Lang) (o : Options) (base : Nat) : MutFn :=
  let g := s.genBody o base
  { resTy := s.resTyText l
    name := s.fnName l o.optimise
    params := [⟨.arg1, s.lhsTyText l, s.mode1 l⟩, ⟨.arg2, s.rhs.ty.name l, s.mode2 l⟩]
    lines := g.lines ++ (if o.track then [.record g.off] else []) ++ [.ret (.bin s.op)]
    tail := t!"}\n\n" }

/-- The comment added by --show-ast-node-types
(mutation_replace_binary_operator.cc 667-672). -/
def nodeComment (o : Options) (node : Text) : Text :=
  if o.showAst then t!"/*" ++ node ++ t!"*/" else []

/-- `[&]() -> T { return static_cast<T>(` (mutation_replace_binary_operator.cc
680-681, 686-687). -/
def lambdaPrefix (ty : Text) : Text :=
  t!"[&]() -> " ++ ty ++ t!" { return static_cast<" ++ ty ++ t!">("

/-- `); }` (mutation_replace_binary_operator.cc 682, 688). -/
def lambdaSuffix : Text := t!"); }"

/-- `ReplaceOperator` (mutation_replace_binary_operator.cc 627-712). -/
def BinSite.replaceOperator (s : BinSite) (l : Lang) (o : Options) (localId : Nat) : List Edit :=
  let lhsTy := s.lhsTyText l
  let rhsTy := s.rhs.ty.name l
  let (lhsPre, lhsSuf) : Text × Text :=
    if l.cpp then
      if s.lhs.sideEffects then (lambdaPrefix lhsTy, lambdaSuffix) else ([], [])
    else
      if s.op.isAssign then (t!"&(", t!")") else ([], [])
  let (rhsPre, rhsSuf) : Text × Text :=
    if l.cpp && (s.op.isLogical || s.rhs.sideEffects) then (lambdaPrefix rhsTy, lambdaSuffix)
    else ([], [])
  replaceSymbol s.opOff s.op.str.length t!"," ++
  [ .before s.lhsSpan.b
      [.txt (s.fnName l o.optimise ++ nodeComment o s.node ++ t!"(" ++ lhsPre)],
    .after s.lhsSpan.e [.txt lhsSuf],
    .before s.rhsSpan.b [.txt rhsPre],
    .after s.rhsSpan.e [.txt (rhsSuf ++ t!", "), .id localId, .txt t!")"] ]

/-- The three functions of `HandleCLogicalOperator`: for the left operand
(mutation_replace_binary_operator.cc 756-783), the right operand (798-826) and
the whole expression (841-868). -/
def cLogicalLhsFn (s : BinSite) (l : Lang) (o : Options) : MutFn :=
  { resTy := s.lhs.ty.name l
    name := s.fnName l o.optimise ++ t!"_lhs"
    params := [⟨.arg, s.lhs.ty.name l, .value⟩]
    lines :=
      [ .quick (.arg .arg),
        .guard 0 (.un .lnot),
        .guard 2 (.lit (if s.op == .land then .one else .zero)),
        .ret (.arg .arg) ]
    tail := t!"}\n" }

/-- The function around the right operand (mutation_replace_binary_operator.cc
798-826). -/
def cLogicalRhsFn (s : BinSite) (l : Lang) (o : Options) : MutFn :=
  { resTy := s.rhs.ty.name l
    name := s.fnName l o.optimise ++ t!"_rhs"
    params := [⟨.arg, s.rhs.ty.name l, .value⟩]
    lines :=
      [ .quick (.arg .arg),
        .guard 0 (.un .lnot),
        .guard 1 (.lit (if s.op == .land then .one else .zero)),
        .ret (.arg .arg) ]
    tail := t!"}\n" }

/-- The function around the whole expression
(mutation_replace_binary_operator.cc 841-868). -/
def cLogicalOuterFn (s : BinSite) (l : Lang) (o : Options) : MutFn :=
  { resTy := s.resTy.name l
    name := s.fnName l o.optimise ++ t!"_outer"
    params := [⟨.arg, s.resTy.name l, .value⟩]
    lines :=
      (if o.track then [.record 3] else [.guard 0 (.un .lnot)]) ++ [.ret (.arg .arg)]
    tail := t!"}\n" }

/-- A call wrapped around a range: `InsertTextBefore(begin, name + "(")` and
`InsertTextAfterToken(end, ", " + id + ")")`
(mutation_replace_binary_operator.cc 750-754, 792-796, 835-839). -/
def wrapCall (name : Text) (sp : Span) (localId : Nat) : List Edit :=
  [ .before sp.b [.txt (name ++ t!"(")],
    .after sp.e [.txt t!", ", .id localId, .txt t!")"] ]

/-- `HandleCLogicalOperator` (mutation_replace_binary_operator.cc 714-897). -/
def BinSite.applyCLogical (s : BinSite) (l : Lang) (o : Options) (first id : Nat) : Applied :=
  let n := s.fnName l o.optimise
  let insts : GenSt BAct :=
    ((({ } : GenSt BAct).inst id (if s.op == .land then .ReplaceWithLOr else .ReplaceWithLAnd)).inst
      id .ReplaceWithLHS).inst id .ReplaceWithRHS
  { group := .replaceBin s.op.proto s.info s.lhsInfo s.rhsInfo insts.insts
    nextId := id + 3
    edits :=
      (if o.track then []
       else wrapCall (n ++ t!"_lhs") s.lhsSpan (id - first)
         ++ wrapCall (n ++ t!"_rhs") s.rhsSpan (id - first))
      ++ wrapCall (n ++ t!"_outer") s.span (id - first)
    decls :=
      (if o.track then [] else [cLogicalLhsFn s l o, cLogicalRhsFn s l o])
      ++ [cLogicalOuterFn s l o] }

/-- `MutationReplaceBinaryOperator::Apply` (mutation_replace_binary_operator.cc
523-625). -/
def BinSite.apply (s : BinSite) (l : Lang) (o : Options) (first id : Nat) : Applied :=
  if !l.cpp && s.op.isLogical then s.applyCLogical l o first id
  else
    let g := s.genBody o id
    { group := .replaceBin s.op.proto s.info s.lhsInfo s.rhsInfo g.insts
      nextId := id + g.off
      edits := s.replaceOperator l o (id - first)
      decls := [s.genFn l o id] }

end Dredd
