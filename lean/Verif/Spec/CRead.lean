/-
A reader for the C and C++ text of small functions (C59): tokens (`Spec/Lex.lean`), a
recursive descent parser for expressions, statements and function definitions, and what
they mean on the machine of `Sem/Machine.lean`.  Nothing here depends on how the tool
writes the functions.
Simplified: there are no casts, conditional expressions, comma expressions, member
accesses nor subscripts, and of statements only `if (c) return e;`, `return e;` and
expression statements.
-/
import Verif.Spec.Lex
import Verif.Spec.Env
import Verif.Sem.Exec

namespace Dredd

/-! ### Expressions -/

/-- An expression; parentheses are left out. -/
inductive CExpr
  | name (x : Text)
  | num (x : Text)
  | call (f : CExpr) (args : List CExpr)
  | pre (op : Text) (e : CExpr)
  | post (op : Text) (e : CExpr)
  | bin (op : Text) (a b : CExpr)

/-- The token is an identifier or keyword. -/
def isIdent : Text → Bool
  | [] => false
  | c :: _ => wordChar c && !c.isDigit

/-- The token is a number. -/
def isNum : Text → Bool
  | [] => false
  | c :: cs => c.isDigit || (c == '.' && !cs.isEmpty && cs.all fun d => d.isDigit || wordChar d)

/-- Prefix operators (C11 6.5.3). -/
def prefixOps : List Text := [t!"++", t!"--", t!"&", t!"*", t!"+", t!"-", t!"~", t!"!"]

/-- Binary operators and how tight they bind; assignments (1) group to the right (C11 6.5.5 to
6.5.16). -/
def binPrec (t : Text) : Option Nat :=
  if t ∈ [t!"*", t!"/", t!"%"] then some 11
  else if t ∈ [t!"+", t!"-"] then some 10
  else if t ∈ [t!"<<", t!">>"] then some 9
  else if t ∈ [t!"<", t!">", t!"<=", t!">="] then some 8
  else if t ∈ [t!"==", t!"!="] then some 7
  else if t = t!"&" then some 6
  else if t = t!"^" then some 5
  else if t = t!"|" then some 4
  else if t = t!"&&" then some 3
  else if t = t!"||" then some 2
  else if t ∈ [t!"=", t!"*=", t!"/=", t!"%=", t!"+=", t!"-=", t!"<<=", t!">>=", t!"&=", t!"^=", t!"|="]
  then some 1
  else none

/-- The next token is taken. -/
def want (t : Text) : List Text → Option (List Text)
  | [] => none
  | x :: xs => if x = t then some xs else none

mutual
/-- An operand with its prefix and postfix operators.  The number bounds the recursion. -/
def readUnary : Nat → List Text → Option (CExpr × List Text)
  | 0, _ => none
  | _ + 1, [] => none
  | n + 1, t :: ts =>
    if t ∈ prefixOps then (readUnary n ts).bind fun (e, r) => some (.pre t e, r)
    else if t = t!"(" then
      (readBinary n 1 ts).bind fun (e, r) => (want t!")" r).bind fun r => readPostfix n e r
    else if isIdent t then readPostfix n (.name t) ts
    else if isNum t then readPostfix n (.num t) ts
    else none

/-- What comes after the operand `e`. -/
def readPostfix : Nat → CExpr → List Text → Option (CExpr × List Text)
  | 0, _, _ => none
  | _ + 1, e, [] => some (e, [])
  | n + 1, e, t :: ts =>
    if t = t!"(" then
      match want t!")" ts with
      | some r => readPostfix n (.call e []) r
      | none => (readArgs n ts).bind fun (as, r) => readPostfix n (.call e as) r
    else if t = t!"++" ∨ t = t!"--" then readPostfix n (.post t e) ts
    else some (e, t :: ts)

/-- One or more arguments and the closing parenthesis. -/
def readArgs : Nat → List Text → Option (List CExpr × List Text)
  | 0, _ => none
  | n + 1, ts =>
    (readBinary n 1 ts).bind fun (e, r) =>
      match want t!"," r with
      | some r => (readArgs n r).bind fun (as, r) => some (e :: as, r)
      | none => (want t!")" r).bind fun r => some ([e], r)

/-- An expression of operators that bind at least as tight as `p`. -/
def readBinary : Nat → Nat → List Text → Option (CExpr × List Text)
  | 0, _, _ => none
  | n + 1, p, ts => (readUnary n ts).bind fun (a, r) => readOps n p a r

/-- The operators that follow, `a` being the left operand. -/
def readOps : Nat → Nat → CExpr → List Text → Option (CExpr × List Text)
  | 0, _, _, _ => none
  | _ + 1, _, a, [] => some (a, [])
  | n + 1, p, a, t :: ts =>
    match binPrec t with
    | none => some (a, t :: ts)
    | some q =>
      if q < p then some (a, t :: ts)
      else (readBinary n (if q = 1 then 1 else q + 1) ts).bind fun (b, r) => readOps n p (.bin t a b) r
end

/-- An expression. -/
def readExpr (ts : List Text) : Option (CExpr × List Text) := readBinary (4 * ts.length + 4) 1 ts

/-! ### Statements -/

inductive CStmt
  | ifReturn (c e : CExpr)
  | return_ (e : CExpr)
  | expr (e : CExpr)

/-- A statement. -/
def readStmt (ts : List Text) : Option (CStmt × List Text) :=
  match want t!"if" ts with
  | some r =>
    (want t!"(" r).bind fun r => (readExpr r).bind fun (c, r) => (want t!")" r).bind fun r =>
      (want t!"return" r).bind fun r => (readExpr r).bind fun (e, r) => (want t!";" r).bind fun r =>
        some (.ifReturn c e, r)
  | none =>
    match want t!"return" ts with
    | some r => (readExpr r).bind fun (e, r) => (want t!";" r).bind fun r => some (.return_ e, r)
    | none => (readExpr ts).bind fun (e, r) => (want t!";" r).bind fun r => some (.expr e, r)

/-- Statements up to the closing brace.  The number bounds the recursion. -/
def readStmts : Nat → List Text → Option (List CStmt × List Text)
  | 0, _ => none
  | n + 1, ts =>
    match want t!"}" ts with
    | some r => some ([], r)
    | none => (readStmt ts).bind fun (s, r) => (readStmts n r).bind fun (ss, r) => some (s :: ss, r)

/-! ### Functions -/

/-- A parameter: the tokens of its type, and its name. -/
structure CParam where
  ty : List Text
  name : Text

structure CFn where
  resTy : List Text
  name : Text
  params : List CParam
  body : List CStmt

/-- The tokens between the parentheses of a parameter list, divided at the commas; `depth` counts
parentheses within, `cur` is the current parameter. -/
def readParams (depth : Nat) (cur : List Text) : List Text → Option (List (List Text) × List Text)
  | [] => none
  | t :: ts =>
    if t = t!")" ∧ depth = 0 then some ([cur], ts)
    else if t = t!"," ∧ depth = 0 then (readParams 0 [] ts).map fun x => (cur :: x.1, x.2)
    else readParams (if t = t!"(" then depth + 1 else if t = t!")" then depth - 1 else depth)
      (cur ++ [t]) ts

/-- Type and name: the last token is the name. -/
def splitName (ts : List Text) : Option (List Text × Text) :=
  match ts.getLast? with
  | some x => if isIdent x = true ∧ 1 < ts.length then some (ts.dropLast, x) else none
  | none => none

/-- A function definition that begins with `static`. -/
def readFn (ts : List Text) : Option (CFn × List Text) :=
  (want t!"static" ts).bind fun r =>
    (splitName (r.takeWhile (· ≠ t!"("))).bind fun (ty, x) =>
      (want t!"(" (r.dropWhile (· ≠ t!"("))).bind fun r =>
        (readParams 0 [] r).bind fun (ps, r) =>
          (ps.mapM splitName).bind fun ps =>
            (want t!"{" r).bind fun r =>
              (readStmts r.length r).bind fun (b, r) =>
                some (⟨ty, x, ps.map fun p => ⟨p.1, p.2⟩, b⟩, r)

/-- Function definitions up to the end.  The number bounds the recursion. -/
def readFnsN : Nat → List Text → Option (List CFn)
  | _, [] => some []
  | 0, _ => none
  | n + 1, ts => (readFn ts).bind fun (f, r) => (readFnsN n r).bind fun fs => some (f :: fs)

/-- A text that is a sequence of function definitions. -/
def readFns (t : Text) : Option (List CFn) := readFnsN (tokens t).length (tokens t)

/-! ### Meaning -/

/-- How a parameter is used: as a value (or reference), as a function object without parameters,
or as a pointer. -/
inductive Pass
  | value | function | pointer
deriving DecidableEq

/-- By its type. -/
def CParam.pass (p : CParam) : Pass :=
  if p.ty.take 4 = [t!"std", t!"::", t!"function", t!"<"] then .function
  else if p.ty.getLast? = some t!"*" then .pointer
  else .value

/-- How the parameter named `x` is used, if there is one. -/
def CFn.pass (f : CFn) (x : Text) : Option Pass := (f.params.find? (·.name = x)).map (·.pass)

/-- A type as text: words are separated by a space. -/
def typeText : List Text → Text
  | [] => []
  | [t] => t
  | t :: u :: ts => t ++ (if isIdent t && isIdent u then t!" " else []) ++ typeText (u :: ts)

/-- Binary operators. -/
def binOp? (t : Text) : Option BOp :=
  [(t!"*", BOp.mul), (t!"/", .div), (t!"%", .rem), (t!"+", .add), (t!"-", .sub), (t!"<<", .shl),
   (t!">>", .shr), (t!"<", .lt), (t!">", .gt), (t!"<=", .le), (t!">=", .ge), (t!"==", .eq),
   (t!"!=", .ne), (t!"&", .and), (t!"^", .xor), (t!"|", .or), (t!"&&", .land), (t!"||", .lor),
   (t!"=", .assign), (t!"*=", .mulAssign), (t!"/=", .divAssign), (t!"%=", .remAssign),
   (t!"+=", .addAssign), (t!"-=", .subAssign), (t!"<<=", .shlAssign), (t!">>=", .shrAssign),
   (t!"&=", .andAssign), (t!"^=", .xorAssign), (t!"|=", .orAssign)].lookup t

/-- Prefix operators. -/
def preOp? (t : Text) : Option UOp :=
  [(t!"++", UOp.preInc), (t!"--", .preDec), (t!"&", .addrOf), (t!"*", .deref), (t!"+", .plus),
   (t!"-", .minus), (t!"~", .not), (t!"!", .lnot)].lookup t

/-- Postfix operators. -/
def postOp? (t : Text) : Option UOp := [(t!"++", UOp.postInc), (t!"--", .postDec)].lookup t

/-- Literals that the machine knows; a minus sign belongs to the literal. -/
def literal? : CExpr → Option Lit
  | .num t => [(t!"0", Lit.zero), (t!"1", .one), (t!"0.0", .zeroF), (t!"1.0", .oneF)].lookup t
  | .name t => [(t!"true", Lit.true_), (t!"false", .false_)].lookup t
  | .pre op (.num t) =>
    if op = t!"-" then [(t!"1", Lit.minusOne), (t!"1.0", .minusOneF)].lookup t else none
  | _ => none

/-- The parameter that an expression stands for: named directly, or called, or dereferenced,
according to how it is passed. -/
def mention? (pass : Text → Option Pass) : CExpr → Option Text
  | .name x => if pass x = some .value then some x else none
  | .call (.name x) [] => if pass x = some .function then some x else none
  | .pre op (.name x) => if op = t!"*" ∧ pass x = some .pointer then some x else none
  | _ => none

section
variable {S V D : Type}

/-- The value of an expression; `arg` gives the values of the parameters.  What is outside of the
fragment has no meaning (`ub`). -/
def CExpr.eval (M : Machine S V) (pass : Text → Option Pass) (arg : Text → Comp S V) :
    CExpr → Comp S V
  | .name x =>
    match mention? pass (.name x), literal? (.name x) with
    | some x, _ => arg x
    | none, some v => .pure (M.lit v)
    | none, none => .ub
  | .num x =>
    match literal? (.num x) with
    | some v => .pure (M.lit v)
    | none => .ub
  | .call f as =>
    match mention? pass (.call f as) with
    | some x => arg x
    | none => .ub
  | .pre op e =>
    match mention? pass (.pre op e), literal? (.pre op e), preOp? op with
    | some x, _, _ => arg x
    | none, some v, _ => .pure (M.lit v)
    | none, none, some u => M.evalUn u (e.eval M pass arg)
    | none, none, none => .ub
  | .post op e =>
    match postOp? op with
    | some u => M.evalUn u (e.eval M pass arg)
    | none => .ub
  | .bin op a b =>
    match binOp? op with
    | some o => M.evalBin o (a.eval M pass arg) (b.eval M pass arg)
    | none => .ub

/-- The value of a decimal number. -/
def decimal? (t : Text) : Option Nat :=
  if t.all Char.isDigit && !t.isEmpty && (t.head? != some '0' || t == t!"0") then some (decVal t)
  else none

/-- The value of `local_mutation_id` or `local_mutation_id + k`. -/
def idVal? (id : Nat) : CExpr → Option Nat
  | .name x => if x = t!"local_mutation_id" then some id else none
  | .bin op (.name x) (.num k) =>
    if op = t!"+" ∧ x = t!"local_mutation_id" then (decimal? k).map (id + ·) else none
  | _ => none

/-- The value of a condition: the variable `__dredd_some_mutation_enabled` or a call of
`__dredd_enabled_mutation`. -/
def CExpr.cond (dev : Device D) (id : Nat) : CExpr → Comp (S × D) Bool
  | .name x =>
    if x = t!"__dredd_some_mutation_enabled" then fun p r => r = .done (dev.some_ p.2) p else .ub
  | .pre op e => if op = t!"!" then Comp.bind (e.cond dev id) fun b => .pure !b else .ub
  | .call (.name f) [e] =>
    if f = t!"__dredd_enabled_mutation" then
      match idVal? id e with
      | some k => onDevice (dev.query k)
      | none => .ub
    else .ub
  | _ => .ub

/-- The effect of a call of `__dredd_record_covered_mutants`. -/
def CExpr.effect (dev : Device D) (id : Nat) : CExpr → Comp (S × D) Unit
  | .call (.name f) [e, .num n] =>
    if f = t!"__dredd_record_covered_mutants" then
      match idVal? id e, decimal? n with
      | some k, some n => onDevice (dev.record k n)
      | _, _ => .ub
    else .ub
  | _ => .ub

/-- `return e;` in a function with result type `ty`. -/
def CExpr.returned (M : Machine S V) (ty : Text) (pass : Text → Option Pass) (arg : Text → Comp S V)
    (e : CExpr) : Comp S V :=
  Comp.bind (e.eval M pass arg) fun v => .lift (M.conv ty v)

/-- Runs statements. -/
def runStmts (M : Machine S V) (dev : Device D) (ty : Text) (pass : Text → Option Pass)
    (arg : Text → Comp (S × D) V) (id : Nat) : List CStmt → Comp (S × D) V
  | [] => .ub
  | .ifReturn c e :: ss =>
    Comp.bind (c.cond dev id) fun b =>
      if b then e.returned (M.withState D) ty pass arg else runStmts M dev ty pass arg id ss
  | .return_ e :: _ => e.returned (M.withState D) ty pass arg
  | .expr e :: ss => Comp.bind (e.effect dev id) fun _ => runStmts M dev ty pass arg id ss

/-- The arguments of a call: those that are not passed as functions are evaluated first, in any
order if there are two; the body gets all of them by name. -/
def passing (ps : List CParam) (cs : List (Comp S V)) (body : (Text → Comp S V) → Comp S V) :
    Comp S V :=
  match ps, cs with
  | [p], [c] =>
    if p.pass = .function then body fun _ => c
    else Comp.bind c fun v => body fun _ => .pure v
  | [p, q], [c, d] =>
    match p.pass, q.pass with
    | .function, .function => body fun x => if x = p.name then c else d
    | .function, _ => Comp.bind d fun w => body fun x => if x = p.name then c else .pure w
    | _, .function => Comp.bind c fun v => body fun x => if x = p.name then .pure v else d
    | _, _ => Comp.bind (Comp.both .unseq c d) fun vw =>
        body fun x => if x = p.name then .pure vw.1 else .pure vw.2
  | _, _ => .ub

/-- A call of the function with arguments `cs` followed by the id `id`: the last parameter must be
`int local_mutation_id`. -/
def CFn.call (f : CFn) (M : Machine S V) (dev : Device D) (id : Nat) (cs : List (Comp (S × D) V)) :
    Comp (S × D) V :=
  match f.params.getLast? with
  | some p =>
    if p.ty = [t!"int"] ∧ p.name = t!"local_mutation_id" then
      passing f.params.dropLast cs fun arg => runStmts M dev (typeText f.resTy) f.pass arg id f.body
    else .ub
  | none => .ub

end

end Dredd
