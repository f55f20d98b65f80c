/-
A reader for the text of the preludes (C64): a preprocessor for the directives that occur, tokens
(`Spec/Lex.lean`), a recursive descent parser for a part of C and C++, and name resolution.  The
result is a program of `Model/MiniC.lean`, which says what it does.  Nothing here depends on how the
tool lays the text out.
Simplified: the names of types and of library functions are those of a fixed list; variables are
told apart by their names, so it is checked that no name is declared twice in a function.
-/
import Verif.Spec.CRead
import Verif.Model.MiniC

namespace Dredd.PreludeRead

open MiniC

/-! ### Directives -/

/-- The lines of a text, with their line ends. -/
def linesOf : Text → List Text
  | [] => []
  | c :: cs =>
    if c = '\n' then [c] :: linesOf cs
    else
      match linesOf cs with
      | [] => [[c]]
      | l :: ls => (c :: l) :: ls

/-- A state of the preprocessor.
* `headers`, `macros` – what was included and defined.
* `open_` – the conditional sections that are open, innermost first: whether lines are skipped, and
  whether a branch was taken already. -/
structure PP where
  headers : List Text
  macros : List (Text × List Text)
  open_ : List (Bool × Bool)
  kept : Text

/-- No section that is open skips its lines. -/
def PP.active (p : PP) : Bool := p.open_.all fun s => !s.1

/-- The name of the header in `<name>` at the end of a line. -/
def headerName (l : Text) : Text := ((l.dropWhile (· ≠ '<')).drop 1).takeWhile (· ≠ '>')

/-- A line; `defined` says what the compiler defines. -/
def PP.line (defined : Text → Bool) (p : PP) (l : Text) : Option PP :=
  match tokens l with
  | d :: k :: ts =>
    if d = t!"#" then
      if k = t!"include" then
        some (if p.active then { p with headers := p.headers ++ [headerName l] } else p)
      else if k = t!"define" then
        match ts with
        | x :: ts => some (if p.active then { p with macros := p.macros ++ [(x, ts)] } else p)
        | [] => none
      else if k = t!"ifdef" then
        match ts with
        | [x] => some { p with open_ := (!defined x, defined x) :: p.open_ }
        | _ => none
      else if k = t!"elif" then
        match ts, p.open_ with
        | [x], (_, taken) :: r =>
          some { p with open_ := (taken || !defined x, taken || defined x) :: r }
        | _, _ => none
      else if k = t!"else" then
        match p.open_ with
        | (_, taken) :: r => some { p with open_ := (taken, true) :: r }
        | [] => none
      else if k = t!"endif" then
        match p.open_ with
        | _ :: r => some { p with open_ := r }
        | [] => none
      else none
    else some (if p.active then { p with kept := p.kept ++ l } else p)
  | _ => some (if p.active then { p with kept := p.kept ++ l } else p)

/-- All lines. -/
def PP.lines (defined : Text → Bool) : PP → List Text → Option PP
  | p, [] => if p.open_.isEmpty then some p else none
  | p, l :: ls => (p.line defined l).bind fun p => PP.lines defined p ls

/-- The text that is left, with the headers and the macros. -/
def preprocess (defined : Text → Bool) (t : Text) : Option PP :=
  PP.lines defined ⟨[], [], [], []⟩ (linesOf t)

/-! ### Tokens -/

/-- A token: a word, a number with its value, a string with its contents, or a symbol. -/
inductive Tok
  | word (t : Text)
  | num (n : Nat)
  | str (t : Text)
  | sym (t : Text)
deriving DecidableEq, Repr

/-- The contents of a string literal behind the opening quote. -/
def unquote : Text → Option Text
  | [] => none
  | [c] => if c = '"' then some [] else none
  | '\\' :: c :: cs =>
    if c = 'n' then (unquote cs).map ('\n' :: ·)
    else if c = '\\' ∨ c = '"' then (unquote cs).map (c :: ·)
    else none
  | c :: cs => (unquote cs).map (c :: ·)

/-- A lexeme as a token. -/
def tok? : Lexeme → Option Tok
  | (.word, t) => some (.word t)
  | (.number _, t) => (decimal? t).map .num
  | (.literal, t) => (unquote (t.drop 1)).map .str
  | (.punct u, _) => some (.sym u)
  | _ => none

/-- The tokens of a text. -/
def toks (t : Text) : Option (List Tok) := ((lexemes t).filter fun x => x.1.isToken).mapM tok?

/-- The meaning of `thread_local`: in C++ it is a keyword, in C a macro of `threads.h`; it may be
redefined. -/
def threadLocal (cpp : Bool) (p : PP) : Option (List Text) :=
  match p.macros.lookup t!"thread_local" with
  | some ts => some ts
  | none =>
    if cpp then some [t!"thread_local"]
    else if t!"threads.h" ∈ p.headers then some [t!"_Thread_local"]
    else none

/-! ### Types and declarations -/

/-- The specifiers in front of a type that matter here. -/
structure Specs where
  static_ : Bool
  thread : Bool

/-- Specifiers; `tl` are the tokens that `thread_local` stands for. -/
def readSpecs (tl : Option (List Text)) : Specs → List Tok → Option (Specs × List Tok)
  | s, [] => some (s, [])
  | s, .word t :: ts =>
    if t = t!"static" then readSpecs tl { s with static_ := true } ts
    else if t = t!"thread_local" then
      if tl ∈ [some [t!"thread_local"], some [t!"_Thread_local"], some [t!"__thread"],
          some [t!"__declspec", t!"(", t!"thread", t!")"]] then
        readSpecs tl { s with thread := true } ts
      else none
    else some (s, .word t :: ts)
  | s, ts => some (s, ts)

/-- Types of one word. -/
def typeWords : List Text :=
  [t!"void", t!"bool", t!"int", t!"char", t!"uint64_t", t!"size_t", t!"FILE", t!"atomic_bool"]

/-- Types of the standard library of C++, without `std::`. -/
def stdTypes : List Text := [t!"string", t!"ofstream"]

/-- Pointers to a type. -/
def readStars (ty : Text) : List Tok → Text × List Tok
  | .sym u :: ts => if u = t!"*" then readStars (ty ++ t!"*") ts else (ty, .sym u :: ts)
  | ts => (ty, ts)

/-- A type. -/
def readType (ts : List Tok) : Option (Text × List Tok) :=
  let (c, ts) := match ts with
    | .word w :: r => if w = t!"const" then (t!"const ", r) else ([], ts)
    | _ => ([], ts)
  match ts with
  | .word t :: r =>
    if t ∈ typeWords then some (readStars (c ++ t) r)
    else if t = t!"std" then
      match r with
      | .sym a :: .word x :: r =>
        if a = t!"::" then
          if x ∈ stdTypes then some (readStars (c ++ t!"std::" ++ x) r)
          else if x = t!"atomic" then
            match r with
            | .sym b :: .word y :: .sym d :: r =>
              if b = t!"<" ∧ d = t!">" ∧ y ∈ typeWords then
                some (readStars (c ++ t!"std::atomic<" ++ y ++ t!">") r)
              else none
            | _ => none
          else none
        else none
      | _ => none
    else none
  | _ => none

/-! ### Expressions -/

/-- An expression; parentheses are left out.  `name` has the parts of a qualified name. -/
inductive PExpr
  | name (path : List Text)
  | num (n : Nat)
  | str (t : Text)
  | call (f : PExpr) (args : List PExpr)
  | member (e : PExpr) (x : Text)
  | index (e i : PExpr)
  | pre (op : Text) (e : PExpr)
  | post (op : Text) (e : PExpr)
  | bin (op : Text) (a b : PExpr)
  | cond (c a b : PExpr)
  | cast (named : Bool) (ty : Text) (e : PExpr)

/-- The next token is the symbol `u`. -/
def wantSym (u : Text) : List Tok → Option (List Tok)
  | .sym v :: ts => if v = u then some ts else none
  | _ => none

/-- The parts of a qualified name behind its first. -/
def readPath (x : Text) : List Tok → List Text × List Tok
  | .sym u :: .word y :: ts =>
    if u = t!"::" then
      let (p, r) := readPath y ts
      (x :: p, r)
    else ([x], .sym u :: .word y :: ts)
  | ts => ([x], ts)

mutual
/-- An operand with its prefix and postfix operators.  The number bounds the recursion. -/
def readUnary : Nat → List Tok → Option (PExpr × List Tok)
  | 0, _ => none
  | _ + 1, [] => none
  | _ + 1, .num k :: ts => some (.num k, ts)
  | _ + 1, .str t :: ts => some (.str t, ts)
  | n + 1, .word t :: ts =>
    if t = t!"static_cast" then
      (wantSym t!"<" ts).bind fun r => (readType r).bind fun (ty, r) =>
        (wantSym t!">" r).bind fun r => (wantSym t!"(" r).bind fun r =>
          (readCond n r).bind fun (e, r) => (wantSym t!")" r).bind fun r =>
            readPostfix n (.cast true ty e) r
    else
      let (p, r) := readPath t ts
      readPostfix n (.name p) r
  | n + 1, .sym u :: ts =>
    if u ∈ prefixOps then (readUnary n ts).bind fun (e, r) => some (.pre u e, r)
    else if u = t!"(" then
      match readType ts with
      | some (ty, r) =>
        (wantSym t!")" r).bind fun r => (readUnary n r).bind fun (e, r) => some (.cast false ty e, r)
      | none =>
        (readCond n ts).bind fun (e, r) => (wantSym t!")" r).bind fun r => readPostfix n e r
    else none

/-- What comes after the operand `e`. -/
def readPostfix : Nat → PExpr → List Tok → Option (PExpr × List Tok)
  | 0, _, _ => none
  | n + 1, e, .sym u :: ts =>
    if u = t!"(" then
      match wantSym t!")" ts with
      | some r => readPostfix n (.call e []) r
      | none => (readArgs n ts).bind fun (as, r) => readPostfix n (.call e as) r
    else if u = t!"[" then
      (readCond n ts).bind fun (i, r) => (wantSym t!"]" r).bind fun r => readPostfix n (.index e i) r
    else if u = t!"." then
      match ts with
      | .word x :: r => readPostfix n (.member e x) r
      | _ => none
    else if u = t!"++" ∨ u = t!"--" then readPostfix n (.post u e) ts
    else some (e, .sym u :: ts)
  | _ + 1, e, ts => some (e, ts)

/-- One or more arguments and the closing parenthesis. -/
def readArgs : Nat → List Tok → Option (List PExpr × List Tok)
  | 0, _ => none
  | n + 1, ts =>
    (readCond n ts).bind fun (e, r) =>
      match wantSym t!"," r with
      | some r => (readArgs n r).bind fun (as, r) => some (e :: as, r)
      | none => (wantSym t!")" r).bind fun r => some ([e], r)

/-- Binary operators that bind at least as tight as `p` (see `binPrec`). -/
def readBinary : Nat → Nat → List Tok → Option (PExpr × List Tok)
  | 0, _, _ => none
  | n + 1, p, ts => (readUnary n ts).bind fun (a, r) => readOps n p a r

/-- The operators that follow, `a` being the left operand. -/
def readOps : Nat → Nat → PExpr → List Tok → Option (PExpr × List Tok)
  | 0, _, _, _ => none
  | n + 1, p, a, .sym u :: ts =>
    match binPrec u with
    | none => some (a, .sym u :: ts)
    | some q =>
      if q < p then some (a, .sym u :: ts)
      else (readBinary n (q + 1) ts).bind fun (b, r) => readOps n p (.bin u a b) r
  | _ + 1, _, a, ts => some (a, ts)

/-- A conditional expression: an expression without assignment (C11 6.5.15). -/
def readCond : Nat → List Tok → Option (PExpr × List Tok)
  | 0, _ => none
  | n + 1, ts =>
    (readBinary n 2 ts).bind fun (c, r) =>
      match wantSym t!"?" r with
      | some r =>
        (readCond n r).bind fun (a, r) => (wantSym t!":" r).bind fun r =>
          (readCond n r).bind fun (b, r) => some (.cond c a b, r)
      | none => some (c, r)
end

/-! ### Statements -/

/-- Statements.  `assign op a b` is an expression statement whose outermost operator is an
assignment. -/
inductive PStmt
  | decl (s : Specs) (ty : Text) (x : Text) (init : Option PExpr)
  | ctor (s : Specs) (ty : Text) (x : Text) (arg : PExpr)
  | array (s : Specs) (ty : Text) (x : Text) (n : Nat)
  | expr (e : PExpr)
  | assign (op : Text) (a b : PExpr)
  | block (ss : List PStmt)
  | ifThen (c : PExpr) (s : PStmt)
  | while_ (c : PExpr) (s : PStmt)
  | for_ (init : PStmt) (c step : PExpr) (s : PStmt)
  | return_ (e : Option PExpr)
  | break_

/-- The next token is the word `w`. -/
def wantWord (w : Text) : List Tok → Option (List Tok)
  | .word v :: ts => if v = w then some ts else none
  | _ => none

/-- A declaration and its semicolon. -/
def readDecl (tl : Option (List Text)) (n : Nat) (ts : List Tok) : Option (PStmt × List Tok) :=
  (readSpecs tl ⟨false, false⟩ ts).bind fun (s, r) =>
    (readType r).bind fun (ty, r) =>
      match r with
      | .word x :: .sym u :: r =>
        if u = t!";" then some (.decl s ty x none, r)
        else if u = t!"=" then
          (readCond n r).bind fun (e, r) => (wantSym t!";" r).bind fun r => some (.decl s ty x (some e), r)
        else if u = t!"(" then
          (readCond n r).bind fun (e, r) => (wantSym t!")" r).bind fun r =>
            (wantSym t!";" r).bind fun r => some (.ctor s ty x e, r)
        else if u = t!"[" then
          match r with
          | .num k :: r =>
            (wantSym t!"]" r).bind fun r => (wantSym t!";" r).bind fun r => some (.array s ty x k, r)
          | _ => none
        else none
      | _ => none

/-- An expression statement and its semicolon. -/
def readExprStmt (n : Nat) (ts : List Tok) : Option (PStmt × List Tok) :=
  (readCond n ts).bind fun (a, r) =>
    match r with
    | .sym u :: r =>
      if u = t!";" then some (.expr a, r)
      else if binPrec u = some 1 then
        (readCond n r).bind fun (b, r) => (wantSym t!";" r).bind fun r => some (.assign u a b, r)
      else none
    | _ => none

mutual
/-- A statement.  The number bounds the recursion. -/
def readStmt (tl : Option (List Text)) : Nat → List Tok → Option (PStmt × List Tok)
  | 0, _ => none
  | n + 1, ts =>
    match wantSym t!"{" ts with
    | some r => (readStmts tl n r).bind fun (ss, r) => some (.block ss, r)
    | none =>
    match wantWord t!"if" ts with
    | some r =>
      (wantSym t!"(" r).bind fun r => (readCond n r).bind fun (c, r) =>
        (wantSym t!")" r).bind fun r => (readStmt tl n r).bind fun (s, r) =>
          if (wantWord t!"else" r).isSome then none else some (.ifThen c s, r)
    | none =>
    match wantWord t!"while" ts with
    | some r =>
      (wantSym t!"(" r).bind fun r => (readCond n r).bind fun (c, r) =>
        (wantSym t!")" r).bind fun r => (readStmt tl n r).bind fun (s, r) => some (.while_ c s, r)
    | none =>
    match wantWord t!"for" ts with
    | some r =>
      (wantSym t!"(" r).bind fun r => (readDecl tl n r).bind fun (d, r) =>
        (readCond n r).bind fun (c, r) => (wantSym t!";" r).bind fun r =>
          (readCond n r).bind fun (e, r) => (wantSym t!")" r).bind fun r =>
            (readStmt tl n r).bind fun (s, r) => some (.for_ d c e s, r)
    | none =>
    match wantWord t!"break" ts with
    | some r => (wantSym t!";" r).bind fun r => some (.break_, r)
    | none =>
    match wantWord t!"return" ts with
    | some r =>
      match wantSym t!";" r with
      | some r => some (.return_ none, r)
      | none => (readCond n r).bind fun (e, r) => (wantSym t!";" r).bind fun r => some (.return_ (some e), r)
    | none =>
    match readDecl tl n ts with
    | some x => some x
    | none => readExprStmt n ts

/-- Statements up to the closing brace. -/
def readStmts (tl : Option (List Text)) : Nat → List Tok → Option (List PStmt × List Tok)
  | 0, _ => none
  | n + 1, ts =>
    match wantSym t!"}" ts with
    | some r => some ([], r)
    | none => (readStmt tl n ts).bind fun (s, r) => (readStmts tl n r).bind fun (ss, r) => some (s :: ss, r)
end

/-- Parameters up to the closing parenthesis; they are of type `int`. -/
def readIntParams : Nat → List Tok → Option (List Text × List Tok)
  | 0, _ => none
  | n + 1, ts =>
    (wantWord t!"int" ts).bind fun r =>
      match r with
      | .word x :: r =>
        match wantSym t!"," r with
        | some r => (readIntParams n r).bind fun (xs, r) => some (x :: xs, r)
        | none => (wantSym t!")" r).bind fun r => some ([x], r)
      | _ => none

/-- Declarations and a function definition. -/
structure PFun where
  outer : List PStmt
  specs : Specs
  resTy : Text
  name : Text
  params : List Text
  body : List PStmt

/-- Declarations followed by one function definition, and nothing else.  The number bounds the
recursion. -/
def readFun (tl : Option (List Text)) : Nat → List PStmt → List Tok → Option PFun
  | 0, _, _ => none
  | n + 1, ds, ts =>
    match readDecl tl n ts with
    | some (d, r) => readFun tl n (ds ++ [d]) r
    | none =>
      (readSpecs tl ⟨false, false⟩ ts).bind fun (s, r) => (readType r).bind fun (ty, r) =>
        match r with
        | .word x :: r =>
          (wantSym t!"(" r).bind fun r => (readIntParams n r).bind fun (ps, r) =>
            (wantSym t!"{" r).bind fun r => (readStmts tl n r).bind fun (b, r) =>
              if r.isEmpty then some ⟨ds, s, ty, x, ps, b⟩ else none
        | _ => none

/-! ### Name resolution -/

/-- A declared variable: its name, the type, and whether it is an array. -/
structure Known where
  var : Var
  ty : Text
  array : Bool

/-- The variables that have been declared. -/
abbrev Scope := List Known

/-- The variable with this name. -/
def var? (x : Text) : Option Var :=
  [Var.localId, .numMutations, .initialized, .bitset, .globalSome, .some_, .envVar, .contents, .pos,
    .token, .value, .localValue, .temp, .recorded, .trackVar, .outputFile, .fp, .i].find? (·.name = x)

/-- A variable that is in scope. -/
def Scope.find (sc : Scope) (x : Text) : Option Known :=
  (var? x).bind fun v => List.find? (·.var = v) sc

/-- A variable of a type, which is not an array. -/
def Scope.ofType (sc : Scope) (ty x : Text) : Option Var :=
  (sc.find x).bind fun k => if k.ty = ty ∧ k.array = false then some k.var else none

/-- An array whose elements are of a type. -/
def Scope.arrayOf (sc : Scope) (ty x : Text) : Option Var :=
  (sc.find x).bind fun k => if k.ty = ty ∧ k.array = true then some k.var else none

/-- One more variable. -/
def Scope.declare (sc : Scope) (x ty : Text) (array : Bool) : Option (Var × Scope) :=
  (var? x).bind fun v =>
    if sc.any (·.var = v) then none else some (v, sc ++ [⟨v, ty, array⟩])

/-- Library functions with one argument. -/
def fn? : List Text → Option Fn
  | [f] =>
    [(t!"getenv", Fn.getenvC), (t!"atoi", .atoi), (t!"strlen", .strlen), (t!"malloc", .malloc),
      (t!"free", .free), (t!"fclose", .fclose)].lookup f
  | [s, f] => if s = t!"std" then [(t!"getenv", Fn.getenvCpp), (t!"stoi", .stoi)].lookup f else none
  | _ => none

/-- Binary operators other than assignments. -/
def op? (t : Text) : Option Op :=
  [(t!"-", Op.sub), (t!"+", .add), (t!"/", .div), (t!"%", .mod), (t!">=", .ge), (t!"<", .lt),
    (t!"==", .eq), (t!"!=", .ne), (t!"&&", .land), (t!"&", .band), (t!"<<", .shl)].lookup t

/-- An expression with its names resolved. -/
def PExpr.resolve (sc : Scope) : PExpr → Option Expr
  | .name [x] =>
    if x = t!"true" then some .tt else if x = t!"false" then some .ff
    else if x = t!"nullptr" then some .null
    else (sc.find x).bind fun k => if k.array then none else some (.var k.var)
  | .name [a, b, c] =>
    if a = t!"std" ∧ b = t!"string" ∧ c = t!"npos" then some .npos else none
  | .num n => some (.num n)
  | .str t => some (.lit t)
  | .pre op e => if op = t!"!" then (e.resolve sc).map .not else none
  | .cond c a b =>
    (c.resolve sc).bind fun c => (a.resolve sc).bind fun a => (b.resolve sc).map fun b => .cond c a b
  | .cast named ty e =>
    if ty = t!"uint64_t" then (e.resolve sc).map (.call (if named then .castCpp else .castC)) else none
  | .index (.name [x]) i =>
    (sc.arrayOf t!"uint64_t" x).bind fun v => (i.resolve sc).map (.idx v)
  | .bin op (.bin op' (.name [x]) e) (.str t) =>
    if op = t!"<<" ∧ op' = t!"<<" ∧ t = t!"\n" then
      (sc.ofType t!"std::ofstream" x).bind fun v => (e.resolve sc).map (.putCpp v)
    else none
  | .bin op a b =>
    (op? op).bind fun o => (a.resolve sc).bind fun a => (b.resolve sc).map (.bin o a)
  | .call (.member (.name [x]) m) [] =>
    if m = t!"empty" then (sc.ofType t!"std::string" x).map .empty else none
  | .call (.member (.name [x]) m) [.str [c]] =>
    if m = t!"find" then (sc.ofType t!"std::string" x).map (.find · c) else none
  | .call (.member (.name [x]) m) [.num n, e] =>
    (sc.ofType t!"std::string" x).bind fun v =>
      if m = t!"substr" then (e.resolve sc).map (.substr v n)
      else if m = t!"erase" then (e.resolve sc).map (.erase v n)
      else none
  | .call (.member (.name [x]) m) [e, .name [a, b, c]] =>
    if m = t!"open" ∧ a = t!"std" ∧ b = t!"ios_base" ∧ c = t!"app" then
      (sc.ofType t!"std::ofstream" x).bind fun v => (e.resolve sc).map (.openCpp v)
    else none
  | .call (.member (.index (.name [x]) i) m) [.name [a]] =>
    if m = t!"exchange" ∧ a = t!"true" then
      (sc.arrayOf t!"std::atomic<bool>" x).bind fun v => (i.resolve sc).map (.exchangeCpp v)
    else none
  | .call (.name [f]) [.pre op (.index (.name [x]) i), .num n] =>
    if f = t!"atomic_exchange" ∧ op = t!"&" ∧ n = 1 then
      (sc.arrayOf t!"atomic_bool" x).bind fun v => (i.resolve sc).map (.exchangeC v)
    else none
  | .call (.name [f]) [.name [x], .str t, e] =>
    if f = t!"fprintf" ∧ t = t!"%d\n" then
      (sc.ofType t!"FILE*" x).bind fun v => (e.resolve sc).map (.putC v)
    else none
  | .call (.name [f]) [.name [x], .str [c]] =>
    if f = t!"strtok" then
      if x = t!"NULL" then some (.strtok none c)
      else (sc.ofType t!"char*" x).map fun v => .strtok (some v) c
    else if f = t!"fopen" ∧ c = 'a' then
      (sc.find x).bind fun k => if k.array then none else some (.fopen (.var k.var))
    else none
  | .call (.name [f]) [.name [x], e] =>
    if f = t!"strcpy" then
      (sc.ofType t!"char*" x).bind fun v => (e.resolve sc).map (.strcpy v)
    else none
  | .call (.name p) [e] => (fn? p).bind fun f => (e.resolve sc).map (.call f)
  | _ => none

mutual
/-- A statement with its names resolved, and the variables in scope behind it. -/
def PStmt.resolve (sc : Scope) : PStmt → Option (Stmt × Scope)
  | .decl s ty x init =>
    if s.static_ ∨ s.thread then none
    else
      match init with
      | some e =>
        (e.resolve sc).bind fun e => (sc.declare x ty false).map fun (v, sc) => (.decl ty v e, sc)
      | none => (sc.declare x ty false).map fun (v, sc) => (.declare ty v, sc)
  | .ctor s ty x e =>
    if s.static_ ∨ s.thread ∨ ty ≠ t!"std::string" then none
    else (e.resolve sc).bind fun e => (sc.declare x ty false).map fun (v, sc) => (.ctor ty v e, sc)
  | .array .. => none
  | .expr e => (e.resolve sc).map fun e => (.expr e, sc)
  | .assign op (.name [x]) e =>
    if op = t!"=" then
      (sc.find x).bind fun k =>
        if k.array then none else (e.resolve sc).map fun e => (.set k.var e, sc)
    else none
  | .assign op (.index (.name [x]) i) e =>
    if op = t!"|=" then
      (sc.arrayOf t!"uint64_t" x).bind fun v => (i.resolve sc).bind fun i => (e.resolve sc).map fun e =>
        (.orSet v i e, sc)
    else none
  | .assign .. => none
  | .block ss => (PStmt.resolveAll sc ss).map fun s => (s, sc)
  | .ifThen c (.return_ none) => (c.resolve sc).map fun c => (.ifRet c, sc)
  | .ifThen c s =>
    (c.resolve sc).bind fun c => (s.resolve sc).map fun (s, _) => (.ite c s, sc)
  | .while_ c s => (c.resolve sc).bind fun c => (s.resolve sc).map fun (s, _) => (.while_ true c s, sc)
  | .for_ (.decl ds ty x (some (.num k))) (.bin lt (.name [y]) b) (.post inc (.name [z])) s =>
    if ds.static_ = false ∧ ds.thread = false ∧ ty = t!"int" ∧ k = 0 ∧ lt = t!"<" ∧ y = x ∧
        inc = t!"++" ∧ z = x then
      (sc.declare x ty false).bind fun (v, sc') =>
        (b.resolve sc).bind fun b => (s.resolve sc').map fun (s, _) => (.for_ v b s, sc)
    else none
  | .for_ .. => none
  | .return_ (some e) => (e.resolve sc).map fun e => (.ret e, sc)
  | .return_ none => none
  | .break_ => some (.brk, sc)

/-- Statements one after the other. -/
def PStmt.resolveAll (sc : Scope) : List PStmt → Option Stmt
  | [] => some .skip
  | s :: ss => (s.resolve sc).bind fun (s, sc) => (PStmt.resolveAll sc ss).map (.seq s)
end

/-- How a static variable is declared. -/
def Specs.text (s : Specs) : Text :=
  (if s.static_ then t!"static " else []) ++ (if s.thread then t!"thread_local " else [])

/-- A static variable. -/
def PStmt.static? (sc : Scope) : PStmt → Option (Static × Scope)
  | .decl s ty x (some e) =>
    if s.static_ then
      (e.resolve []).bind fun e => (sc.declare x ty false).map fun (v, sc) =>
        (.scalar 0 (s.text ++ ty) v e, sc)
    else none
  | .array s ty x n =>
    if s.static_ then
      if ty = t!"uint64_t" then
        (sc.declare x ty true).map fun (v, sc) => (.array 0 (s.text ++ ty) v n false, sc)
      else if ty = t!"std::atomic<bool>" ∨ ty = t!"atomic_bool" then
        (sc.declare x ty true).map fun (v, sc) => (.array 0 (s.text ++ ty) v n true, sc)
      else none
    else none
  | _ => none

/-- The static variables at the beginning, and the rest. -/
def statics (sc : Scope) : List PStmt → List Static × Scope × List PStmt
  | [] => ([], sc, [])
  | s :: ss =>
    match s.static? sc with
    | some (d, sc') =>
      let (ds, sc, r) := statics sc' ss
      (d :: ds, sc, r)
    | none => ([], sc, s :: ss)

/-- Parameters. -/
def declareParams (sc : Scope) : List Text → Option (List Var × Scope)
  | [] => some ([], sc)
  | x :: xs =>
    (sc.declare x t!"int" false).bind fun (v, sc) =>
      (declareParams sc xs).map fun (vs, sc) => (v :: vs, sc)

/-- A function with its names resolved. -/
def PFun.resolve (f : PFun) : Option Fun :=
  let (outer, sc, rest) := statics [] f.outer
  if rest.isEmpty then
    (declareParams sc f.params).bind fun (ps, sc) =>
      let (inner, sc, rest) := statics sc f.body
      (PStmt.resolveAll sc rest).map fun b => ⟨outer, f.specs.text ++ f.resTy ++ t!" " ++ f.name, ps, inner, b⟩
  else none

/-- The program in the text of a prelude; `defined` says which macros the compiler defines.  No
macro may be defined but `thread_local`, which is used only in declarations. -/
def readPrelude (cpp : Bool) (defined : Text → Bool) (t : Text) : Option Fun :=
  (preprocess defined t).bind fun p =>
    if p.macros.all (·.1 = t!"thread_local") then
      (toks p.kept).bind fun ts =>
        (readFun (threadLocal cpp p) (4 * ts.length + 4) [] ts).bind PFun.resolve
    else none

/-- The prelude as generated functions see it, made from the program `f`: the variable
`__dredd_some_mutation_enabled` and the function.  The variables are those of one thread; `fuel`
bounds the rounds of each loop. -/
def device (f : Fun) (e : Env) (fuel : Nat) : Device Store where
  some_ s := decide (truth (s.vars .globalSome) = some true)
  query i s :=
    match f.call e fuel [i] s with
    | .ret s' v => (truth v).map fun b => (b, s')
    | _ => none
  record k m s :=
    match f.call e fuel [k, m] s with
    | .next s' => some ((), s')
    | .ret s' _ => some ((), s')
    | _ => none

/-! ### Threads -/

/-- The declared variable. -/
def staticVar : Static → Var
  | .scalar _ _ x _ => x
  | .array _ _ x _ _ => x

/-- Each thread has its own variable. -/
def staticOwn : Static → Bool
  | .scalar _ ty _ _ => t!"static thread_local ".isPrefixOf ty
  | .array _ ty _ _ _ => t!"static thread_local ".isPrefixOf ty

/-- The variables that threads share: static variables, unless declared otherwise, and the variable
of `strtok`. -/
def sharedVar (f : Fun) (x : Var) : Bool :=
  decide (x = .strtokPos) || (f.outer ++ f.inner).any fun d => decide (staticVar d = x) && !staticOwn d

/-- The variables of the threads after thread `t` has made a call that left its variables as `s`:
the other threads see the shared variables, and there is one output. -/
def shareAll (f : Fun) (ths : Nat → Store) (t : Nat) (s : Store) : Nat → Store := fun u =>
  if u = t then s else ⟨fun x => if sharedVar f x then s.vars x else (ths u).vars x, s.out⟩

/-- Calls by threads, `(t, i)` being a call with `i` by thread `t`; a call ends before the next one
begins. -/
def threadAnswers (f : Fun) (e : Env) (fuel : Nat) :
    (Nat → Store) → List (Nat × Nat) → Option (List Bool)
  | _, [] => some []
  | ths, (t, i) :: cs =>
    match f.call e fuel [i] (ths t) with
    | .ret s v => (truth v).bind fun b => (threadAnswers f e fuel (shareAll f ths t s) cs).map (b :: ·)
    | _ => none

/-- The same for the recorder: `(t, k, m)` is a call for the group of `m` mutants at `k`.  The result
is what was written. -/
def threadRecords (f : Fun) (e : Env) (fuel : Nat) :
    (Nat → Store) → List (Nat × Nat × Nat) → Option Text
  | ths, [] => some (ths 0).out
  | ths, (t, k, m) :: cs =>
    match f.call e fuel [k, m] (ths t) with
    | .next s => threadRecords f e fuel (shareAll f ths t s) cs
    | .ret s _ => threadRecords f e fuel (shareAll f ths t s) cs
    | _ => none

end Dredd.PreludeRead
