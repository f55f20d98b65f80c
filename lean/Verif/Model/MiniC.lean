/-
A small fragment of C and C++, large enough for the functions in the preludes
(mutate_ast_consumer.cc 278-343, 355-371, 403-438, 450-464): its syntax, how it
is printed, and what it does.  The fragment has no counterpart of its own in
/repo; the constructs cited are those that the preludes use.

Simplified: comparisons yield `bool` in both languages; memory is modelled by
values (a `char*` is the string that it points to); `malloc` succeeds; variables
of inner scopes are not removed.
-/
import Verif.Model.Prelude

namespace Dredd.MiniC

/-- The variables of the preludes (mutate_ast_consumer.cc 278-343, 355-371,
403-438, 450-464), and the hidden position of `strtok`. -/
inductive Var
  | localId | numMutations | initialized | bitset | globalSome | some_ | envVar | contents | pos
  | token | value | localValue | temp | recorded | trackVar | outputFile | fp | i | strtokPos
deriving DecidableEq, Repr

/-- Their names (mutate_ast_consumer.cc 278-343, 355-371, 403-438, 450-464). -/
def Var.name : Var → Text
  | .localId => t!"local_mutation_id"
  | .numMutations => t!"num_mutations"
  | .initialized => t!"initialized"
  | .bitset => t!"enabled_bitset"
  | .globalSome => t!"__dredd_some_mutation_enabled"
  | .some_ => t!"some_mutation_enabled"
  | .envVar => t!"dredd_environment_variable"
  | .contents => t!"contents"
  | .pos => t!"pos"
  | .token => t!"token"
  | .value => t!"value"
  | .localValue => t!"local_value"
  | .temp => t!"temp"
  | .recorded => t!"already_recorded"
  | .trackVar => t!"dredd_tracking_environment_variable"
  | .outputFile => t!"output_file"
  | .fp => t!"fp"
  | .i => t!"i"
  | .strtokPos => []

/-- Values.  `size none` is `std::string::npos` (mutate_ast_consumer.cc 299);
`ptr` is a `char*`, null or pointing to a string; `buf n` is fresh memory of `n`
bytes (414); `stream ok` is an output stream or `FILE*` (364, 458). -/
inductive Val
  | undef
  | int (v : Int)
  | bool (b : Bool)
  | u64 (w : BitVec 64)
  | size (n : Option Nat)
  | str (t : Text)
  | ptr (p : Option Text)
  | buf (n : Nat)
  | words (ws : List (BitVec 64))
  | flags (fs : List Bool)
  | stream (ok : Bool)
  | unit
deriving DecidableEq, Repr

/-- The variables, and what has been appended to the tracking file.
(mutate_ast_consumer.cc 278-287, 357, 403-409, 452.) -/
structure Store where
  vars : Var → Val
  out : Text

/-- Assignment to a variable. (for instance mutate_ast_consumer.cc 307, 322, 335,
419.) -/
def Store.set (s : Store) (x : Var) (v : Val) : Store :=
  { s with vars := fun y => if y = x then v else s.vars y }

/-- The environment of the process: `getenv` and which files can be opened
(mutate_ast_consumer.cc 289, 362, 366, 411, 456, 458). -/
structure Env where
  getenv : Text → Option Text
  canOpen : Text → Bool

/-- Binary operators used in the preludes. (mutate_ast_consumer.cc 290, 308, 312,
318-320, 340-342, 367.) -/
inductive Op
  | sub | add | div | mod | ge | lt | eq | ne | land | band | shl
deriving DecidableEq, Repr

/-- Their spelling. (mutate_ast_consumer.cc 290, 308, 312, 318-320, 340-342, 367.) -/
def Op.text : Op → Text
  | .sub => t!"-" | .add => t!"+" | .div => t!"/" | .mod => t!"%" | .ge => t!">=" | .lt => t!"<"
  | .eq => t!"==" | .ne => t!"!=" | .land => t!"&&" | .band => t!"&" | .shl => t!"<<"

/-- Functions with one argument used in the preludes (mutate_ast_consumer.cc
289, 307, 318, 362, 411, 414, 419, 424, 430, 456, 463). -/
inductive Fn
  | getenvCpp | getenvC | stoi | atoi | strlen | malloc | free | fclose | castCpp | castC
deriving DecidableEq, Repr

/-- A call of such a function. (mutate_ast_consumer.cc 289, 307, 319, 411-415, 419,
424, 430, 463.) -/
def Fn.text (f : Fn) (arg : Text) : Text :=
  match f with
  | .getenvCpp => t!"std::getenv(" ++ arg ++ t!")"
  | .getenvC => t!"getenv(" ++ arg ++ t!")"
  | .stoi => t!"std::stoi(" ++ arg ++ t!")"
  | .atoi => t!"atoi(" ++ arg ++ t!")"
  | .strlen => t!"strlen(" ++ arg ++ t!")"
  | .malloc => t!"malloc(" ++ arg ++ t!")"
  | .free => t!"free(" ++ arg ++ t!")"
  | .fclose => t!"fclose(" ++ arg ++ t!")"
  | .castCpp => t!"static_cast<uint64_t>(" ++ arg ++ t!")"
  | .castC => t!"(uint64_t) " ++ arg

/-- Expressions.
* `find`, `substr`, `erase`, `empty`: members of `std::string`
  (mutate_ast_consumer.cc 296-303, 330).
* `strcpy`, `strtok` (415-417, 428), `fopen` (458), `openCpp` (365).
* `exchange`: `std::atomic<bool>::exchange` and `atomic_exchange` (360, 453).
* `putCpp`, `putC`: output of a number and a line end (368, 460). -/
inductive Expr
  | var (x : Var)
  | num (n : Nat)
  | tt | ff | null | npos
  | lit (t : Text)
  | bin (op : Op) (a b : Expr)
  | par (a : Expr)
  | not (a : Expr)
  | idx (x : Var) (a : Expr)
  | cond (c a b : Expr)
  | call (f : Fn) (a : Expr)
  | find (x : Var) (c : Char)
  | substr (x : Var) (n : Nat) (a : Expr)
  | erase (x : Var) (n : Nat) (a : Expr)
  | empty (x : Var)
  | strcpy (x : Var) (a : Expr)
  | strtok (x : Option Var) (c : Char)
  | exchangeCpp (x : Var) (a : Expr)
  | exchangeC (x : Var) (a : Expr)
  | openCpp (x : Var) (a : Expr)
  | fopen (a : Expr)
  | putCpp (x : Var) (a : Expr)
  | putC (x : Var) (a : Expr)
deriving DecidableEq, Repr

/-- How an expression is written in the preludes (mutate_ast_consumer.cc
287-342, 359-369, 409-437, 453-463). -/
def Expr.text : Expr → Text
  | .var x => x.name
  | .num n => natDec n
  | .tt => t!"true"
  | .ff => t!"false"
  | .null => t!"nullptr"
  | .npos => t!"std::string::npos"
  | .lit t => t!"\"" ++ t ++ t!"\""
  | .bin op a b => a.text ++ t!" " ++ op.text ++ t!" " ++ b.text
  | .par a => t!"(" ++ a.text ++ t!")"
  | .not a => t!"!" ++ a.text
  | .idx x a => x.name ++ t!"[" ++ a.text ++ t!"]"
  | .cond c a b => c.text ++ t!" ? " ++ a.text ++ t!" : " ++ b.text
  | .call f a => f.text a.text
  | .find x c => x.name ++ t!".find(\"" ++ [c] ++ t!"\")"
  | .substr x n a => x.name ++ t!".substr(" ++ natDec n ++ t!", " ++ a.text ++ t!")"
  | .erase x n a => x.name ++ t!".erase(" ++ natDec n ++ t!", " ++ a.text ++ t!")"
  | .empty x => x.name ++ t!".empty()"
  | .strcpy x a => t!"strcpy(" ++ x.name ++ t!", " ++ a.text ++ t!")"
  | .strtok (some x) c => t!"strtok(" ++ x.name ++ t!", \"" ++ [c] ++ t!"\")"
  | .strtok none c => t!"strtok(NULL, \"" ++ [c] ++ t!"\")"
  | .exchangeCpp x a => x.name ++ t!"[" ++ a.text ++ t!"].exchange(true)"
  | .exchangeC x a => t!"atomic_exchange(&" ++ x.name ++ t!"[" ++ a.text ++ t!"], 1)"
  | .openCpp x a => x.name ++ t!".open(" ++ a.text ++ t!", std::ios_base::app)"
  | .fopen a => t!"fopen(" ++ a.text ++ t!", \"a\")"
  | .putCpp x a => x.name ++ t!" << (" ++ a.text ++ t!") << \"\\n\""
  | .putC x a => t!"fprintf(" ++ x.name ++ t!", \"%d\\n\", " ++ a.text ++ t!")"

/-- Outcome of evaluating an expression. (the expressions in mutate_ast_consumer.cc
278-343, 355-371, 403-438, 450-464.) -/
inductive EOut
  | ok (s : Store) (v : Val)
  | threw (s : Store)
  | ub

/-- Continue with the value of an expression. (the expressions in
mutate_ast_consumer.cc 278-343, 355-371, 403-438, 450-464.) -/
def EOut.bind (r : EOut) (f : Store → Val → EOut) : EOut :=
  match r with
  | .ok s v => f s v
  | .threw s => .threw s
  | .ub => .ub

/-- A value used as a condition. (mutate_ast_consumer.cc 285, 290, 408, 412, 418.) -/
def truth : Val → Option Bool
  | .bool b => some b
  | .int v => some (v != 0)
  | .u64 w => some (w != 0#64)
  | .ptr p => some p.isSome
  | .stream b => some b
  | _ => none

/-- An `int` result: undefined if not representable. (`value - first`,
mutate_ast_consumer.cc 308, 420.) -/
def intResult (s : Store) (v : Int) : EOut := if inInt v then .ok s (.int v) else .ub

/-- Binary operators other than `&&`, on the values of the operands. Everything that
is not listed does not occur in a well-typed program and counts as undefined.
(mutate_ast_consumer.cc 290, 308, 312, 318-320, 340-342, 367, 420-425, 436-437.) -/
def opVal (op : Op) (s : Store) : Val → Val → EOut
  | .int a, .int b =>
    match op with
    | .sub => intResult s (a - b)
    | .add => intResult s (a + b)
    | .div => if b = 0 then .ub else intResult s (Int.tdiv a b)
    | .mod => if b = 0 then .ub else intResult s (Int.tmod a b)
    | .ge => .ok s (.bool (decide (a ≥ b)))
    | .lt => .ok s (.bool (decide (a < b)))
    | .eq => .ok s (.bool (decide (a = b)))
    | .ne => .ok s (.bool (decide (a ≠ b)))
    | _ => .ub
  | .u64 a, .u64 b =>
    match op with
    | .band => .ok s (.u64 (a &&& b))
    | _ => .ub
  | .u64 a, .int b =>
    match op with
    | .shl => if 0 ≤ b ∧ b < 64 then .ok s (.u64 (a <<< b.toNat)) else .ub
    | .ne => .ok s (.bool (decide (a ≠ BitVec.ofInt 64 b)))
    | _ => .ub
  | .size a, .size b =>
    match op with
    | .eq => .ok s (.bool (decide (a = b)))
    | _ => .ub
  | .size (some a), .int b =>
    match op with
    | .add => if 0 ≤ b then .ok s (.size (some (a + b.toNat))) else .ub
    | _ => .ub
  | .ptr a, .ptr b =>
    match op with
    | .eq => .ok s (.bool (decide (a = b)))
    | .ne => .ok s (.bool (decide (a ≠ b)))
    | _ => .ub
  | _, _ => .ub

/-- The functions with one argument. (mutate_ast_consumer.cc 289, 307, 319, 411-415,
419, 424, 430, 463.) -/
def fnVal (e : Env) (f : Fn) (s : Store) (v : Val) : EOut :=
  match f, v with
  | .getenvCpp, .ptr (some t) => .ok s (.ptr (e.getenv t))
  | .getenvC, .ptr (some t) => .ok s (.ptr (e.getenv t))
  | .stoi, .str t =>
    match Dredd.stoi t with
    | some v => .ok s (.int v)
    | none => .threw s
  | .atoi, .ptr (some t) =>
    match Dredd.atoi t with
    | some v => .ok s (.int v)
    | none => .ub
  | .strlen, .ptr (some t) => .ok s (.size (some t.length))
  | .malloc, .size (some n) => .ok s (.buf n)
  | .free, .ptr _ => .ok s .unit
  | .fclose, .stream true => .ok s .unit
  | .castCpp, .int v => .ok s (.u64 (BitVec.ofInt 64 v))
  | .castC, .int v => .ok s (.u64 (BitVec.ofInt 64 v))
  | _, _ => .ub

/-- An element of an array: undefined outside the bounds. (mutate_ast_consumer.cc
340, 436.) -/
def idxVal (s : Store) (x : Var) : Val → EOut
  | .int i =>
    if i < 0 then .ub else
    match s.vars x with
    | .words ws =>
      match ws[i.toNat]? with
      | some w => .ok s (.u64 w)
      | none => .ub
    | _ => .ub
  | _ => .ub

/-- Atomic exchange with `true` of an element of an array of flags: the old value.
(mutate_ast_consumer.cc 360, 453.) -/
def exchangeVal (s : Store) (x : Var) : Val → EOut
  | .int i =>
    if i < 0 then .ub else
    match s.vars x with
    | .flags fs =>
      match fs[i.toNat]? with
      | some b => .ok (s.set x (.flags (fs.set i.toNat true))) (.bool b)
      | none => .ub
    | _ => .ub
  | _ => .ub

/-- `strtok` on the string it is to continue with: the token, and the position that
is remembered (C17 7.24.5.8). (mutate_ast_consumer.cc 417, 428.) -/
def strtokVal (s : Store) (c : Char) (t : Text) : EOut :=
  match t.dropWhile (· = c) with
  | [] => .ok s (.ptr none)
  | t => .ok (s.set .strtokPos (.ptr (some ((t.dropWhile (· ≠ c)).drop 1))))
      (.ptr (some (t.takeWhile (· ≠ c))))

/-- `strcpy`: undefined if the string does not fit. (mutate_ast_consumer.cc 415.) -/
def strcpyVal (s : Store) (x : Var) : Val → EOut
  | .ptr (some t) =>
    match s.vars x with
    | .buf n => if t.length + 1 ≤ n then .ok (s.set x (.ptr (some t))) .unit else .ub
    | _ => .ub
  | _ => .ub

/-- Members of `std::string` (mutate_ast_consumer.cc 296-303, 330).  `substr` and
`erase` throw if the position is beyond the end. -/
def substrVal (s : Store) (x : Var) (n : Nat) : Val → EOut
  | .size (some m) =>
    match s.vars x with
    | .str t => if t.length < n then .threw s else .ok s (.str ((t.drop n).take m))
    | _ => .ub
  | _ => .ub

/-- See `substrVal`. (mutate_ast_consumer.cc 330.) -/
def eraseVal (s : Store) (x : Var) (n : Nat) : Val → EOut
  | .size (some m) =>
    match s.vars x with
    | .str t =>
      if t.length < n then .threw s
      else .ok (s.set x (.str (t.take n ++ t.drop (n + m)))) .unit
    | _ => .ub
  | _ => .ub

/-- `fopen` and `std::ofstream::open`. (mutate_ast_consumer.cc 364-366, 458.) -/
def openVal (e : Env) (s : Store) : Val → EOut
  | .ptr (some f) => .ok s (.stream (e.canOpen f))
  | _ => .ub

/-- `std::ofstream::open` (mutate_ast_consumer.cc 365). -/
def openCppVal (e : Env) (s : Store) (x : Var) (v : Val) : EOut :=
  (openVal e s v).bind fun s w => .ok (s.set x w) .unit

/-- Output of a number and a line end. A stream in a failed state ignores output;
`fprintf` to a null pointer is undefined. (mutate_ast_consumer.cc 368-369, 460-461.) -/
def putVal (cpp : Bool) (s : Store) (x : Var) : Val → EOut
  | .int v =>
    match s.vars x with
    | .stream true => .ok { s with out := s.out ++ intDec v ++ t!"\n" } .unit
    | .stream false => if cpp then .ok s .unit else .ub
    | _ => .ub
  | _ => .ub

/-- `!` on a value. (mutate_ast_consumer.cc 285, 303, 408, 457.) -/
def notVal (s : Store) (v : Val) : EOut :=
  match truth v with
  | some b => .ok s (.bool (!b))
  | none => .ub

/-- `std::string::find` of one character. (mutate_ast_consumer.cc 296.) -/
def findVal (s : Store) (x : Var) (c : Char) : EOut :=
  match s.vars x with
  | .str t => .ok s (.size (t.findIdx? (· == c)))
  | _ => .ub

/-- `std::string::empty`. (mutate_ast_consumer.cc 303.) -/
def emptyVal (s : Store) (x : Var) : EOut :=
  match s.vars x with
  | .str t => .ok s (.bool t.isEmpty)
  | _ => .ub

/-- `strtok` on a variable. (mutate_ast_consumer.cc 417, 428.) -/
def strtokVar (s : Store) (x : Var) (c : Char) : EOut :=
  match s.vars x with
  | .ptr (some t) => strtokVal s c t
  | _ => .ub

/-- A variable: undefined if it has no value. (the variables of
mutate_ast_consumer.cc 278-343, 355-371, 403-438, 450-464.) -/
def varVal (s : Store) (x : Var) : EOut :=
  match s.vars x with
  | .undef => .ub
  | v => .ok s v

/-- Continue depending on a truth value. (`&&` and `?:`, mutate_ast_consumer.cc
299-300, 312, 422.) -/
def branch (b : Option Bool) (t f : EOut) : EOut :=
  match b with
  | some true => t
  | some false => f
  | none => .ub

/-- Evaluation of expressions (the constructs of mutate_ast_consumer.cc 287-342,
359-369, 409-437, 453-463). -/
def eval (e : Env) : Expr → Store → EOut
  | .var x, s => varVal s x
  | .num n, s => .ok s (.int n)
  | .tt, s => .ok s (.bool true)
  | .ff, s => .ok s (.bool false)
  | .null, s => .ok s (.ptr none)
  | .npos, s => .ok s (.size none)
  | .lit t, s => .ok s (.ptr (some t))
  | .bin op a b, s =>
    if op = .land then
      (eval e a s).bind fun s v =>
        branch (truth v)
          ((eval e b s).bind fun s w => branch (truth w) (.ok s (.bool true)) (.ok s (.bool false)))
          (.ok s (.bool false))
    else (eval e a s).bind fun s v => (eval e b s).bind fun s w => opVal op s v w
  | .par a, s => eval e a s
  | .not a, s => (eval e a s).bind notVal
  | .idx x a, s => (eval e a s).bind fun s v => idxVal s x v
  | .cond c a b, s => (eval e c s).bind fun s v => branch (truth v) (eval e a s) (eval e b s)
  | .call f a, s => (eval e a s).bind fun s v => fnVal e f s v
  | .find x c, s => findVal s x c
  | .substr x n a, s => (eval e a s).bind fun s v => substrVal s x n v
  | .erase x n a, s => (eval e a s).bind fun s v => eraseVal s x n v
  | .empty x, s => emptyVal s x
  | .strcpy x a, s => (eval e a s).bind fun s v => strcpyVal s x v
  | .strtok (some x) c, s => strtokVar s x c
  | .strtok none c, s => strtokVar s .strtokPos c
  | .exchangeCpp x a, s => (eval e a s).bind fun s v => exchangeVal s x v
  | .exchangeC x a, s => (eval e a s).bind fun s v => exchangeVal s x v
  | .openCpp x a, s => (eval e a s).bind fun s v => openCppVal e s x v
  | .fopen a, s => (eval e a s).bind fun s v => openVal e s v
  | .putCpp x a, s => (eval e a s).bind fun s v => putVal true s x v
  | .putC x a, s => (eval e a s).bind fun s v => putVal false s x v

/-- Statements.  `decl`, `ctor`, `declare` are the three forms of declaration
(mutate_ast_consumer.cc 287, 293, 416); `orSet x i e` is `x[i] |= e` (318, 424);
`ifRet` is an `if` with `return;` on the same line (359, 363); `while_ sp` has a
space before the parenthesis or not (294, 418); `for_` counts from 0 (367,
459). -/
inductive Stmt
  | skip
  | seq (a b : Stmt)
  | decl (ty : Text) (x : Var) (e : Expr)
  | ctor (ty : Text) (x : Var) (e : Expr)
  | declare (ty : Text) (x : Var)
  | set (x : Var) (e : Expr)
  | orSet (x : Var) (i e : Expr)
  | expr (e : Expr)
  | ite (c : Expr) (s : Stmt)
  | ifRet (c : Expr)
  | while_ (space : Bool) (c : Expr) (s : Stmt)
  | for_ (x : Var) (bound : Expr) (s : Stmt)
  | brk
  | ret (e : Expr)

/-- Statement lists. (the bodies in mutate_ast_consumer.cc 278-343, 355-371,
403-438, 450-464.) -/
def block : List Stmt → Stmt
  | [] => .skip
  | s :: ss => .seq s (block ss)

/-- Indentation by `k` levels of two spaces. (the white space in the strings of
mutate_ast_consumer.cc 278-343, 355-371, 403-438, 450-464.) -/
def indent (k : Nat) : Text := List.replicate (2 * k) ' '

/-- The lines of a statement, as the preludes lay them out (mutate_ast_consumer.cc
285-342, 359-370, 408-437, 453-463); each ends with a line end. -/
def Stmt.lines (k : Nat) : Stmt → List Text
  | .skip => []
  | .seq a b => a.lines k ++ b.lines k
  | .decl ty x e => [indent k ++ ty ++ t!" " ++ x.name ++ t!" = " ++ e.text ++ t!";\n"]
  | .ctor ty x e => [indent k ++ ty ++ t!" " ++ x.name ++ t!"(" ++ e.text ++ t!");\n"]
  | .declare ty x => [indent k ++ ty ++ t!" " ++ x.name ++ t!";\n"]
  | .set x e => [indent k ++ x.name ++ t!" = " ++ e.text ++ t!";\n"]
  | .orSet x i e => [indent k ++ x.name ++ t!"[" ++ i.text ++ t!"] |= " ++ e.text ++ t!";\n"]
  | .expr e => [indent k ++ e.text ++ t!";\n"]
  | .ite c s => (indent k ++ t!"if (" ++ c.text ++ t!") {\n") :: s.lines (k + 1) ++
      [indent k ++ t!"}\n"]
  | .ifRet c => [indent k ++ t!"if (" ++ c.text ++ t!") return;\n"]
  | .while_ space c s =>
      (indent k ++ t!"while" ++ (if space then t!" " else []) ++ t!"(" ++ c.text ++ t!") {\n") ::
        s.lines (k + 1) ++ [indent k ++ t!"}\n"]
  | .for_ x b s =>
      (indent k ++ t!"for (int " ++ x.name ++ t!" = 0; " ++ x.name ++ t!" < " ++ b.text ++ t!"; " ++
        x.name ++ t!"++) {\n") :: s.lines (k + 1) ++ [indent k ++ t!"}\n"]
  | .brk => [indent k ++ t!"break;\n"]
  | .ret e => [indent k ++ t!"return " ++ e.text ++ t!";\n"]

/-- Outcome of a statement; `fuel` means that the bound on the rounds of a loop was
reached. (the statements in mutate_ast_consumer.cc 278-343, 355-371, 403-438,
450-464.) -/
inductive SOut
  | next (s : Store)
  | brk (s : Store)
  | ret (s : Store) (v : Val)
  | threw (s : Store)
  | ub
  | fuel

/-- Use the value of an expression in a statement. (the statements in
mutate_ast_consumer.cc 278-343, 355-371, 403-438, 450-464.) -/
def SOut.ofE (r : EOut) (f : Store → Val → SOut) : SOut :=
  match r with
  | .ok s v => f s v
  | .threw s => .threw s
  | .ub => .ub

/-- Sequencing. (the statements in mutate_ast_consumer.cc 278-343, 355-371, 403-438,
450-464.) -/
def SOut.andThen (r : SOut) (f : Store → SOut) : SOut :=
  match r with
  | .next s => f s
  | r => r

/-- Continue depending on a truth value. (mutate_ast_consumer.cc 285, 290, 303, 312,
326, 408, 412, 422.) -/
def sbranch (b : Option Bool) (t f : SOut) : SOut :=
  match b with
  | some true => t
  | some false => f
  | none => .ub

/-- After the body of a loop: `next` goes on, `break` leaves the loop.
(mutate_ast_consumer.cc 294, 327, 418.) -/
def SOut.round (r : SOut) (again : Store → SOut) : SOut :=
  match r with
  | .next s => again s
  | .brk s => .next s
  | r => r

/-- A loop with a condition, a body and a step. (mutate_ast_consumer.cc 294-331,
367-370, 418-429, 459-462.) -/
def loop (c : Store → EOut) (b : Store → SOut) (step : Store → SOut) : Nat → Store → SOut
  | 0, _ => .fuel
  | n + 1, s =>
    .ofE (c s) fun s v =>
      sbranch (truth v) ((b s).round fun s => (step s).andThen (loop c b step n)) (.next s)

/-- `x[i] |= e` on values. (mutate_ast_consumer.cc 318-320, 424-425.) -/
def orSetVal (s : Store) (x : Var) : Val → Val → SOut
  | .int i, .u64 w' =>
    if i < 0 then .ub else
    match s.vars x with
    | .words ws =>
      match ws[i.toNat]? with
      | some w => .next (s.set x (.words (ws.set i.toNat (w ||| w'))))
      | none => .ub
    | _ => .ub
  | _, _ => .ub

/-- The value stored by `std::string x(e)` (mutate_ast_consumer.cc 293):
undefined for a null pointer. -/
def ctorVal (s : Store) (x : Var) : Val → SOut
  | .ptr (some t) => .next (s.set x (.str t))
  | _ => .ub

/-- Execution of statements (the constructs of mutate_ast_consumer.cc 285-342,
359-370, 408-437, 453-463); `fuel` bounds the rounds of each loop. -/
def exec (e : Env) (fuel : Nat) : Stmt → Store → SOut
  | .skip, s => .next s
  | .seq a b, s => (exec e fuel a s).andThen (exec e fuel b)
  | .decl _ x a, s => .ofE (eval e a s) fun s v => .next (s.set x v)
  | .ctor _ x a, s => .ofE (eval e a s) fun s v => ctorVal s x v
  | .declare _ x, s => .next (s.set x .undef)
  | .set x a, s => .ofE (eval e a s) fun s v => .next (s.set x v)
  | .orSet x i a, s => .ofE (eval e a s) fun s w => .ofE (eval e i s) fun s v => orSetVal s x v w
  | .expr a, s => .ofE (eval e a s) fun s _ => .next s
  | .ite c b, s => .ofE (eval e c s) fun s v => sbranch (truth v) (exec e fuel b s) (.next s)
  | .ifRet c, s => .ofE (eval e c s) fun s v => sbranch (truth v) (.ret s .unit) (.next s)
  | .while_ _ c b, s => loop (eval e c) (exec e fuel b) .next fuel s
  | .for_ x bound b, s =>
    loop (eval e (.bin .lt (.var x) bound)) (exec e fuel b)
      (fun s => .ofE (eval e (.bin .add (.var x) (.num 1)) s) fun s v => .next (s.set x v))
      fuel (s.set x (.int 0))
  | .brk, s => .brk s
  | .ret a, s => .ofE (eval e a s) fun s v => .ret s v

/-- A static variable of a prelude (mutate_ast_consumer.cc 278-284, 357,
403-407, 452): how it is declared and its initial value. -/
inductive Static
  | scalar (indent : Nat) (ty : Text) (x : Var) (init : Expr)
  | array (indent : Nat) (ty : Text) (x : Var) (n : Nat) (flags : Bool)

/-- The line of the declaration (mutate_ast_consumer.cc 278-284, 357, 403-407,
452). -/
def Static.line : Static → Text
  | .scalar k ty x e => indent k ++ ty ++ t!" " ++ x.name ++ t!" = " ++ e.text ++ t!";\n"
  | .array k ty x n _ => indent k ++ ty ++ t!" " ++ x.name ++ t!"[" ++ natDec n ++ t!"];\n"

/-- Initialisation: an array without initialiser is zero (static storage).
(mutate_ast_consumer.cc 283, 357, 406, 452.) -/
def Static.init (s : Store) : Static → Store
  | .scalar _ _ x e =>
    match eval ⟨fun _ => none, fun _ => false⟩ e s with
    | .ok s v => s.set x v
    | _ => s
  | .array _ _ x n true => s.set x (.flags (List.replicate n false))
  | .array _ _ x n false => s.set x (.words (List.replicate n 0#64))

/-- A function of a prelude with the static variables declared before it and in it.
(mutate_ast_consumer.cc 278-343, 355-371, 403-438, 450-464.) -/
structure Fun where
  outer : List Static
  head : Text
  params : List Var
  inner : List Static
  body : Stmt

/-- The lines of a function (mutate_ast_consumer.cc 278-343, 355-371, 403-438,
450-464). -/
def Fun.lines (f : Fun) : List Text :=
  f.outer.map Static.line ++
    [f.head ++ t!"(" ++ List.intercalate t!", " (f.params.map fun x => t!"int " ++ x.name) ++
      t!") {\n"] ++
    f.inner.map Static.line ++ f.body.lines 1 ++ [t!"}\n", t!"\n"]

/-- The static variables at the start of the program. (mutate_ast_consumer.cc
278-283, 357, 403-406, 452.) -/
def Fun.start (f : Fun) : Store :=
  (f.outer ++ f.inner).foldl Static.init ⟨fun _ => .undef, []⟩

/-- Set parameters. (mutate_ast_consumer.cc 279, 355-356, 404, 450-451.) -/
def bindParams : List Var → List Nat → Store → Store
  | x :: xs, a :: as, s => bindParams xs as (s.set x (.int a))
  | _, _, s => s

/-- A call of the function. (mutate_ast_consumer.cc 279, 355-356, 404, 450-451.) -/
def Fun.call (f : Fun) (e : Env) (fuel : Nat) (args : List Nat) (s : Store) : SOut :=
  exec e fuel f.body (bindParams f.params args s)

end Dredd.MiniC
