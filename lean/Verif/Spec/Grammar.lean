/-
Phrases of C and C++ (C62): trees of the rules of a grammar, what the instrumentation of a
program is as such a tree, and parsed source text with instrumented pieces.  Offsets, edits
and the text that is inserted do not occur here; the trees say what the inserted text has to
mean.
The grammar is any that has the rules of C or C++ that the tool relies on
(`Grammar.Has`).  Labels are items of blocks (C23 6.8.2), and statements that end with a
semicolon are phrases of their own without it; both only divide the rules of C and C++
differently.
-/
import Verif.Spec.CType
import Verif.Spec.Layout
import Verif.Spec.Coherent

namespace Dredd

/-! ### Grammars and trees -/

/-- Kinds of phrases.
* `expr k` – expressions; `k` says how tight they bind (C11 6.5, C++17 [expr]): 0 comma expression,
  1 assignment, 2 conditional, 3 to 12 the binary operators from `||` to `*`, 13 pointers to
  members, 14 casts, 15 prefix operators, 16 postfix operators and calls, 17 primary expressions.
* `unfinished` – a statement that ends with a semicolon, without it.
* `closed` – a statement that may stand between `if (…)` and `else`.
* `stmt` – a statement.
* `item` – an item of a block.
* `type` – a type.
* `other` – anything else. -/
inductive Phrase
  | expr (k : Nat)
  | unfinished
  | closed
  | stmt
  | item
  | type
  | other (n : Text)
deriving DecidableEq, Repr

/-- A phrase of one kind may stand where another is asked for. -/
def Phrase.fits : Phrase → Phrase → Bool
  | .expr j, .expr k => k ≤ j
  | .expr _, .unfinished => true
  | .closed, .stmt | .closed, .item | .stmt, .item => true
  | p, q => p == q

/-- A symbol of a rule. -/
inductive Sym
  | tok (t : Text)
  | nt (p : Phrase)
deriving DecidableEq

/-- A grammar: which sequences of symbols are phrases. -/
structure Grammar where
  rule : Phrase → List Sym → Prop

/-- A syntax tree. -/
inductive Tree
  | tok (t : Text)
  | node (p : Phrase) (kids : List Tree)

mutual
/-- The tokens of a tree. -/
def Tree.yield : Tree → List Text
  | .tok t => [t]
  | .node _ ks => Tree.yieldL ks

def Tree.yieldL : List Tree → List Text
  | [] => []
  | k :: ks => k.yield ++ Tree.yieldL ks
end

/-- The trees are what the symbols ask for. -/
def Tree.Match : List Tree → List Sym → Prop
  | [], [] => True
  | .tok t :: ks, .tok u :: ss => t = u ∧ Tree.Match ks ss
  | .node p _ :: ks, .nt q :: ss => p.fits q = true ∧ Tree.Match ks ss
  | _, _ => False

mutual
/-- Every node is made by a rule of the grammar. -/
def Tree.Valid (G : Grammar) : Tree → Prop
  | .tok _ => True
  | .node p ks => (∃ ss, G.rule p ss ∧ Tree.Match ks ss) ∧ Tree.ValidL G ks

def Tree.ValidL (G : Grammar) : List Tree → Prop
  | [] => True
  | k :: ks => k.Valid G ∧ Tree.ValidL G ks
end

/-- `a, b, …, z`. -/
def commaSep {α : Type} (comma : α) : List α → List α
  | [] => []
  | [x] => [x]
  | x :: y :: xs => x :: comma :: commaSep comma (y :: xs)

/-- How tight a binary operator binds, and what its operands must be (C11 6.5.5 to 6.5.17, C++17
[expr.pm] to [expr.comma]). -/
def BOp.levels : BOp → Nat × Nat × Nat
  | .ptrMemD | .ptrMemI => (13, 13, 14)
  | .mul | .div | .rem => (12, 12, 13)
  | .add | .sub => (11, 11, 12)
  | .shl | .shr => (10, 10, 11)
  | .cmp | .lt | .gt | .le | .ge => (9, 9, 10)
  | .eq | .ne => (8, 8, 9)
  | .and => (7, 7, 8)
  | .xor => (6, 6, 7)
  | .or => (5, 5, 6)
  | .land => (4, 4, 5)
  | .lor => (3, 3, 4)
  | .comma => (0, 0, 1)
  | _ => (1, 3, 1)

/-- The rules that matter; `cpp` says whether those of C++ are among them.
* `name`, `num` – names that begin with `__dredd_`, and decimal numbers, are expressions.
* `loose` – no rule asks for a primary expression.
* `item` – where an item of a block may stand, two may. -/
structure Grammar.Has (G : Grammar) (cpp : Bool) : Prop where
  name : ∀ x, t!"__dredd_" <+: x → x.all wordChar = true → G.rule (.expr 17) [.tok x]
  num : ∀ n, G.rule (.expr 17) [.tok (natDec n)]
  paren : G.rule (.expr 17) [.tok t!"(", .nt (.expr 0), .tok t!")"]
  call : ∀ n, G.rule (.expr 16) ([.nt (.expr 16), .tok t!"("] ++
    commaSep (.tok t!",") (List.replicate n (.nt (.expr 1))) ++ [.tok t!")"])
  addr : G.rule (.expr 15) [.tok t!"&", .nt (.expr 14)]
  lnot : G.rule (.expr 15) [.tok t!"!", .nt (.expr 14)]
  logical : ∀ op : BOp, op.isLogical = true → G.rule (.expr op.levels.1)
    [.nt (.expr op.levels.2.1), .tok op.str, .nt (.expr op.levels.2.2)]
  semi : G.rule .closed [.nt .unfinished, .tok t!";"]
  null : G.rule .closed [.tok t!";"]
  block : ∀ n, G.rule .closed ([.tok t!"{"] ++ List.replicate n (.nt .item) ++ [.tok t!"}"])
  ifs : G.rule .stmt [.tok t!"if", .tok t!"(", .nt (.expr 0), .tok t!")", .nt .stmt]
  ret : G.rule .unfinished [.tok t!"return", .nt (.expr 0)]
  type : ∀ ts, (readDTy ts).isSome → G.rule .type (ts.map .tok)
  cast : cpp = true → G.rule (.expr 16)
    [.tok t!"static_cast", .tok t!"<", .nt .type, .tok t!">", .tok t!"(", .nt (.expr 0), .tok t!")"]
  lambda : cpp = true → G.rule (.expr 17) [.tok t!"[", .tok t!"&", .tok t!"]", .tok t!"(", .tok t!")",
    .tok t!"->", .nt .type, .nt .closed]
  loose : ∀ p ss k, G.rule p ss → .nt (.expr k) ∈ ss → k ≤ 16
  item : ∀ p a b, G.rule p (a ++ [.nt .item] ++ b) → G.rule p (a ++ [.nt .item, .nt .item] ++ b)

/-! ### Trees for what is inserted -/

namespace Tree

def name (x : Text) : Tree := .node (.expr 17) [.tok x]

def num (n : Nat) : Tree := .node (.expr 17) [.tok (natDec n)]

def paren (x : Tree) : Tree := .node (.expr 17) [.tok t!"(", x, .tok t!")"]

/-- `f(args)`. -/
def call (f : Text) (args : List Tree) : Tree :=
  .node (.expr 16) ([name f, .tok t!"("] ++ commaSep (.tok t!",") args ++ [.tok t!")"])

/-- `&(x)`. -/
def addr (x : Tree) : Tree := .node (.expr 15) [.tok t!"&", paren x]

def type (ty : Text) : Tree := .node .type ((tokens ty).map .tok)

/-- `static_cast<ty>(x)`. -/
def cast (ty : Text) (x : Tree) : Tree :=
  .node (.expr 16) [.tok t!"static_cast", .tok t!"<", type ty, .tok t!">", .tok t!"(", x, .tok t!")"]

/-- `{ items }`. -/
def block (items : List Tree) : Tree := .node .closed ([.tok t!"{"] ++ items ++ [.tok t!"}"])

/-- `x;`. -/
def semi (x : Tree) : Tree := .node .closed [x, .tok t!";"]

/-- `[&]() -> ty { return x; }`. -/
def lambda (ty : Text) (x : Tree) : Tree :=
  .node (.expr 17) [.tok t!"[", .tok t!"&", .tok t!"]", .tok t!"(", .tok t!")", .tok t!"->", type ty,
    block [semi (.node .unfinished [.tok t!"return", x])]]

/-- `if (!f(id)) { items }`. -/
def guarded (f : Text) (id : Nat) (items : List Tree) : Tree :=
  .node .stmt [.tok t!"if", .tok t!"(", .node (.expr 15) [.tok t!"!", call f [num id]], .tok t!")",
    block items]

end Tree

/-- An operand as argument for a parameter: a function object is made by a lambda, in which the
operand is converted to the type of the result unless it is a constant; for a pointer the address
is taken. -/
def Param.pass (p : Param) (const : Bool) (x : Tree) : Tree :=
  match p.mode with
  | .thunk => .lambda p.ty (if const then x else .cast p.ty x)
  | .deref => .addr x
  | .value => x

/-- A call of a generated function, with operands as its parameters demand (`true`: a constant), and
the id. -/
def MutFn.callTree (f : MutFn) (args : List (Bool × Tree)) (id : Nat) : Tree :=
  .call f.name ((f.params.zip args).map (fun (p, c, x) => p.pass c x) ++ [.num id])

/-! ### Parsed source text -/

/-- Parsed source text.
* `tok t` – a token.
* `gap g` – white space and comments.
* `node p ks` – a phrase.
* `const old v` – a constant expression that is rewritten to the number `v`.
* the others – instrumented operators, expressions and statements, as in `Lay`; `g`, `g1` and `g2`
  are white space and comments, `ext` are comments and a semicolon. -/
inductive Syn
  | tok (t : Text)
  | gap (g : Text)
  | node (p : Phrase) (ks : List Syn)
  | const (old : Text) (v : Nat)
  | expr (s : ExprSite) (x : Syn)
  | bin (s : BinSite) (a : Syn) (g1 g2 : Text) (b : Syn)
  | pre (s : UnSite) (g : Text) (x : Syn)
  | post (s : UnSite) (x : Syn) (g : Text)
  | stmt (s : StmtSite) (x : Syn) (ext : Text)

/-- White space and comments, or nothing. -/
def gapLay (g : Text) : List Lay := if g = [] then [] else [.text g]

mutual
/-- The same as a tree of texts. -/
def Syn.lay : Syn → List Lay
  | .tok t => [.text t]
  | .gap g => gapLay g
  | .node _ ks => Syn.layL ks
  | .const old v => [.const old v]
  | .expr s x => [.expr s x.lay]
  | .bin s a g1 g2 b => [.bin s a.lay g1 g2 b.lay]
  | .pre s g x => [.pre s (gapLay g ++ x.lay)]
  | .post s x g => [.post s (x.lay ++ gapLay g)]
  | .stmt s x ext => [.stmt s x.lay ext]

def Syn.layL : List Syn → List Lay
  | [] => []
  | k :: ks => k.lay ++ Syn.layL ks
end

/-- What kind of phrase it is, if any. -/
def Syn.phrase : Syn → Option Phrase
  | .tok _ | .gap _ => none
  | .node p _ => some p
  | .const _ _ => some (.expr 17)
  | .expr _ x => x.phrase
  | .bin s _ _ _ _ => some (.expr s.op.levels.1)
  | .pre _ _ _ => some (.expr 15)
  | .post _ _ _ => some (.expr 16)
  | .stmt _ _ _ => some .item

/-- An expression that binds at least as tight as `k`. -/
def Syn.isExpr (k : Nat) (x : Syn) : Prop := ∃ j, x.phrase = some (.expr j) ∧ k ≤ j ∧ j ≤ 17

/-- The pieces, without white space and comments, are what the symbols ask for. -/
def Syn.Match : List Syn → List Sym → Prop
  | [], [] => True
  | .gap _ :: ks, ss => Syn.Match ks ss
  | .tok t :: ks, .tok u :: ss => t = u ∧ Syn.Match ks ss
  | k :: ks, .nt q :: ss => (∃ p, k.phrase = some p ∧ p.fits q = true) ∧ Syn.Match ks ss
  | _, _ => False

mutual
/-- The text is parsed according to the grammar (`cpp`: of C++).  Operands are what their operators
ask for.  An instrumented expression is not a comma expression, or known to be the builtin one, or in
C++ known to have side effects (as calls of overloaded operators are).  Statements to be removed are
items of blocks, and it is known whether a semicolon belongs to them. -/
def Syn.Parsed (G : Grammar) (cpp : Bool) : Syn → Prop
  | .tok _ | .gap _ | .const _ _ => True
  | .node p ks => (∃ ss, G.rule p ss ∧ Syn.Match ks ss) ∧ (∀ k, p = .expr k → k ≤ 17) ∧
    Syn.ParsedL G cpp ks
  | .expr s x => (x.isExpr 1 ∨ x.isExpr 0 ∧ (s.binOp = some .comma ∨ cpp = true ∧ s.self.sideEffects = true)) ∧
    (s.initListCast.isSome → cpp = true) ∧ x.Parsed G cpp
  | .bin s a _ _ b => a.isExpr s.op.levels.2.1 ∧ b.isExpr s.op.levels.2.2 ∧ a.Parsed G cpp ∧ b.Parsed G cpp
  | .pre _ _ x => x.isExpr 14 ∧ x.Parsed G cpp
  | .post _ x _ => x.isExpr 16 ∧ x.Parsed G cpp
  | .stmt s x ext => (s.extSemi = true ↔ tokens ext = [t!";"]) ∧
    (∃ p, x.phrase = some p ∧
      (p.fits .unfinished = true ∧ tokens ext = [t!";"] ∨
        p.fits .item = true ∧ p ≠ .item ∧ (tokens ext = [] ∨ tokens ext = [t!";"]))) ∧ x.Parsed G cpp

def Syn.ParsedL (G : Grammar) (cpp : Bool) : List Syn → Prop
  | [] => True
  | k :: ks => k.Parsed G cpp ∧ Syn.ParsedL G cpp ks
end

/-! ### The instrumented program -/

/-- A statement with what follows it, as items of a block. -/
def withSemi (unfinished semi : Bool) (x : Tree) : List Tree :=
  if semi then if unfinished then [.semi x] else [x, .node .closed [.tok t!";"]] else [x]

mutual
/-- The instrumented form of a piece whose first mutant has number `id`.  Operators and expressions
become calls of their functions, with the operands as arguments.  In C the operands of a logical
operator are wrapped into calls, and the whole.  Statements become conditional, or are preceded by
a call that records them. -/
def Syn.instr (l : Lang) (o : Options) (id : Nat) : Syn → List Tree
  | .tok t => [.tok t]
  | .gap _ => []
  | .node p ks => [.node p (Syn.instrL l o id ks)]
  | .const _ v => [.num v]
  | .expr s x =>
    let id' := id + countAll l o.optimise (Lay.mutsL x.lay)
    (x.instr l o id).map fun t =>
      let t := if s.binOp = some .comma then Tree.paren t else t
      let c := (s.genFn l o id').callTree [(s.self.cxx11Const, t)] id'
      match s.initListCast with
      | some ty => .cast (ty.name l) c
      | none => c
  | .bin s a _ _ b =>
    let idb := id + countAll l o.optimise (Lay.mutsL a.lay)
    let id' := idb + countAll l o.optimise (Lay.mutsL b.lay)
    (a.instr l o id).flatMap fun x => (b.instr l o idb).map fun y =>
      if !l.cpp && s.op.isLogical then
        let op (x y : Tree) : Tree := .node (.expr s.op.levels.1) [x, .tok s.op.str, y]
        (cLogicalOuterFn s l o).callTree [(false,
          if o.track then op x y
          else op ((cLogicalLhsFn s l o).callTree [(false, x)] id')
            ((cLogicalRhsFn s l o).callTree [(false, y)] id'))] id'
      else (s.genFn l o id').callTree [(false, x), (false, y)] id'
  | .pre s _ x | .post s x _ =>
    let id' := id + countAll l o.optimise (Lay.mutsL x.lay)
    (x.instr l o id).map fun t => (s.genFn l o id').callTree [(s.sub.cxx11Const, t)] id'
  | .stmt s x ext =>
    let id' := id + countAll l o.optimise (Lay.mutsL x.lay)
    let semi := tokens ext = [t!";"]
    let unfinished := (x.phrase.map (·.fits .unfinished)).getD false
    (x.instr l o id).flatMap fun t =>
      if o.track then
        .semi (.call t!"__dredd_record_covered_mutants" [.num id', .num 1]) :: withSemi unfinished semi t
      else [.guarded t!"__dredd_enabled_mutation" id'
        (withSemi unfinished (semi || (!s.extSemi && s.nextHash)) t)]

def Syn.instrL (l : Lang) (o : Options) (id : Nat) : List Syn → List Tree
  | [] => []
  | k :: ks =>
    k.instr l o id ++ Syn.instrL l o (id + countAll l o.optimise (Lay.mutsL k.lay)) ks
end

/-! ### Tokens -/

/-- The last lexeme of a text. -/
def lastLex (t : Text) : Option Lexing := (lexemes t).getLast?.map (·.1)

/-- White space and comments, complete. -/
def IsGap (g : Text) : Prop :=
  tokens g = [] ∧ (g = [] ∨ lastLex g = some .white ∨ lastLex g = some .comment)

/-- The text `t` does not go together with the lexeme that comes just before it. -/
def apart (st : Option Lexing) (t : Text) : Prop :=
  ∀ s c cs, st = some s → t = c :: cs → s.more c = none

/-- No word, number, literal or line comment comes just before. -/
def NoWord (st : Option Lexing) : Prop := ∀ s, st = some s → s.isWord = false ∧ s ≠ .line

mutual
/-- The lexeme at the end of a piece (`none` after white space, and after instrumented pieces); `st`
is the one before it. -/
def Syn.after (st : Option Lexing) : Syn → Option Lexing
  | .tok t => lastLex t
  | .gap g => if g = [] then st else none
  | .node _ ks => Syn.afterL st ks
  | .const _ _ => some (.number false)
  | .stmt _ x ext => if ext = [] then x.after none else lastLex ext
  | _ => none

def Syn.afterL (st : Option Lexing) : List Syn → Option Lexing
  | [] => st
  | k :: ks => Syn.afterL (k.after st) ks
end

/-- The piece does not end with a line comment. -/
def Syn.Ends (x : Syn) : Prop := x.after none ≠ some .line

mutual
/-- The pieces are tokens, white space and comments of the text; `st` is what comes before.  If
something instrumented follows a word, number or literal immediately, this is an expression for
which it is known.  A number in place of a constant stands apart. -/
def Syn.Lexed (st : Option Lexing) : Syn → Prop
  | .tok t => (∃ s, lexemes t = [(s, t)] ∧ s.isWhole = true) ∧ apart st t
  | .gap g => IsGap g ∧ apart st g
  | .node _ ks => Syn.LexedL st ks
  | .const _ v => apart st (natDec v)
  | .expr s x => (NoWord st ∨ s.precIdent = true ∧ st ≠ some .line) ∧ x.Lexed none ∧ x.Ends
  | .bin s a g1 g2 b => NoWord st ∧ a.Lexed none ∧ a.Ends ∧ apart (a.after none) (g1 ++ s.op.str) ∧
    IsGap g1 ∧ IsGap g2 ∧ b.Lexed none ∧ b.Ends
  | .pre _ g x => NoWord st ∧ IsGap g ∧ x.Lexed none ∧ x.Ends
  | .post _ x g => NoWord st ∧ x.Lexed none ∧ x.Ends ∧ apart (x.after none) g ∧ IsGap g
  | .stmt s x ext => NoWord st ∧ x.Lexed none ∧ x.Ends ∧ apart (x.after none) ext ∧
    (ext = [] ∨ lastLex ext = some .white ∨ lastLex ext = some .comment ∨
      lastLex ext = some (.punct t!";") ∨
      lastLex ext = some .line ∧ s.extComment = true ∧ s.extSemi = false)

def Syn.LexedL (st : Option Lexing) : List Syn → Prop
  | [] => True
  | k :: ks => k.Lexed st ∧ Syn.LexedL (k.after st) ks
end

end Dredd
