/-
What phrases of C and C++ mean (C63).  Phrases have meanings that are made from the meanings of
their parts.  A semantics is any that gives to the constructs that the tool inserts the meaning that
they have in C and C++ (`Sem.Has`); generated functions are those read from the text (C59).
The source program is elaborated to a program of `Sem/Prog.lean`, with explicit conversions; a
semantics must agree with the elaboration on everything that is not instrumented (`Sem.Agrees`).
-/
import Verif.Spec.Grammar
import Verif.Sem.Interp

namespace Dredd

variable {S T V D R : Type}

/-! ### Meanings -/

/-- What a phrase or token means.
* `name x` – a name that begins with `__dredd_`.
* `num n` – a decimal number.
* `val ty c` – an expression of type `ty` (as written; references are l-values).
* `addr c` – the address of an object.
* `fobj ty c` – a function object without parameters that gives a `ty`.
* `flag c`, `act c` – calls of functions of the prelude that give a truth value, or nothing.
* `type ty` – a type.
* `stm c` – statements.
* `fn f c` – the definition of function number `f`; `unit fs` – the definitions of a file. -/
inductive Den (T V R : Type)
  | tok (t : Text)
  | name (x : Text)
  | num (n : Nat)
  | val (ty : Text) (c : Comp T V)
  | addr (c : Comp T V)
  | fobj (ty : Text) (c : Comp T V)
  | flag (c : Comp T Bool)
  | act (c : Comp T Unit)
  | type (ty : Text)
  | stm (c : Code T V)
  | fn (f : Nat) (c : Comp T (Ctl V))
  | unit (fs : List (Nat × Comp T (Ctl V)))
  | other (r : R)

/-- A semantics: what a phrase with given parts means, and the values of numbers. -/
structure Sem (T V R : Type) where
  node : Phrase → List (Den T V R) → Option (Den T V R)
  numVal : Nat → V

mutual
/-- The meaning of a tree. -/
def Tree.mean (K : Sem T V R) : Tree → Option (Den T V R)
  | .tok t => some (.tok t)
  | .node p ks => (Tree.meanL K ks).bind (K.node p)

def Tree.meanL (K : Sem T V R) : List Tree → Option (List (Den T V R))
  | [] => some []
  | k :: ks => (k.mean K).bind fun d => (Tree.meanL K ks).map (d :: ·)
end

/-- An expression as type and computation. -/
def Den.asVal (numVal : Nat → V) : Den T V R → Option (Text × Comp T V)
  | .val ty c => some (ty, c)
  | .num n => some (t!"int", .pure (numVal n))
  | _ => none

/-- The type is a reference. -/
def isRef (ty : Text) : Bool := ty.getLast? == some '&'

/-- An expression used to initialise a variable, parameter or result of type `ty`: it is converted,
unless that is a reference. -/
def Comp.as (N : Machine T V) (ty : Text) (c : Comp T V) : Comp T V :=
  if isRef ty then c else c.to N ty

/-- What a function with result type `ty` gives when its body has ended. -/
def Ctl.result (N : Machine T V) (ty : Text) : Ctl V → Comp T V
  | .return_ (some v) => (Comp.pure v).as N ty
  | _ => .ub

/-- The meaning of an argument for a parameter. -/
def Den.passTo (N : Machine T V) (numVal : Nat → V) (p : CParam) (d : Den T V R) : Option (Comp T V) :=
  match p.pass with
  | .function =>
    match d with
    | .fobj ty c => if typeText p.ty = t!"std::function<" ++ ty ++ t!"()>" then some c else none
    | _ => none
  | .pointer =>
    match d with
    | .addr c => some c
    | _ => none
  | .value => (d.asVal numVal).map fun x => x.2.as N (typeText p.ty)

/-- The meanings of arguments for parameters, if they fit. -/
def passAll (N : Machine T V) (numVal : Nat → V) :
    List CParam → List (Den T V R) → Option (List (Comp T V))
  | [], [] => some []
  | p :: ps, d :: ds => (d.passTo N numVal p).bind fun c => (passAll N numVal ps ds).map (c :: ·)
  | _, _ => none

/-- A call of `x` with arguments `args` and an id means a call of `f`: of the functions of that name
it is the only one for which the arguments fit. -/
structure Resolves (N : Machine T V) (numVal : Nat → V) (fs : List CFn) (x : Text)
    (args : List (Den T V R)) (f : CFn) (cs : List (Comp T V)) : Prop where
  mem : f ∈ fs
  name : f.name = x
  fit : passAll N numVal f.params.dropLast args = some cs
  only : ∀ g ∈ fs, g.name = x → (passAll N numVal g.params.dropLast args).isSome → g = f

/-- Statements as one. -/
def seqAll : List (Code T V) → Code T V
  | [] => .skip
  | c :: cs => c.seq (seqAll cs)

/-- The meaning of the constructs that are inserted, in C or C++ (`cpp`), where `fs` are the
generated functions and `dev` is the prelude.
* `item` – adjacent statements are executed one after the other. -/
structure Sem.Has (K : Sem (S × D) V R) (M : Machine S V) (dev : Device D) (fs : List CFn)
    (cpp : Bool) : Prop where
  name : ∀ x, t!"__dredd_" <+: x → x.all wordChar = true → K.node (.expr 17) [.tok x] = some (.name x)
  num : ∀ n, K.node (.expr 17) [.tok (natDec n)] = some (.num n)
  paren : ∀ d x, d.asVal K.numVal = some x →
    K.node (.expr 17) [.tok t!"(", d, .tok t!")"] = some d
  call : ∀ x args id f cs, Resolves (M.withState D) K.numVal fs x args f cs →
    K.node (.expr 16) ([.name x, .tok t!"("] ++ commaSep (.tok t!",") (args ++ [.num id]) ++ [.tok t!")"]) =
      some (.val (typeText f.resTy) (f.call M dev id cs))
  enabled : ∀ n, K.node (.expr 16) [.name t!"__dredd_enabled_mutation", .tok t!"(", .num n, .tok t!")"] =
    some (.flag (onDevice (dev.query n)))
  record : ∀ n k, K.node (.expr 16)
    [.name t!"__dredd_record_covered_mutants", .tok t!"(", .num n, .tok t!",", .num k, .tok t!")"] =
      some (.act (onDevice (dev.record n k)))
  addr : ∀ d ty c, d.asVal K.numVal = some (ty, c) → K.node (.expr 15) [.tok t!"&", d] = some (.addr c)
  lnot : ∀ c, K.node (.expr 15) [.tok t!"!", .flag c] =
    some (.flag (Comp.bind c fun b => .pure !b))
  logical : cpp = false → ∀ op : BOp, op.isLogical = true → ∀ d1 d2 t1 t2 c1 c2,
    d1.asVal K.numVal = some (t1, c1) → d2.asVal K.numVal = some (t2, c2) →
    K.node (.expr op.levels.1) [d1, .tok op.str, d2] =
      some (.val t!"int" ((M.withState D).evalBin op (c1.to (M.withState D) t1) (c2.to (M.withState D) t2)))
  exprStm : ∀ d x, d.asVal K.numVal = some x →
    K.node .closed [d, .tok t!";"] = some (.stm (.plain (Comp.bind x.2 fun _ => .pure .normal)))
  actStm : ∀ c, K.node .closed [.act c, .tok t!";"] =
    some (.stm (.plain (Comp.bind c fun _ => .pure .normal)))
  stmSemi : ∀ c, K.node .closed [.stm c, .tok t!";"] = some (.stm c)
  null : K.node .closed [.tok t!";"] = some (.stm .skip)
  block : ∀ cs : List (Code (S × D) V),
    K.node .closed ([.tok t!"{"] ++ cs.map .stm ++ [.tok t!"}"]) = some (.stm (seqAll cs))
  ifs : ∀ c a, K.node .stmt [.tok t!"if", .tok t!"(", .flag c, .tok t!")", .stm a] =
    some (.stm (.ite c a .skip))
  ret : ∀ d x, d.asVal K.numVal = some x →
    K.node .unfinished [.tok t!"return", d] =
      some (.stm (.plain (Comp.bind x.2 fun v => .pure (.return_ (some v)))))
  type : ∀ ts, (readDTy ts).isSome → K.node .type (ts.map .tok) = some (.type (typeText ts))
  cast : cpp = true → ∀ ty d x, d.asVal K.numVal = some x → K.node (.expr 16)
    [.tok t!"static_cast", .tok t!"<", .type ty, .tok t!">", .tok t!"(", d, .tok t!")"] =
      some (.val ty (x.2.as (M.withState D) ty))
  lambda : cpp = true → ∀ ty c, K.node (.expr 17) [.tok t!"[", .tok t!"&", .tok t!"]", .tok t!"(",
    .tok t!")", .tok t!"->", .type ty, .stm c] =
      some (.fobj ty (Comp.bind (c.run none) (Ctl.result (M.withState D) ty)))
  item : ∀ p as bs c d, K.node p (as ++ [.stm c, .stm d] ++ bs) =
    K.node p (as ++ [.stm (c.seq d)] ++ bs)

/-! ### Elaboration -/

/-- What a phrase or token of the source is. -/
inductive SrcPart (S V R : Type)
  | tok (t : Text)
  | num (n : Nat)
  | exp (ty : Text) (e : Exp S V)
  | type (ty : Text)
  | stm (a : Stm S V)
  | fn (f : Nat) (a : Stm S V)
  | unit (fs : List (Nat × Stm S V))
  | other (r : R)

/-- An expression as type and expression. -/
def SrcPart.asExp (numVal : Nat → V) : SrcPart S V R → Option (Text × Exp S V)
  | .exp ty e => some (ty, e)
  | .num n => some (t!"int", .atom (.pure (numVal n)))
  | _ => none

/-- The elaboration of phrases that are not instrumented. -/
structure Elab (S V R : Type) where
  node : Phrase → List (SrcPart S V R) → Option (SrcPart S V R)
  numVal : Nat → V

/-- An operand of an instrumented operator, or an instrumented expression: an l-value is used as
such (`lv`) or it is converted to its type. -/
def operand (l : Lang) (lv : Bool) (info : ExprInfo) (e : Exp S V) : Exp S V :=
  if lv then e else .load (info.ty.name l) e

/-- The only element. -/
def only {α : Type} : List α → Option α
  | [x] => some x
  | _ => none

/-- A statement; an expression or other `unfinished` phrase becomes one by its semicolon. -/
def SrcPart.asStm (numVal : Nat → V) (unfinished : Bool) (p : SrcPart S V R) : Option (Stm S V) :=
  match p with
  | .stm a => some a
  | p => if unfinished then (p.asExp numVal).map fun x => .expr x.2 else none

mutual
/-- The elaborated source.  Instrumentation points are those of `Sem/Prog.lean`; the first mutant has
number `id`.  The operands of a logical operator of C have the types that clang says, and it has
type `int` (C11 6.5.13, 6.5.14). -/
def Syn.elab (E : Elab S V R) (l : Lang) (o : Options) (id : Nat) : Syn → Option (List (SrcPart S V R))
  | .tok t => some [.tok t]
  | .gap _ => some []
  | .node p ks => (Syn.elabL E l o id ks).bind fun ps => (E.node p ps).map ([·])
  | .const _ v => some [.num v]
  | .expr s x =>
    let id' := id + countAll l o.optimise (Lay.mutsL x.lay)
    (x.elab E l o id).bind only |>.bind (·.asExp E.numVal) |>.map fun e =>
      let e' := if s.self.lvalue then Exp.loadAt s id' e.2
        else .exprAt s id' (operand l false s.self e.2)
      match s.initListCast with
      | some ty => [.exp (ty.name l) (.load (ty.name l) e')]
      | none => [.exp (s.self.ty.name l) e']
  | .bin s a _ _ b =>
    let idb := id + countAll l o.optimise (Lay.mutsL a.lay)
    let id' := idb + countAll l o.optimise (Lay.mutsL b.lay)
    (a.elab E l o id).bind only |>.bind (·.asExp E.numVal) |>.bind fun x =>
      (b.elab E l o idb).bind only |>.bind (·.asExp E.numVal) |>.bind fun y =>
        if !l.cpp && s.op.isLogical && !(x.1 == s.lhs.ty.name l && y.1 == s.rhs.ty.name l &&
          s.resTy == .int) then none
        else some [.exp (s.resTyText l)
          (.binAt s id' (operand l s.op.isAssign s.lhs x.2) (operand l false s.rhs y.2))]
  | .pre s _ x | .post s x _ =>
    let id' := id + countAll l o.optimise (Lay.mutsL x.lay)
    (x.elab E l o id).bind only |>.bind (·.asExp E.numVal) |>.map fun e =>
      [.exp (s.resTyText l) (.unAt s id' (operand l s.sub.lvalue s.sub e.2))]
  | .stmt _ x _ =>
    let id' := id + countAll l o.optimise (Lay.mutsL x.lay)
    (x.elab E l o id).bind only |>.bind
      (·.asStm E.numVal ((x.phrase.map (·.fits .unfinished)).getD false)) |>.map fun a =>
        [.stm (.removable id' a)]

def Syn.elabL (E : Elab S V R) (l : Lang) (o : Options) (id : Nat) :
    List Syn → Option (List (SrcPart S V R))
  | [] => some []
  | k :: ks => (k.elab E l o id).bind fun p =>
    (Syn.elabL E l o (id + countAll l o.optimise (Lay.mutsL k.lay)) ks).map (p ++ ·)
end

/-- The meaning of an elaborated phrase, where instrumentation points mean what `I` says, `calls` runs
the functions of the program, and loops are run for `fuel` iterations at most. -/
def SrcPart.den (I : Interp S T V) (calls : Nat → List V → Comp T V) (fuel : Nat) :
    SrcPart S V R → Den T V R
  | .tok t => .tok t
  | .num n => .num n
  | .exp ty e => .val ty (e.eval I calls)
  | .type ty => .type ty
  | .stm a => .stm (a.code I calls fuel)
  | .fn f a => .fn f (a.exec I calls fuel)
  | .unit fs => .unit (fs.map fun x => (x.1, x.2.exec I calls fuel))
  | .other r => .other r

/-- The semantics agrees with the elaboration on what is not instrumented. -/
structure Sem.Agrees (K : Sem T V R) (E : Elab S V R) (I : Interp S T V)
    (calls : Nat → List V → Comp T V) (fuel : Nat) : Prop where
  numVal : K.numVal = E.numVal
  node : ∀ p ps q, E.node p ps = some q →
    K.node p (ps.map (SrcPart.den I calls fuel)) = some (q.den I calls fuel)

/-- Converting a value to the type that it has already changes nothing. -/
def Machine.ConvOnce (M : Machine S V) : Prop :=
  ∀ ty v s w s', M.conv ty v s = some (w, s') → M.conv ty w s' = some (w, s')

/-- The result of a logical operator is an `int` (in C). -/
def Machine.IntTruth (M : Machine S V) (l : Lang) : Prop :=
  ∀ b s, M.conv (BTy.int.name l) (M.ofBool b) s = some (M.ofBool b, s)

/-- A run of function number `g`: the body is that which the tree of the file (`t`) says, if it is
defined there; the other functions of the program `P` are run by `I`.  The meaning of a phrase
depends on how calls are executed and on how many iterations are left.  Calls and returns, and the
number of steps, are as in `Prog.call`. -/
def Tree.run (K : (Nat → List V → Comp T V) → Nat → Sem T V R) (P : Prog S V) (I : Interp S T V)
    (t : Tree) : Nat → Nat → List V → Comp T V
  | 0, _, _ => .timeout
  | n + 1, g, vs =>
    Comp.bind (I.step (P.enter g vs)) fun _ =>
      Comp.bind
        (match t.mean (K (t.run K P I n) n) with
          | some (.unit fs) => (fs.lookup g).getD ((P.body g).exec I (t.run K P I n) n)
          | _ => .ub)
        fun x => I.step (P.leave g (returned x))

end Dredd
