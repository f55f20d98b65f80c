/-
A semantics of a part of C and C++, and an elaboration, which meet what C63 asks of them:
expressions with names, numbers, binary operators and calls without arguments, statements,
definitions of functions without parameters.  Simplified: operators give an `int`.
-/
import Verif.Spec.CSem

namespace Dredd.Mini

variable {S T V D : Type}

/-- What the names mean: objects (with the types that the expressions have) and functions. -/
structure Env (S V : Type) where
  vars : Text → Option (Text × Comp S V)
  funs : Text → Option Nat
  numVal : Nat → V

/-- A name that the tool has made. -/
def isDredd (x : Text) : Bool := t!"__dredd_".isPrefixOf x && x.all wordChar

/-! ### Elaboration -/

/-- A name or number. -/
def Env.word (N : Env S V) (x : Text) : Option (SrcPart S V Nat) :=
  if isDredd x then none
  else match decimal? x with
  | some n => some (.num n)
  | none =>
    match N.vars x with
    | some (ty, c) => some (.exp ty (.atom c))
    | none => (N.funs x).map .other

/-- The rest of a block. -/
def blockOf : List (SrcPart S V Nat) → Option (Stm S V)
  | [.tok b] => if b = t!"}" then some .skip else none
  | .stm a :: ps => (blockOf ps).map (.seq a)
  | _ => none

/-- The operator with the given text, if it has no side effects. -/
def opOf (k : Nat) (x : Text) : Option BOp :=
  [BOp.mul, .div, .rem, .add, .sub, .shl, .shr, .lt, .gt, .le, .ge, .eq, .ne, .and, .xor, .or, .land,
    .lor].find? fun op => op.str == x && op.levels.1 == k

/-- Statements that choose. -/
def Env.flow (N : Env S V) : List (SrcPart S V Nat) → Option (SrcPart S V Nat)
  | [.tok a, .tok b, e, .tok c, .stm s] =>
    if b = t!"(" ∧ c = t!")" then
      if a = t!"if" then (e.asExp N.numVal).map fun x => .stm (.ite x.2 s .skip)
      else if a = t!"while" then (e.asExp N.numVal).map fun x => .stm (.loop x.2 none s)
      else none
    else none
  | _ => none

/-- A phrase of the source. -/
def Env.elabNode (N : Env S V) : Phrase → List (SrcPart S V Nat) → Option (SrcPart S V Nat)
  | .expr 17, [.tok x] => N.word x
  | .expr 17, [.tok a, e, .tok b] =>
    if a = t!"(" ∧ b = t!")" then (e.asExp N.numVal).map fun _ => e else none
  | .expr 16, [.other g, .tok a, .tok b] =>
    if a = t!"(" ∧ b = t!")" then some (.exp t!"int" (.call g 0 Fin.elim0)) else none
  | .expr k, [a, .tok x, b] =>
    (opOf k x).bind fun op => (a.asExp N.numVal).bind fun e => (b.asExp N.numVal).map fun f =>
      .exp t!"int" (.bin op (.load e.1 e.2) (.load f.1 f.2))
  | .unfinished, [.tok a, e] =>
    if a = t!"return" then (e.asExp N.numVal).map fun x => .stm (.ret (some x.2)) else none
  | .closed, [e, .tok a] =>
    if a = t!";" then (e.asStm N.numVal true).map .stm
    else if a = t!"}" then
      match e with
      | .tok b => if b = t!"{" then some (.stm .skip) else none
      | _ => none
    else none
  | .closed, .tok a :: ps =>
    if a = t!"{" then (blockOf ps).map .stm else N.flow (.tok a :: ps)
  | .stmt, ps => N.flow ps
  | .other _, [.tok _, .tok f, .tok _, .tok _, .stm a] => (N.funs f).map fun g => .unit [(g, a)]
  | _, _ => none

/-- The elaboration. -/
def Env.elab (N : Env S V) : Elab S V Nat := ⟨N.elabNode, N.numVal⟩

/-! ### Semantics -/

/-- Adjacent statements as one. -/
def merge : List (Den T V Nat) → List (Den T V Nat)
  | [] => []
  | .stm c :: ds =>
    match merge ds with
    | .stm c' :: r => .stm (c.seq c') :: r
    | r => .stm c :: r
  | d :: ds => d :: merge ds

/-- The elements of a list that stand at even positions. -/
def unSep {α : Type} : List α → List α
  | [] => []
  | [x] => [x]
  | x :: _ :: xs => x :: unSep xs

/-- The tokens, if all are tokens. -/
def toksOf : List (Den T V Nat) → Option (List Text)
  | [] => some []
  | .tok t :: ds => (toksOf ds).map (t :: ·)
  | _ => none

/-- What is needed to say what phrases mean. -/
structure Ctx (S V D : Type) where
  env : Env S V
  M : Machine S V
  dev : Device D
  fs : List CFn
  I : Interp S (S × D) V
  calls : Nat → List V → Comp (S × D) V
  fuel : Nat

/-- A call of a generated function. -/
noncomputable def Ctx.resolve (C : Ctx S V D) (x : Text) (args : List (Den (S × D) V Nat)) (id : Nat) :
    Option (Den (S × D) V Nat) :=
  open Classical in
  if h : ∃ y : CFn × List (Comp (S × D) V),
      Resolves (C.M.withState D) C.env.numVal C.fs x args y.1 y.2 then
    some (.val (typeText h.choose.1.resTy) (h.choose.1.call C.M C.dev id h.choose.2))
  else none

/-- A name or number. -/
def Ctx.word (C : Ctx S V D) (x : Text) : Option (Den (S × D) V Nat) :=
  if isDredd x then some (.name x)
  else match decimal? x with
  | some n => some (.num n)
  | none =>
    match C.env.vars x with
    | some (ty, c) => some (.val ty (C.I.raise c))
    | none => (C.env.funs x).map .other

/-- A name, a number, a phrase in parentheses, a function object. -/
def Ctx.primary (C : Ctx S V D) : List (Den (S × D) V Nat) → Option (Den (S × D) V Nat)
  | [.tok x] => C.word x
  | [.tok a, d, .tok b] =>
    if a = t!"(" ∧ b = t!")" then (d.asVal C.env.numVal).map fun _ => d else none
  | [_, _, _, _, _, _, .type ty, .stm c] =>
    some (.fobj ty (Comp.bind (c.run none) (Ctl.result (C.M.withState D) ty)))
  | _ => none

/-- A call or cast. -/
noncomputable def Ctx.postfix (C : Ctx S V D) :
    List (Den (S × D) V Nat) → Option (Den (S × D) V Nat)
  | [.tok _, _, .type ty, _, _, d, _] =>
    (d.asVal C.env.numVal).map fun x => .val ty (x.2.as (C.M.withState D) ty)
  | .name x :: _ :: ds =>
    let args := unSep ds.dropLast
    if x = t!"__dredd_enabled_mutation" then
      match args with
      | [.num n] => some (.flag (onDevice (C.dev.query n)))
      | _ => none
    else if x = t!"__dredd_record_covered_mutants" then
      match args with
      | [.num n, .num k] => some (.act (onDevice (C.dev.record n k)))
      | _ => none
    else
      match args.getLast? with
      | some (.num id) => C.resolve x args.dropLast id
      | _ => none
  | [.other g, .tok a, .tok b] =>
    if a = t!"(" ∧ b = t!")" then
      some (.val t!"int" (Comp.bind (allArgs (n := 0) fun i => i.elim0) (C.calls g)))
    else none
  | _ => none

/-- An address, or a negation. -/
def Ctx.prefix (C : Ctx S V D) : List (Den (S × D) V Nat) → Option (Den (S × D) V Nat)
  | [.tok a, d] =>
    if a = t!"&" then (d.asVal C.env.numVal).map fun x => .addr x.2
    else
      match d with
      | .flag c => some (.flag (Comp.bind c fun b => .pure !b))
      | _ => none
  | _ => none

/-- A binary operator. -/
def Ctx.binary (C : Ctx S V D) (k : Nat) : List (Den (S × D) V Nat) → Option (Den (S × D) V Nat)
  | [a, .tok x, b] =>
    (opOf k x).bind fun op => (a.asVal C.env.numVal).bind fun e => (b.asVal C.env.numVal).map fun f =>
      .val t!"int" ((C.M.withState D).evalBin op (e.2.to (C.M.withState D) e.1)
        (f.2.to (C.M.withState D) f.1))
  | _ => none

/-- Statements that choose. -/
def Ctx.flow (C : Ctx S V D) : List (Den (S × D) V Nat) → Option (Den (S × D) V Nat)
  | [.tok a, .tok b, d, .tok c, .stm s] =>
    if b = t!"(" ∧ c = t!")" then
      if a = t!"if" then
        match d with
        | .flag e => some (.stm (.ite e s .skip))
        | d => (d.asVal C.env.numVal).map fun x =>
          .stm (.ite ((C.M.withState D).test x.2) s .skip)
      else if a = t!"while" then
        (d.asVal C.env.numVal).map fun x =>
          .stm (.loop ((C.M.withState D).test x.2) (.pure ()) s C.fuel)
      else none
    else none
  | _ => none

/-- A statement that no `else` can continue. -/
def Ctx.closed (C : Ctx S V D) : List (Den (S × D) V Nat) → Option (Den (S × D) V Nat)
  | [.tok a] => if a = t!";" then some (.stm .skip) else none
  | [d, .tok a] =>
    if a = t!";" then
      match d with
      | .stm c => some (.stm c)
      | .act c => some (.stm (.plain (Comp.bind c fun _ => .pure .normal)))
      | d => (d.asVal C.env.numVal).map fun x => .stm (.plain (Comp.bind x.2 fun _ => .pure .normal))
    else if a = t!"}" then
      match d with
      | .tok b => if b = t!"{" then some (.stm .skip) else none
      | _ => none
    else none
  | [.tok a, .stm c, .tok b] => if a = t!"{" ∧ b = t!"}" then some (.stm c) else none
  | ds => C.flow ds

/-- The meaning of a phrase whose statements have been merged. -/
noncomputable def Ctx.node (C : Ctx S V D) (p : Phrase) (ds : List (Den (S × D) V Nat)) :
    Option (Den (S × D) V Nat) :=
  match p with
  | .expr k =>
    if k = 17 then C.primary ds else if k = 16 then C.postfix ds else if k = 15 then C.prefix ds
    else C.binary k ds
  | .closed => C.closed ds
  | .stmt => C.flow ds
  | .unfinished =>
    match ds with
    | [_, d] => (d.asVal C.env.numVal).map fun x =>
      .stm (.plain (Comp.bind x.2 fun v => .pure (.return_ (some v))))
    | _ => none
  | .type => (toksOf ds).map fun ts => .type (typeText ts)
  | .other _ =>
    match ds with
    | [_, .tok f, _, _, .stm c] => (C.env.funs f).map fun g => .unit [(g, c.settle C.fuel none)]
    | _ => none
  | .item => none

/-- The semantics. -/
noncomputable def Ctx.sem (C : Ctx S V D) : Sem (S × D) V Nat :=
  ⟨fun p ds => C.node p (merge ds), C.env.numVal⟩

end Dredd.Mini
