/-
A machine for integer programs of C and C++ (C71): values carry their types, objects hold numbers,
operators convert their operands and compute in the type that the languages prescribe.  Whatever is
not a number (pointers, structures, `void`) is opaque.  Typing rules for expressions.

Nothing here refers to how the tool works, except that instrumentation points record types
(`BinSite.Fits` and the like say that they record the types that the expressions have).
-/
import Verif.Spec.Integer
import Verif.Sem.Interp
import Verif.Spec.Order

namespace Dredd

/-- What a target says about integer types, with the usual arithmetic conversions (C11 6.3.1.8). -/
structure IntRules extends Platform where
  /-- the common type of the operands of an operator -/
  usual : BTy → BTy → BTy
  /-- promotion and the usual conversions lead from integers to integers, which are not `bool` -/
  prom_int : ∀ t, t.isFloat = false → (prom t).isFloat = false ∧ (prom t).isBool = false
  usual_int : ∀ t u, t.isFloat = false → u.isFloat = false →
    (usual t u).isFloat = false ∧ (usual t u).isBool = false

/-- Values: numbers of a type, objects (l-values) of a type with their addresses, and others. -/
inductive IVal (X : Type)
  | num (t : BTy) (v : Int)
  | obj (t : BTy) (a : Nat)
  | other (x : X)
deriving DecidableEq

/-- The state: what is in the objects, and everything else. -/
structure IState (R : Type) where
  mem : Nat → Int
  rest : R

/-- Types of expressions. -/
inductive VTy
  | num (t : BTy)
  | obj (t : BTy)
  | other
deriving DecidableEq

variable {R X : Type}

/-- Reads an object; undefined if it does not hold a value of its type. -/
def IntRules.read (N : IntRules) (l : Lang) (t : BTy) (a : Nat) (s : IState R) : Option Int :=
  if N.Holds l t (s.mem a) then some (s.mem a) else none

/-- Writes an object. -/
def IState.write (s : IState R) (a : Nat) (v : Int) : IState R :=
  { s with mem := fun b => if b = a then v else s.mem b }

/-- The type of truth values: `int` in C, `bool` in C++. -/
def Std.boolTy : Std → BTy
  | .c => .int
  | _ => .bool

/-- The operator of a compound assignment. -/
def BOp.compound : BOp → Option BOp
  | .mulAssign => some .mul
  | .divAssign => some .div
  | .remAssign => some .rem
  | .addAssign => some .add
  | .subAssign => some .sub
  | .shlAssign => some .shl
  | .shrAssign => some .shr
  | .andAssign => some .and
  | .xorAssign => some .xor
  | .orAssign => some .or
  | _ => none

/-- Arithmetic, bitwise and shift operators; the latter promote their operands separately. -/
inductive ArithKind
  | usual | shift

/-- Which of the two an operator is, if any. -/
def BOp.arithKind : BOp → Option ArithKind
  | .mul | .div | .rem | .add | .sub | .and | .xor | .or => some .usual
  | .shl | .shr => some .shift
  | _ => none

/-- The truth value of a comparison. -/
def BOp.compare (x y : Int) : BOp → Option Bool
  | .lt => some (decide (x < y))
  | .gt => some (decide (x > y))
  | .le => some (decide (x ≤ y))
  | .ge => some (decide (x ≥ y))
  | .eq => some (decide (x = y))
  | .ne => some (decide (x ≠ y))
  | _ => none

/-- `x op y` for arithmetic operators: the type of the result and the number. -/
def IntRules.arith (N : IntRules) (l : Lang) (op : BOp) (a : BTy) (x : Int) (b : BTy) (y : Int) :
    Option (BTy × Int) :=
  match op.arithKind with
  | some .usual =>
    let t := N.usual a b
    (N.bin l t (N.conv l t x) (N.conv l t y) op).map fun r => (t, r)
  | some .shift =>
    let t := N.prom a
    (N.bin l t (N.conv l t x) (N.conv l (N.prom b) y) op).map fun r => (t, r)
  | none => none

/-- Reads a type as the tool writes it. -/
def readTy (l : Lang) (t : Text) : Option VTy :=
  match BTy.all.find? fun b => b.name l == t with
  | some b => some (.num b)
  | none =>
    match BTy.all.find? fun b => [[], t!"volatile ", t!"const "].any fun q =>
        q ++ b.name l ++ t!"&" == t with
    | some b => some (.obj b)
    | none => none

/-- The result of a modification of the object at `a`: the object in C++, its value in C. -/
def Std.modifiedVal (std : Std) (t : BTy) (a : Nat) (v : Int) : IVal X :=
  match std with
  | .c => .num t v
  | _ => .obj t a

/-- `++` and `--`: the number that is added. -/
def UOp.delta : UOp → Option Int
  | .preInc | .postInc => some 1
  | .preDec | .postDec => some (-1)
  | _ => none

/-- The result is the value before the modification. -/
def UOp.post : UOp → Bool
  | .postInc | .postDec => true
  | _ => false

/-- Binary operators on numbers and objects. -/
def IntRules.binVal (N : IntRules) (l : Lang) (std : Std) (op : BOp) (u v : IVal X)
    (s : IState R) : Option (IVal X × IState R) :=
  match u, v with
  | .num a x, .num b y =>
    match op.compare (N.conv l (N.usual a b) x) (N.conv l (N.usual a b) y) with
    | some z => some (.num std.boolTy (if z then 1 else 0), s)
    | none => (N.arith l op a x b y).map fun r => (.num r.1 r.2, s)
  | .obj a p, .num b y =>
    let new : Option Int :=
      if op = .assign then some y
      else op.compound.bind fun op' =>
        (N.read l a p s).bind fun x => (N.arith l op' a x b y).map fun r => r.2
    new.map fun r => (std.modifiedVal a p (N.conv l a r), s.write p (N.conv l a r))
  | _, _ => none

/-- Unary operators other than `!` on numbers and objects. -/
def IntRules.unVal (N : IntRules) (l : Lang) (std : Std) (op : UOp) (v : IVal X)
    (s : IState R) : Option (IVal X × IState R) :=
  match v with
  | .num a x =>
    match op with
    | .plus => some (.num (N.prom a) (N.conv l (N.prom a) x), s)
    | .minus => (N.result l (N.prom a) (-N.conv l (N.prom a) x)).map fun r => (.num (N.prom a) r, s)
    | .not => some (.num (N.prom a) (N.flip l (N.prom a) x), s)
    | _ => none
  | .obj a p =>
    op.delta.bind fun d => (N.read l a p s).bind fun x =>
      (N.result l (N.usual a .int) (N.conv l (N.usual a .int) x + d)).map fun r =>
        (if op.post then .num a x else std.modifiedVal a p (N.conv l a r),
          s.write p (N.conv l a r))
  | .other _ => none

/-- Conversion of a value to a type as it is written.  Numbers that are not integers (which only
come from literals) have no conversions here. -/
def IntRules.convVal (N : IntRules) (l : Lang) (ty : Text) (v : IVal X) (s : IState R) :
    Option (IVal X × IState R) :=
  match readTy l ty with
  | some (.num t) =>
    if t.isFloat then none
    else match v with
      | .num _ x => some (.num t (N.conv l t x), s)
      | .obj a p => (N.read l a p s).map fun x => (.num t (N.conv l t x), s)
      | .other _ => none
  | some (.obj t) =>
    match v with
    | .obj a p => if a = t then some (.obj a p, s) else none
    | _ => none
  | _ => none

/-- The machine for integer programs.  `truthX` is the truth value of values that are not numbers
(such as pointers). -/
def intMachine (N : IntRules) (l : Lang) (std : Std) (R : Type) (truthX : X → Option Bool) :
    Machine (IState R) (IVal X) where
  std := std
  bin := N.binVal l std
  un := N.unVal l std
  truth
    | .num _ v => some (decide (v ≠ 0))
    | .obj _ _ => none
    | .other x => truthX x
  ofBool z := .num std.boolTy (if z then 1 else 0)
  lit
    | .zero => .num .int 0
    | .one => .num .int 1
    | .minusOne => .num .int (-1)
    | .true_ => .num .bool 1
    | .false_ => .num .bool 0
    | .zeroF => .num .double 0
    | .oneF => .num .double 1
    | .minusOneF => .num .double (-1)
  conv := N.convVal l

/-! ### Typing -/

/-- A value has a type. -/
def IVal.Has (N : IntRules) (l : Lang) : IVal X → VTy → Prop
  | .num a x, .num t => a = t ∧ t.isFloat = false ∧ N.Holds l t x
  | .obj a _, .obj t => a = t
  | _, .other => True
  | _, _ => False

/-- The type of a modified object of type `t`. -/
def Std.modifiedTy (std : Std) (t : BTy) : VTy :=
  match std with
  | .c => .num t
  | _ => .obj t

/-- The type of `x op y`; `none`: ill-typed, or not an operator on integers. -/
def IntRules.binTy (N : IntRules) (std : Std) (op : BOp) : VTy → VTy → Option VTy
  | .num a, .num b =>
    if a.isFloat || b.isFloat then none
    else if op.isLogical then some (.num std.boolTy)
    else match op.compare 0 0 with
      | some _ => some (.num std.boolTy)
      | none => match op.arithKind with
        | some .usual => some (.num (N.usual a b))
        | some .shift => some (.num (N.prom a))
        | none => none
  | .obj a, .num b =>
    if a.isFloat || b.isFloat then none
    else if op = .assign ∨ op.compound.isSome then some (std.modifiedTy a) else none
  | _, _ => none

/-- The type of a unary operator. -/
def IntRules.unTy (N : IntRules) (std : Std) (op : UOp) : VTy → Option VTy
  | .num a =>
    if a.isFloat then none
    else match op with
      | .plus | .minus | .not => some (.num (N.prom a))
      | .lnot => some (.num std.boolTy)
      | _ => none
  | .obj a =>
    if a.isFloat then none
    else if op.delta.isNone then none
    else if op.post then some (.num a) else some (std.modifiedTy a)
  | .other => none

/-- The builtin type that the tool records for a type. -/
def VTy.base : VTy → Option BTy
  | .num t | .obj t => some t
  | .other => none

/-- It is the type of objects. -/
def VTy.isObj : VTy → Bool
  | .obj _ => true
  | _ => false

/-- An instrumentation point of a binary operator records the types of the operator and its
operands. -/
structure BinSite.Fits (s : BinSite) (a b t : VTy) : Prop where
  lhs : a.base = some s.lhs.ty
  rhs : b.base = some s.rhs.ty
  res : t.base = some s.resTy

/-- The same for unary operators, with the information whether the result is an l-value. -/
structure UnSite.Fits (s : UnSite) (t : VTy) : Prop where
  res : t.base = some s.self.ty
  lvalue : s.self.lvalue = t.isObj

/-- Typing of expressions.  Parts that the tool does not look into (`atom`, `step`) must give values
of their type; `sig` gives the result types of the functions. -/
inductive Exp.Ty (N : IntRules) (l : Lang) (std : Std) (sig : Nat → VTy) :
    Exp (IState R) (IVal X) → VTy → Prop
  | atom {c t} (h : ∀ v, c.Yields v → v.Has N l t) : Ty N l std sig (.atom c) t
  | step {f x u t} (hx : Ty N l std sig x u)
      (h : ∀ v, v.Has N l u → ∀ w, (f v).Yields w → w.Has N l t) :
      Ty N l std sig (.step f x) t
  | bin {op x y a b t} (hx : Ty N l std sig x a) (hy : Ty N l std sig y b)
      (h : N.binTy std op a b = some t) : Ty N l std sig (.bin op x y) t
  | comma {x y a b} (hx : Ty N l std sig x a) (hy : Ty N l std sig y b) :
      Ty N l std sig (.bin .comma x y) b
  | binAt {s id x y a b t} (hx : Ty N l std sig x a) (hy : Ty N l std sig y b)
      (h : N.binTy std s.op a b = some t) (hs : s.Fits a b t) :
      Ty N l std sig (.binAt s id x y) t
  | un {op x a t} (hx : Ty N l std sig x a) (h : N.unTy std op a = some t) :
      Ty N l std sig (.un op x) t
  | unAt {s id x a t} (hx : Ty N l std sig x a) (h : N.unTy std s.op a = some t)
      (hs : s.Fits t) : Ty N l std sig (.unAt s id x) t
  | exprAt {s id x} (hx : Ty N l std sig x (.num s.self.ty)) :
      Ty N l std sig (.exprAt s id x) (.num s.self.ty)
  | load {t x} (hx : Ty N l std sig x (.obj t)) :
      Ty N l std sig (.load (t.name l) x) (.num t)
  | loadAt {s id x} (hx : Ty N l std sig x (.obj s.self.ty)) :
      Ty N l std sig (.loadAt s id x) (.num s.self.ty)
  | cond {x y z a t} (hx : Ty N l std sig x a) (hy : Ty N l std sig y t)
      (hz : Ty N l std sig z t) : Ty N l std sig (.cond x y z) t
  | call {f n args} (a : Fin n → VTy) (h : ∀ i, Ty N l std sig (args i) (a i)) :
      Ty N l std sig (.call f n args) (sig f)

/-- A program returns values of the types of its functions. -/
def Prog.Returns (N : IntRules) (l : Lang) (P : Prog (IState R) (IVal X)) (sig : Nat → VTy) : Prop :=
  ∀ f v s w s', P.leave f v s = some (w, s') → w.Has N l (sig f)

/-! ### Operands that do not influence each other -/

/-- The computation only reads. -/
def Comp.Quiet {S V : Type} (c : Comp S V) : Prop :=
  ∀ s, (∃ r, c s r) ∧ ∀ r, c s r → r = .ub ∨ ∃ v, r = .done v s

/-- The expression only reads: no assignments and no calls. -/
def Exp.Quiet {S V : Type} : Exp S V → Prop
  | .atom c => c.Quiet
  | .step f x => x.Quiet ∧ ∀ v, (f v).Quiet
  | .bin op x y => op.isAssign = false ∧ x.Quiet ∧ y.Quiet
  | .binAt s _ x y => s.op.isAssign = false ∧ x.Quiet ∧ y.Quiet
  | .un op x => op.isIncDec = false ∧ x.Quiet
  | .unAt s _ x => s.op.isIncDec = false ∧ x.Quiet
  | .exprAt _ _ x => x.Quiet
  | .load _ x => x.Quiet
  | .loadAt _ _ x => x.Quiet
  | .cond x y z => x.Quiet ∧ y.Quiet ∧ z.Quiet
  | .call _ _ _ => False

/-- The expression is a constant or a variable with a fixed address. -/
def Exp.Fixed {S V : Type} (x : Exp S V) : Prop := ∃ v, x = .atom (.pure v)

/-- The operands do not influence each other: one is fixed, or both only read. -/
def Exp.Apart {S V : Type} (x y : Exp S V) : Prop := x.Fixed ∨ y.Fixed ∨ (x.Quiet ∧ y.Quiet)

end Dredd
