/-
Types of the functions that are read from text (C61): declared types, the types of the
expressions in the bodies, and what a call of such a function accepts.  The typing rules
of operators are those of `Spec/Typing.lean`.  Nothing here depends on how the tool
writes the functions.
Simplified: of declared types only builtin types, references and pointers to them, and
`std::function` objects that return them.
-/
import Verif.Spec.CRead
import Verif.Spec.Typing

namespace Dredd

/-! ### Declared types -/

/-- Type specifiers, in any order (C11 6.7.2, C++17 [dcl.type.simple]; `__int128` and the
narrow and wide floating-point types are extensions). -/
def specifiers : List (BTy × List (List Text)) :=
  [(.bool, [[t!"bool"], [t!"_Bool"]]),
   (.char, [[t!"char"]]), (.schar, [[t!"signed", t!"char"]]), (.uchar, [[t!"unsigned", t!"char"]]),
   (.wchar, [[t!"wchar_t"]]), (.char8, [[t!"char8_t"]]), (.char16, [[t!"char16_t"]]),
   (.char32, [[t!"char32_t"]]),
   (.short, [[t!"short"], [t!"signed", t!"short"], [t!"short", t!"int"],
     [t!"signed", t!"short", t!"int"]]),
   (.ushort, [[t!"unsigned", t!"short"], [t!"unsigned", t!"short", t!"int"]]),
   (.int, [[t!"int"], [t!"signed"], [t!"signed", t!"int"]]),
   (.uint, [[t!"unsigned"], [t!"unsigned", t!"int"]]),
   (.long, [[t!"long"], [t!"signed", t!"long"], [t!"long", t!"int"],
     [t!"signed", t!"long", t!"int"]]),
   (.ulong, [[t!"unsigned", t!"long"], [t!"unsigned", t!"long", t!"int"]]),
   (.longlong, [[t!"long", t!"long"], [t!"signed", t!"long", t!"long"],
     [t!"long", t!"long", t!"int"], [t!"signed", t!"long", t!"long", t!"int"]]),
   (.ulonglong, [[t!"unsigned", t!"long", t!"long"], [t!"unsigned", t!"long", t!"long", t!"int"]]),
   (.int128, [[t!"__int128"], [t!"signed", t!"__int128"]]),
   (.uint128, [[t!"unsigned", t!"__int128"]]),
   (.float, [[t!"float"]]), (.double, [[t!"double"]]), (.longdouble, [[t!"long", t!"double"]]),
   (.half, [[t!"__fp16"]]), (.float16, [[t!"_Float16"]]), (.bfloat16, [[t!"__bf16"]]),
   (.float128, [[t!"__float128"]]), (.ibm128, [[t!"__ibm128"]])]

/-- The builtin type that these specifiers denote. -/
def builtin? (ws : List Text) : Option BTy :=
  (specifiers.find? fun e => e.2.any fun x => x.isPerm ws).map (·.1)

/-- A declared type: specifiers and qualifiers, then perhaps `&` or `*`. -/
def readDTy (ts : List Text) : Option DTy :=
  let (form, ws) : Form × List Text :=
    if ts.getLast? = some t!"&" then (.ref, ts.dropLast)
    else if ts.getLast? = some t!"*" then (.ptr, ts.dropLast)
    else (.value, ts)
  (builtin? (ws.filter fun w => w ≠ t!"const" ∧ w ≠ t!"volatile")).map fun t =>
    ⟨t, ws.contains t!"volatile", ws.contains t!"const", form⟩

/-- What a parameter is: an object, or a function object without parameters that returns one. -/
structure Sig where
  ty : DTy
  function : Bool
deriving DecidableEq, Repr

/-- The type of a parameter. -/
def CParam.sig (p : CParam) : Option Sig :=
  match p.pass with
  | .function =>
    if p.ty.drop (p.ty.length - 3) = [t!"(", t!")", t!">"] then
      (readDTy ((p.ty.drop 4).take (p.ty.length - 7))).map (⟨·, true⟩)
    else none
  | _ => (readDTy p.ty).map (⟨·, false⟩)

/-- References and function objects only exist in C++. -/
def Sig.exists (d : Dialect) (p : Sig) : Prop :=
  d.cpp = true ∨ (p.ty.form ≠ .ref ∧ p.function = false)

/-- The type of the parameter named `x`. -/
def CFn.sigOf (f : CFn) (x : Text) : Option Sig := (f.params.find? (·.name = x)).bind CParam.sig

/-! ### Expressions -/

/-- The type of an expression that is a parameter, the result of calling one, or what one points
to. -/
def placeTy (sig : Text → Option Sig) : CExpr → Option ETy
  | .name x =>
    (sig x).bind fun p =>
      if p.function = false ∧ p.ty.form ≠ .ptr then some ⟨p.ty.ty, true, p.ty.volatile, p.ty.const⟩
      else none
  | .call (.name x) [] =>
    (sig x).bind fun p =>
      if p.function = true then
        match p.ty.form with
        | .value => some ⟨p.ty.ty, false, false, false⟩
        | .ref => some ⟨p.ty.ty, true, p.ty.volatile, p.ty.const⟩
        | .ptr => none
      else none
  | .pre op (.name x) =>
    (sig x).bind fun p =>
      if op = t!"*" ∧ p.function = false ∧ p.ty.form = .ptr then
        some ⟨p.ty.ty, true, p.ty.volatile, p.ty.const⟩
      else none
  | _ => none

/-- The type of an expression: one of these, or a literal, or an operator applied to these. -/
def CExpr.type? (d : Dialect) (sig : Text → Option Sig) (e : CExpr) : Option TRes :=
  match placeTy sig e, literal? e with
  | some t, _ => some (if t.lvalue then .place t else .value)
  | none, some v => typeLit d v
  | none, none =>
    match e with
    | .bin op a b =>
      (binOp? op).bind fun op => (placeTy sig a).bind fun a => (placeTy sig b).bind fun b =>
        typeBin d op a b
    | .pre op a => (preOp? op).bind fun op => (placeTy sig a).bind fun a => typeUn d op a
    | .post op a => (postOp? op).bind fun op => (placeTy sig a).bind fun a => typeUn d op a
    | _ => none

/-- An expression of type `int` without effects. -/
def intExpr (sig : Text → Option Sig) : CExpr → Prop
  | .name x => sig x = some ⟨⟨.int, false, false, .value⟩, false⟩
  | .num k => (decimal? k).isSome
  | .bin op a b => op = t!"+" ∧ intExpr sig a ∧ intExpr sig b
  | _ => False

/-- A condition: the variable of the prelude, or a call of its query function. -/
def condExpr (sig : Text → Option Sig) : CExpr → Prop
  | .name x => x = t!"__dredd_some_mutation_enabled" ∧ sig x = none
  | .pre op e => op = t!"!" ∧ condExpr sig e
  | .call (.name f) [e] => f = t!"__dredd_enabled_mutation" ∧ sig f = none ∧ intExpr sig e
  | _ => False

/-- A call of the recording function of the prelude. -/
def recordExpr (sig : Text → Option Sig) : CExpr → Prop
  | .call (.name f) [a, b] =>
    f = t!"__dredd_record_covered_mutants" ∧ sig f = none ∧ intExpr sig a ∧ intExpr sig b
  | _ => False

/-! ### Functions -/

/-- A statement is well typed in a function with the given result. -/
def CStmt.Typed (d : Dialect) (sig : Text → Option Sig) (res : DTy) : CStmt → Prop
  | .ifReturn c e => condExpr sig c ∧ ∃ r, e.type? d sig = some r ∧ r.returnable res
  | .return_ e => ∃ r, e.type? d sig = some r ∧ r.returnable res
  | .expr e => recordExpr sig e

/-- A function with the given types of parameters and result is well typed, and always returns. -/
structure CFn.Typed (d : Dialect) (f : CFn) (ps : List Sig) (res : DTy) : Prop where
  params : f.params.map CParam.sig = ps.map some
  result : readDTy f.resTy = some res
  names : (f.params.map (·.name)).Nodup
  exist : ∀ p ∈ ps, p.exists d
  existRes : d.cpp = true ∨ res.form ≠ .ref
  body : ∀ s ∈ f.body, s.Typed d f.sigOf res
  ends : ∃ e, f.body.getLast? = some (.return_ e)

/-- An operand may be passed for a parameter: a function object is made by a lambda, for a pointer
its address is taken. -/
def ETy.passes (q : ETy) (p : Sig) : Prop :=
  match p.ty.form with
  | .value => p.ty.ty = q.ty
  | .ref => q.binds p.ty
  | .ptr => q.binds p.ty ∧ p.function = false

/-- The type of the last parameter, the id. -/
def Sig.id : Sig := ⟨⟨.int, false, false, .value⟩, false⟩

end Dredd
