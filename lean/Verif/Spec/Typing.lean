/-
When is a generated function well typed?  The typing rules of C and C++ for the
operators on arithmetic types, and the declared types of parameters and results.
Nothing here refers to how functions are generated.
-/
import Verif.Model.Gen

namespace Dredd

/-- Versions of the languages, as far as the typing of operators differs: C, C++
before C++17, C++ since. -/
inductive Dialect
  | c | cxx98 | cxx17
deriving DecidableEq, Repr

/-- It is C++. -/
def Dialect.cpp : Dialect → Bool
  | .c => false
  | _ => true

/-- It is C++17 or later. -/
def Dialect.cpp17 : Dialect → Bool
  | .cxx17 => true
  | _ => false

/-- The type of an expression: a builtin type, whether it denotes an object, and
the qualifiers. -/
structure ETy where
  ty : BTy
  lvalue : Bool
  volatile : Bool
  const : Bool
deriving DecidableEq, Repr

/-- The floating-point types. -/
def BTy.floating (t : BTy) : Prop :=
  t = .half ∨ t = .float ∨ t = .double ∨ t = .longdouble ∨ t = .float16 ∨ t = .bfloat16 ∨
  t = .float128 ∨ t = .ibm128

instance (t : BTy) : Decidable t.floating := by unfold BTy.floating; infer_instance

/-- A modifiable l-value. -/
def ETy.modifiable (t : ETy) : Prop := t.lvalue = true ∧ t.const = false

instance (t : ETy) : Decidable t.modifiable := by unfold ETy.modifiable; infer_instance

/-- The result of an operator: a number (of some builtin type, convertible to any
other), or an object. -/
inductive TRes
  | value
  | place (t : ETy)
deriving DecidableEq, Repr

/-- The result of a modification of `a`: the object in C++, its value in C. -/
def modified (d : Dialect) (a : ETy) : TRes := if d.cpp then .place a else .value

/-- Types of binary operators on builtin types; `none`: ill-typed (or, for the
pointer-to-member operators, `<=>` and the comma, not considered). -/
def typeBin (d : Dialect) (op : BOp) (a b : ETy) : Option TRes :=
  match op with
  | .mul | .div | .add | .sub | .lt | .gt | .le | .ge | .eq | .ne | .land | .lor => some .value
  | .rem | .and | .xor | .or | .shl | .shr =>
    if a.ty.floating ∨ b.ty.floating then none else some .value
  | .assign | .mulAssign | .divAssign | .addAssign | .subAssign =>
    if a.modifiable then some (modified d a) else none
  | .remAssign | .andAssign | .xorAssign | .orAssign | .shlAssign | .shrAssign =>
    if a.modifiable ∧ ¬ (a.ty.floating ∨ b.ty.floating) then some (modified d a) else none
  | .ptrMemD | .ptrMemI | .cmp | .comma => none

/-- Types of unary operators on builtin types; `none`: ill-typed (or not
considered).  In C++ a `bool` cannot be decremented, and since C++17 it cannot be
incremented. -/
def typeUn (d : Dialect) (op : UOp) (a : ETy) : Option TRes :=
  match op with
  | .preInc =>
    if a.modifiable ∧ ¬ (d.cpp17 = true ∧ a.ty = .bool) then some (modified d a) else none
  | .postInc => if a.modifiable ∧ ¬ (d.cpp17 = true ∧ a.ty = .bool) then some .value else none
  | .preDec =>
    if a.modifiable ∧ ¬ (d.cpp = true ∧ a.ty = .bool) then some (modified d a) else none
  | .postDec => if a.modifiable ∧ ¬ (d.cpp = true ∧ a.ty = .bool) then some .value else none
  | .plus | .minus | .lnot => some .value
  | .not => if a.ty.floating then none else some .value
  | .addrOf | .deref | .real | .imag | .extension | .coawait => none

/-- `true` and `false` exist in C++ (and not in C before C23). -/
def typeLit (d : Dialect) : Lit → Option TRes
  | .true_ | .false_ => if d.cpp then some .value else none
  | _ => some .value

/-- `T`, `T&` or `T*`. -/
inductive Form
  | value | ref | ptr
deriving DecidableEq, Repr

/-- A declared type. -/
structure DTy where
  ty : BTy
  volatile : Bool
  const : Bool
  form : Form
deriving DecidableEq, Repr

/-- How a declared type is written. -/
def DTy.text (l : Lang) (t : DTy) : Text :=
  (if t.const then t!"const " else []) ++ (if t.volatile then t!"volatile " else [])
    ++ t.ty.name l
    ++ match t.form with
      | .value => []
      | .ref => t!"&"
      | .ptr => t!"*"

/-- A declared parameter. -/
structure DParam where
  arg : Arg
  ty : DTy
  mode : ArgMode
deriving DecidableEq, Repr

/-- References and `std::function` only exist in C++. -/
def DParam.exists (d : Dialect) (p : DParam) : Prop :=
  d.cpp = true ∨ (p.ty.form ≠ .ref ∧ p.mode ≠ .thunk)

/-- The type of what the body writes for an argument: `arg`, `arg()`, `(*arg)`.
A pointer as such is not a number. -/
def DParam.use (p : DParam) : Option ETy :=
  match p.mode, p.ty.form with
  | .value, .value | .value, .ref | .thunk, .ref | .deref, .ptr =>
    some ⟨p.ty.ty, true, p.ty.volatile, p.ty.const⟩
  | .thunk, .value => some ⟨p.ty.ty, false, false, false⟩
  | _, _ => none

/-- The type of an argument in the body. -/
def useOf (ps : List DParam) (a : Arg) : Option ETy :=
  (ps.find? fun p => p.arg = a).bind DParam.use

/-- The type of a returned expression. -/
def typeRet (d : Dialect) (ps : List DParam) : RetE → Option TRes
  | .bin op =>
    match useOf ps .arg1, useOf ps .arg2 with
    | some a, some b => typeBin d op a b
    | _, _ => none
  | .arg a => (useOf ps a).map fun t => if t.lvalue then .place t else .value
  | .un op | .ins op => (useOf ps .arg).bind (typeUn d op)
  | .lit l => typeLit d l

/-- The expression returned by a line. -/
def Line.returned : Line → Option RetE
  | .quick e | .guard _ e | .ret e => some e
  | .record _ => none

/-- An object may be referred to as `t`. -/
def ETy.binds (q : ETy) (t : DTy) : Prop :=
  q.lvalue = true ∧ q.ty = t.ty ∧ (q.volatile = true → t.volatile = true) ∧
  (q.const = true → t.const = true)

/-- A result may be returned from a function with a declared result type: numbers
are converted; a reference must be to an object of that very type. -/
def TRes.returnable (r : TRes) (t : DTy) : Prop :=
  match t.form with
  | .value => True
  | .ref => ∃ q, r = .place q ∧ q.binds t
  | .ptr => False

/-- An operand may be passed for a parameter; it is passed as it is, in a lambda,
or (for a pointer) its address is. -/
def ETy.passable (q : ETy) (p : DParam) : Prop :=
  match p.ty.form with
  | .value => p.ty.ty = q.ty ∧ p.mode ≠ .deref
  | .ref => q.binds p.ty ∧ p.mode ≠ .deref
  | .ptr => q.binds p.ty ∧ p.mode = .deref

/-- A function is well typed with given declarations. -/
structure MutFn.TypedAs (d : Dialect) (l : Lang) (f : MutFn) (ps : List DParam) (res : DTy) :
    Prop where
  params : f.params = ps.map fun p => ⟨p.arg, p.ty.text l, p.mode⟩
  result : f.resTy = res.text l
  exist : ∀ p ∈ ps, p.exists d
  existRes : d.cpp = true ∨ res.form ≠ .ref
  distinct : (ps.map (·.arg)).Nodup
  bodies : ∀ line ∈ f.lines, ∀ e, line.returned = some e →
    ∃ r, typeRet d ps e = some r ∧ r.returnable res

/-- The call of a function can stand where an expression stood: it has the same
builtin type, and refers to an object (of the same type) if it did. -/
def TRes.sameAs (r : TRes) (t : BTy) (res : DTy) : Prop :=
  match r with
  | .value => res = ⟨t, false, false, .value⟩
  | .place q => res = ⟨q.ty, q.volatile, q.const, .ref⟩

end Dredd
