/-
Decoding of the names of generated functions.
-/
import Verif.Proofs.Clauses
import Verif.Spec.Coherent

namespace Dredd

theorem append_eq_prefix {α : Type} {a b x y : List α} (h : a ++ x = b ++ y) :
    a <+: b ∨ b <+: a :=
  List.prefix_or_prefix_of_prefix (List.prefix_append a x) (h ▸ List.prefix_append b y)

/-- No text is a prefix of the text of another key. -/
def prefixFree {κ : Type} [DecidableEq κ] (f : κ → Text) (ks : List κ) : Bool :=
  ks.all fun k => ks.all fun k' => decide (k = k') || !(f k).isPrefixOf (f k')

theorem prefixFree.decode {κ : Type} [DecidableEq κ] {f : κ → Text} {ks : List κ}
    (h : prefixFree f ks = true) {k k' : κ} (hk : k ∈ ks) (hk' : k' ∈ ks) {x y : Text}
    (he : f k ++ x = f k' ++ y) : k = k' ∧ x = y := by
  have hkk : k = k' := by
    unfold prefixFree at h
    rw [List.all_eq_true] at h
    have h1 := h k hk
    have h2 := h k' hk'
    rw [List.all_eq_true] at h1 h2
    have h1 := h1 k' hk'
    have h2 := h2 k hk
    simp only [Bool.or_eq_true, decide_eq_true_eq, Bool.not_eq_true', ← Bool.not_eq_true,
      List.isPrefixOf_iff_prefix] at h1 h2
    rcases append_eq_prefix he with hp | hp
    · rcases h1 with h1 | h1
      · exact h1
      · exact absurd hp h1
    · rcases h2 with h2 | h2
      · exact h2.symm
      · exact absurd hp h2
  subst hkk
  exact ⟨rfl, List.append_cancel_left he⟩

/-- If the text of a key is a prefix of that of another, then what is missing does
not begin one of the endings. -/
def endFree {κ : Type} [DecidableEq κ] (f : κ → Text) (ks : List κ) (ends : List Text) : Bool :=
  ks.all fun k => ks.all fun k' =>
    decide (k = k') || !(f k').isPrefixOf (f k) ||
      ends.all fun e => !((f k).drop (f k').length).isPrefixOf e

theorem endFree.spec {κ : Type} [DecidableEq κ] {f : κ → Text} {ks : List κ} {ends : List Text}
    (h : endFree f ks ends = true) {k k' : κ} (hk : k ∈ ks) (hk' : k' ∈ ks) {x y : Text}
    (hy : y ∈ ends) (he : f k ++ x = f k' ++ y) (hp : f k' <+: f k) : k = k' := by
  unfold endFree at h
  rw [List.all_eq_true] at h
  have h1 := h k hk
  rw [List.all_eq_true] at h1
  have h1 := h1 k' hk'
  simp only [Bool.or_eq_true, decide_eq_true_eq, List.all_eq_true, Bool.not_eq_true',
    ← Bool.not_eq_true, List.isPrefixOf_iff_prefix] at h1
  rcases h1 with (h1 | h1) | h1
  · exact h1
  · exact absurd hp h1
  · obtain ⟨r, hr⟩ := hp
    refine absurd ?_ (h1 y hy)
    rw [← hr, List.append_assoc] at he
    rw [← hr, List.drop_left, ← List.append_cancel_left he]
    exact List.prefix_append _ _

theorem endFree.decode {κ : Type} [DecidableEq κ] {f : κ → Text} {ks : List κ} {ends : List Text}
    (h : endFree f ks ends = true) {k k' : κ} (hk : k ∈ ks) (hk' : k' ∈ ks) {x y : Text}
    (hx : x ∈ ends) (hy : y ∈ ends) (he : f k ++ x = f k' ++ y) : k = k' ∧ x = y := by
  have hkk : k = k' := by
    rcases append_eq_prefix he with hp | hp
    · exact (endFree.spec h hk' hk hx he.symm hp).symm
    · exact endFree.spec h hk hk' hy he hp
  subst hkk
  exact ⟨rfl, List.append_cancel_left he⟩

/-- The texts of keys, each followed by each of the endings. -/
def endings {κ : Type} (f : κ → Text) (ks : List κ) (ends : List Text) : List Text :=
  ks.flatMap fun k => ends.map (f k ++ ·)

theorem mem_endings {κ : Type} {f : κ → Text} {ks : List κ} {ends : List Text} {k : κ} {x : Text}
    (hk : k ∈ ks) (hx : x ∈ ends) : f k ++ x ∈ endings f ks ends :=
  List.mem_flatMap.mpr ⟨k, hk, List.mem_map.mpr ⟨x, hx, rfl⟩⟩

def bools : List Bool := [false, true]

theorem mem_bools (b : Bool) : b ∈ bools := by cases b <;> decide

/-- A text that is there or not. -/
def flag (t : Text) (b : Bool) : Text := if b then t else []

theorem BTy.mem_all (t : BTy) : t ∈ BTy.all := by cases t <;> decide

/-- Names of types depend on one property of the language only. -/
theorem BTy.name_eq (l : Lang) (t : BTy) : t.name l = t.name ⟨false, l.boolKw, false, false⟩ := by
  cases t <;> rfl

/-- What is known about the value of an operand. -/
inductive ConstClass
  | zero | one | minusOne | other
deriving DecidableEq, Repr

def ConstClass.all : List ConstClass := [.zero, .one, .minusOne, .other]

theorem ConstClass.mem_all (c : ConstClass) : c ∈ ConstClass.all := by cases c <;> decide

def ExprInfo.constClass (e : ExprInfo) : ConstClass :=
  if e.isZero then .zero else if e.isOne then .one else if e.isMinusOne then .minusOne else .other

theorem ExprInfo.isZero_iff (e : ExprInfo) : e.isZero = (e.constClass == .zero) := by
  unfold ExprInfo.constClass
  cases h : e.isZero
  · cases e.isOne <;> cases e.isMinusOne <;> rfl
  · rfl

theorem ExprInfo.isOne_iff (e : ExprInfo) : e.isOne = (e.constClass == .one) := by
  unfold ExprInfo.constClass
  cases h : e.isZero
  · cases e.isOne <;> cases e.isMinusOne <;> rfl
  · revert h
    unfold ExprInfo.isZero ExprInfo.isOne ExprInfo.isInt ExprInfo.isFlt BTy.isInteger
    cases e.ty.isFloat <;> cases e.intVal <;> cases e.floatVal <;>
      simp +contextual <;> (intros; rfl)

theorem ExprInfo.isMinusOne_iff (e : ExprInfo) : e.isMinusOne = (e.constClass == .minusOne) := by
  unfold ExprInfo.constClass
  cases h : e.isZero
  · cases h1 : e.isOne
    · cases e.isMinusOne <;> rfl
    · revert h1
      unfold ExprInfo.isOne ExprInfo.isMinusOne ExprInfo.isInt ExprInfo.isFlt BTy.isInteger
      cases e.ty.isFloat <;> cases e.intVal <;> cases e.floatVal <;>
      simp +contextual <;> (intros; rfl)
  · revert h
    unfold ExprInfo.isZero ExprInfo.isMinusOne ExprInfo.isInt ExprInfo.isFlt BTy.isInteger
    cases e.ty.isFloat <;> cases e.intVal <;> cases e.floatVal <;>
      simp +contextual <;> (intros; rfl)

def ConstClass.suffix (zero one minusOne : Text) : ConstClass → Text
  | .zero => zero | .one => one | .minusOne => minusOne | .other => []

theorem operandSuffix_eq (e : ExprInfo) (z o m : Text) :
    operandSuffix e z o m = e.constClass.suffix z o m := by
  unfold operandSuffix ExprInfo.constClass
  cases e.isZero <;> cases e.isOne <;> cases e.isMinusOne <;> rfl


/-- The part of a name that stands for a type, after a qualifier. -/
def tyPart (boolKw : Bool) (vol : Text) (k : Bool × BTy) : Text :=
  flag vol k.1 ++ spaceToUnderscore (k.2.name ⟨false, boolKw, false, false⟩)

def tyKeys : List (Bool × BTy) := bools.flatMap fun b => BTy.all.map (b, ·)

theorem mem_tyKeys (k : Bool × BTy) : k ∈ tyKeys :=
  List.mem_flatMap.mpr ⟨k.1, mem_bools _, List.mem_map.mpr ⟨k.2, BTy.mem_all _, rfl⟩⟩

/-! ### Binary operators -/

def binOpPart (op : BOp) : Text := op.fnName ++ t!"_arg1_"

def binOpKeys : List BOp := BOp.all.filter (·.fnName?.isSome)

theorem mem_binOpKeys {op : BOp} (h : op.fnName?.isSome) : op ∈ binOpKeys :=
  List.mem_filter.mpr ⟨by cases op <;> decide, h⟩

theorem binOp_prefixFree : prefixFree binOpPart binOpKeys = true := by decide +kernel

def lhsPart (boolKw : Bool) (k : Bool × BTy) : Text := tyPart boolKw t!"volatile_" k ++ t!"_arg2_"

theorem lhs_prefixFree (b : Bool) : prefixFree (lhsPart b) tyKeys = true := by
  cases b <;> decide +kernel

/-- What follows the name of a function in the functions for C logical operators. -/
def cEnds : List Text := [[], t!"_lhs", t!"_rhs", t!"_outer"]

def rhsConst : ConstClass → Text :=
  ConstClass.suffix t!"_rhs_zero" t!"_rhs_one" t!"_rhs_minus_one"

def lhsConst : ConstClass → Text :=
  ConstClass.suffix t!"_lhs_zero" t!"_lhs_one" t!"_lhs_minus_one"

def lhsConstEnds : List Text := endings lhsConst ConstClass.all cEnds
def rhsConstEnds : List Text := endings rhsConst ConstClass.all lhsConstEnds

theorem lhsConst_endFree : endFree lhsConst ConstClass.all cEnds = true := by decide +kernel
theorem rhsConst_endFree : endFree rhsConst ConstClass.all lhsConstEnds = true := by decide +kernel
def rhsPart (boolKw : Bool) (t : BTy) : Text := tyPart boolKw [] (false, t)

theorem rhs_endFree (b : Bool) : endFree (rhsPart b) BTy.all rhsConstEnds = true := by
  cases b <;> decide +kernel

theorem spaceToUnderscore_append (a b : Text) :
    spaceToUnderscore (a ++ b) = spaceToUnderscore a ++ spaceToUnderscore b := by
  simp [spaceToUnderscore]

/-- The class of an operand, if it matters. -/
def BinSite.classes (s : BinSite) (opt : Bool) : ConstClass × ConstClass :=
  if opt && !s.op.isAssign then (s.rhs.constClass, s.lhs.constClass) else (.other, .other)

theorem BinSite.fnName_eq (s : BinSite) (l : Lang) (opt : Bool) (e : Text) :
    s.fnName l opt ++ e =
      t!"__dredd_replace_binary_operator_" ++ (binOpPart s.op
      ++ (lhsPart l.boolKw (s.op.isAssign && s.lhs.volatile, s.lhs.ty)
      ++ (rhsPart l.boolKw s.rhs.ty
      ++ (rhsConst (s.classes opt).1 ++ (lhsConst (s.classes opt).2 ++ e))))) := by
  unfold BinSite.fnName binOpPart lhsPart rhsPart tyPart flag BinSite.classes
  rw [spaceToUnderscore_append, operandSuffix_eq, operandSuffix_eq, BTy.name_eq l s.lhs.ty,
    BTy.name_eq l s.rhs.ty]
  have h1 : spaceToUnderscore (if (s.op.isAssign && s.lhs.volatile) = true
      then t!"volatile " else []) = if (s.op.isAssign && s.lhs.volatile) = true
      then t!"volatile_" else [] := by split <;> rfl
  rw [h1]
  cases opt && !s.op.isAssign
  · simp [rhsConst, lhsConst, ConstClass.suffix, List.append_assoc]
  · simp [rhsConst, lhsConst, List.append_assoc]

theorem BinSite.fnName_inj {s s' : BinSite} {l : Lang} {opt : Bool} {e e' : Text}
    (h : s.op.fnName?.isSome) (h' : s'.op.fnName?.isSome) (he : e ∈ cEnds) (he' : e' ∈ cEnds)
    (heq : s.fnName l opt ++ e = s'.fnName l opt ++ e') :
    s.op = s'.op ∧ (s.op.isAssign && s.lhs.volatile) = (s'.op.isAssign && s'.lhs.volatile) ∧
    s.lhs.ty = s'.lhs.ty ∧ s.rhs.ty = s'.rhs.ty ∧ s.classes opt = s'.classes opt ∧ e = e' := by
  rw [BinSite.fnName_eq, BinSite.fnName_eq] at heq
  have h1 := List.append_cancel_left heq
  obtain ⟨hop, h2⟩ := prefixFree.decode binOp_prefixFree (mem_binOpKeys h) (mem_binOpKeys h') h1
  obtain ⟨hl, h3⟩ := prefixFree.decode (lhs_prefixFree l.boolKw) (mem_tyKeys _) (mem_tyKeys _) h2
  obtain ⟨hr, h4⟩ := endFree.decode (rhs_endFree l.boolKw) (BTy.mem_all _) (BTy.mem_all _)
    (mem_endings (ConstClass.mem_all _) (mem_endings (ConstClass.mem_all _) he))
    (mem_endings (ConstClass.mem_all _) (mem_endings (ConstClass.mem_all _) he')) h3
  obtain ⟨hc, h5⟩ := endFree.decode rhsConst_endFree (ConstClass.mem_all _) (ConstClass.mem_all _)
    (mem_endings (ConstClass.mem_all _) he) (mem_endings (ConstClass.mem_all _) he') h4
  obtain ⟨hd, h6⟩ := endFree.decode lhsConst_endFree (ConstClass.mem_all _) (ConstClass.mem_all _)
    he he' h5
  injection hl with hl1 hl2
  exact ⟨hop, hl1, hl2, hr, Prod.ext hc hd, h6⟩

/-! ### Unary operators -/

def unOpPart (op : UOp) : Text := op.fnName ++ t!"_"

def unOpKeys : List UOp := UOp.all.filter (·.fnName?.isSome)

theorem mem_unOpKeys {op : UOp} (h : op.fnName?.isSome) : op ∈ unOpKeys :=
  List.mem_filter.mpr ⟨by cases op <;> decide, h⟩

theorem unOp_prefixFree : prefixFree unOpPart unOpKeys = true := by decide +kernel

def unConst : ConstClass → Text := ConstClass.suffix t!"_zero" t!"_one" t!"_minus_one"

def unConstEnds : List Text := ConstClass.all.map unConst

theorem un_endFree (b : Bool) : endFree (tyPart b t!"volatile_") tyKeys unConstEnds = true := by
  cases b <;> decide +kernel

theorem unConst_inj {c c' : ConstClass} (h : unConst c = unConst c') : c = c' := by
  cases c <;> cases c' <;> first | rfl | (exact absurd h (by decide))

def UnSite.cls (s : UnSite) (opt : Bool) : ConstClass :=
  if opt then s.sub.constClass else .other

theorem UnSite.fnName_eq (s : UnSite) (l : Lang) (opt : Bool) :
    s.fnName l opt =
      t!"__dredd_replace_unary_operator_" ++ (unOpPart s.op
      ++ (tyPart l.boolKw t!"volatile_" (s.sub.lvalue && s.sub.volatile, s.sub.ty)
      ++ unConst (s.cls opt))) := by
  unfold UnSite.fnName unOpPart tyPart flag UnSite.cls
  rw [BTy.name_eq l s.sub.ty]
  have h1 : ∀ x : Text, (if (s.sub.lvalue && s.sub.volatile) = true then t!"_volatile" else [])
      ++ (t!"_" ++ x)
      = t!"_" ++ ((if (s.sub.lvalue && s.sub.volatile) = true then t!"volatile_" else []) ++ x) := by
    intro x; split <;> rfl
  have h2 : (if (opt && s.sub.isZero) = true then t!"_zero" else [])
      ++ ((if (opt && s.sub.isOne) = true then t!"_one" else [])
      ++ (if (opt && s.sub.isMinusOne) = true then t!"_minus_one" else []))
      = unConst (if opt = true then s.sub.constClass else .other) := by
    rw [ExprInfo.isZero_iff, ExprInfo.isOne_iff, ExprInfo.isMinusOne_iff]
    cases opt
    · rfl
    · cases s.sub.constClass <;> rfl
  simp only [List.append_assoc]
  rw [h1, h2]

theorem UnSite.fnName_inj {s s' : UnSite} {l : Lang} {opt : Bool}
    (h : s.op.fnName?.isSome) (h' : s'.op.fnName?.isSome)
    (heq : s.fnName l opt = s'.fnName l opt) :
    s.op = s'.op ∧ (s.sub.lvalue && s.sub.volatile) = (s'.sub.lvalue && s'.sub.volatile) ∧
    s.sub.ty = s'.sub.ty ∧ s.cls opt = s'.cls opt := by
  rw [UnSite.fnName_eq, UnSite.fnName_eq] at heq
  have h1 := List.append_cancel_left heq
  obtain ⟨hop, h2⟩ := prefixFree.decode unOp_prefixFree (mem_unOpKeys h) (mem_unOpKeys h') h1
  obtain ⟨ht, h3⟩ := endFree.decode (un_endFree l.boolKw) (mem_tyKeys _) (mem_tyKeys _)
    (List.mem_map.mpr ⟨_, ConstClass.mem_all _, rfl⟩)
    (List.mem_map.mpr ⟨_, ConstClass.mem_all _, rfl⟩) h2
  injection ht with h4 h5
  exact ⟨hop, h4, h5, unConst_inj h3⟩

/-! ### Expressions -/

/-- What is known about the value of an expression. -/
inductive ValClass
  | zero | one | minusOne | constant | tru | fls | other
deriving DecidableEq, Repr

def ValClass.all : List ValClass := [.zero, .one, .minusOne, .constant, .tru, .fls, .other]

theorem ValClass.mem_all (c : ValClass) : c ∈ ValClass.all := by cases c <;> decide

def ValClass.suffix : ValClass → Text
  | .zero => t!"_zero" | .one => t!"_one" | .minusOne => t!"_minus_one"
  | .constant => t!"_constant" | .tru => t!"_true" | .fls => t!"_false" | .other => []

def ExprInfo.valClass (e : ExprInfo) : ValClass :=
  if e.ty.isBool then
    if e.boolVal == some true then .tru else if e.boolVal == some false then .fls else .other
  else match e.constClass with
    | .zero => .zero | .one => .one | .minusOne => .minusOne
    | .other => if e.intVal.isSome then .constant else .other

def omitFalseEnds : List Text := bools.map (flag t!"_omit_false")
def omitTrueEnds : List Text := endings (flag t!"_omit_true") bools omitFalseEnds
def beforeEnds : List Text :=
  endings (flag t!"_before_logical_operator_argument") bools omitTrueEnds
def valEnds : List Text := endings ValClass.suffix ValClass.all beforeEnds
def lvalueEnds : List Text := endings (flag t!"_lvalue") bools valEnds

theorem expr_endFree (b : Bool) : endFree (tyPart b t!"volatile_") tyKeys lvalueEnds = true := by
  cases b <;> decide +kernel
theorem lvalue_endFree : endFree (flag t!"_lvalue") bools valEnds = true := by decide +kernel
theorem val_endFree : endFree ValClass.suffix ValClass.all beforeEnds = true := by decide +kernel
theorem before_endFree :
    endFree (flag t!"_before_logical_operator_argument") bools omitTrueEnds = true := by
  decide +kernel
theorem omitTrue_endFree : endFree (flag t!"_omit_true") bools omitFalseEnds = true := by
  decide +kernel
theorem flag_inj {t : Text} (h : t ≠ []) {b b' : Bool} (he : flag t b = flag t b') : b = b' := by
  cases b <;> cases b' <;> simp_all [flag]

def ExprSite.val (s : ExprSite) (opt : Bool) : ValClass :=
  if opt then s.self.valClass else .other

theorem valClass_suffix (e : ExprInfo) :
    (if ((e.ty.isInteger && !e.ty.isBool) || e.ty.isFloat) = true then
      if e.isZero then t!"_zero" else if e.isOne then t!"_one"
      else if e.isMinusOne then t!"_minus_one" else if e.intVal.isSome then t!"_constant" else []
     else []) ++ (if e.ty.isBool = true then
        if e.isBoolConst true then t!"_true" else if e.isBoolConst false then t!"_false" else []
      else []) = e.valClass.suffix := by
  unfold ExprInfo.valClass ExprInfo.isBoolConst
  rw [ExprInfo.isZero_iff, ExprInfo.isOne_iff, ExprInfo.isMinusOne_iff]
  have hb : e.ty.isBool = true → e.ty.isFloat = false := by cases e.ty <;> decide
  cases h : e.ty.isBool
  · have : ((e.ty.isInteger && !false) || e.ty.isFloat) = true := by
      unfold BTy.isInteger; cases e.ty.isFloat <;> rfl
    rw [if_pos this]
    cases e.constClass
    · rfl
    · rfl
    · rfl
    · cases e.intVal.isSome <;> rfl
  · rw [hb h]
    unfold BTy.isInteger
    rw [hb h]
    rcases e.boolVal with _ | _ | _ <;> rfl

theorem ExprSite.fnName_eq (s : ExprSite) (l : Lang) (opt : Bool) :
    s.fnName l opt =
      t!"__dredd_replace_expr_"
      ++ (tyPart l.boolKw t!"volatile_" (s.self.lvalue && s.self.volatile, s.self.ty)
      ++ (flag t!"_lvalue" s.self.lvalue
      ++ ((s.val opt).suffix
      ++ (flag t!"_before_logical_operator_argument" (opt && s.beforeLogicalArgRedundant l)
      ++ (flag t!"_omit_true" (opt && s.boolRedundant l true)
      ++ flag t!"_omit_false" (opt && s.boolRedundant l false)))))) := by
  unfold ExprSite.fnName tyPart ExprSite.val ExprSite.optSpecifier
  rw [valClass_suffix, BTy.name_eq l s.self.ty]
  simp only [List.append_assoc]
  cases opt
  · simp [flag, ValClass.suffix]
  · simp [flag]

theorem ExprSite.fnName_inj {s s' : ExprSite} {l : Lang} {opt : Bool}
    (heq : s.fnName l opt = s'.fnName l opt) :
    (s.self.lvalue && s.self.volatile) = (s'.self.lvalue && s'.self.volatile) ∧
    s.self.ty = s'.self.ty ∧ s.self.lvalue = s'.self.lvalue ∧ s.val opt = s'.val opt ∧
    (opt && s.beforeLogicalArgRedundant l) = (opt && s'.beforeLogicalArgRedundant l) ∧
    (opt && s.boolRedundant l true) = (opt && s'.boolRedundant l true) ∧
    (opt && s.boolRedundant l false) = (opt && s'.boolRedundant l false) := by
  rw [ExprSite.fnName_eq, ExprSite.fnName_eq] at heq
  have e1 : ∀ s : ExprSite, flag t!"_omit_false" (opt && s.boolRedundant l false) ∈ omitFalseEnds :=
    fun _ => List.mem_map.mpr ⟨_, mem_bools _, rfl⟩
  have e2 := fun s => mem_endings (f := flag t!"_omit_true")
    (mem_bools (opt && s.boolRedundant l true)) (e1 s)
  have e3 := fun s => mem_endings (f := flag t!"_before_logical_operator_argument")
    (mem_bools (opt && s.beforeLogicalArgRedundant l)) (e2 s)
  have e4 := fun (s : ExprSite) => mem_endings (f := ValClass.suffix)
    (ValClass.mem_all (s.val opt)) (e3 s)
  have e5 := fun (s : ExprSite) => mem_endings (f := flag t!"_lvalue") (mem_bools s.self.lvalue) (e4 s)
  have h1 := List.append_cancel_left heq
  obtain ⟨a1, h2⟩ := endFree.decode (expr_endFree l.boolKw) (mem_tyKeys _) (mem_tyKeys _)
    (e5 s) (e5 s') h1
  obtain ⟨a2, h3⟩ := endFree.decode lvalue_endFree (mem_bools _) (mem_bools _) (e4 s) (e4 s') h2
  obtain ⟨a3, h4⟩ := endFree.decode val_endFree (ValClass.mem_all _) (ValClass.mem_all _)
    (e3 s) (e3 s') h3
  obtain ⟨a4, h5⟩ := endFree.decode before_endFree (mem_bools _) (mem_bools _) (e2 s) (e2 s') h4
  obtain ⟨a5, h6⟩ := endFree.decode omitTrue_endFree (mem_bools _) (mem_bools _) (e1 s) (e1 s') h5
  injection a1 with b1 b2
  exact ⟨b1, b2, a2, a3, a4, a5, flag_inj (by decide) h6⟩

end Dredd
