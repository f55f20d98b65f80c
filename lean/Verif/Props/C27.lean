/-
C27: relational and logical operators: whatever kills some kept mutant kills
the dropped one.
-/
import Verif.Props.C25
import Verif.Spec.Truth

namespace Dredd

/-- What an action makes of an expression with operator `orig`.  `f` gives the
value of each operator on the operands, `lhs` and `rhs` are the operands. -/
def Act.value (cpp : Bool) (f : BOp → Option Bool) (lhs rhs : Option Bool) (orig : BOp) :
    Act → Option Int
  | .bin a => a.change.value f lhs rhs
  | .expr a => (f orig).bind fun b => (a.change cpp).value (ofBool b)
  | _ => none

/-- Operands of which a relational operator only sees how they compare kill
the action: the result differs. -/
def Act.killedByOrder (cpp : Bool) (orig : BOp) (c : Ordering) (a : Act) : Prop :=
  a.value cpp (BOp.onOrder c) none none orig ≠ (orig.onOrder c).map ofBool

/-- Truth values kill the action. -/
def Act.killedByBools (cpp : Bool) (orig : BOp) (p q : Bool) (a : Act) : Prop :=
  a.value cpp (BOp.onBools p q) (some p) (some q) orig ≠ (orig.onBools p q).map ofBool

instance (cpp : Bool) (orig : BOp) (c : Ordering) (a : Act) :
    Decidable (a.killedByOrder cpp orig c) := by unfold Act.killedByOrder; infer_instance

instance (cpp : Bool) (orig : BOp) (p q : Bool) (a : Act) :
    Decidable (a.killedByBools cpp orig p q) := by unfold Act.killedByBools; infer_instance

/-- `e` is the whole expression of `s`, not a constant. -/
structure SameExpr (l : Lang) (s : BinSite) (e : ExprSite) : Prop where
  op : e.binOp = some s.op
  ty : e.self.ty = s.resTy
  resTy : s.resTy = if l.cpp then .bool else .int
  rvalue : e.self.lvalue = false
  noInt : e.self.intVal = none
  noBool : e.self.boolVal = none

/-- The actions offered for the expression. -/
def offered (l : Lang) (o : Options) (s : BinSite) (e : ExprSite) (i j k m : Nat) : List Act :=
  (s.apply l o i j).group.acts ++ (e.apply l o k m).group.acts

theorem Act.all_orders {P : Ordering → Prop} (h1 : P .lt) (h2 : P .eq) (h3 : P .gt) : ∀ c, P c
  | .lt => h1
  | .eq => h2
  | .gt => h3

/-- `K` kills only if `D` does, as a computation. -/
def subsumesOrder (cpp : Bool) (op : BOp) (D K : Act) : Bool :=
  [Ordering.lt, .eq, .gt].all fun c => decide (K.killedByOrder cpp op c → D.killedByOrder cpp op c)

theorem subsumesOrder_spec {cpp op D K} (h : subsumesOrder cpp op D K = true) (c : Ordering) :
    K.killedByOrder cpp op c → D.killedByOrder cpp op c := by
  unfold subsumesOrder at h
  have := List.all_eq_true.1 h c (by cases c <;> simp)
  exact of_decide_eq_true this

def subsumesBools (cpp : Bool) (op : BOp) (D K : Act) : Bool :=
  [false, true].all fun p => [false, true].all fun q =>
    decide (K.killedByBools cpp op p q → D.killedByBools cpp op p q)

theorem subsumesBools_spec {cpp op D K} (h : subsumesBools cpp op D K = true) (p q : Bool) :
    K.killedByBools cpp op p q → D.killedByBools cpp op p q := by
  unfold subsumesBools at h
  have := List.all_eq_true.1 (List.all_eq_true.1 h p (by cases p <;> simp)) q (by cases q <;> simp)
  exact of_decide_eq_true this

/-- The actions of a relational operator on operands that are not `bool`. -/
def relActs (op : BOp) (opt : Bool) : List Act :=
  ([BOp.eq, .ne, .ge, .gt, .le, .lt].filter fun x => x != op && !(opt && redundantBool op x)).map
    (fun x => .bin x.action) ++ (if opt then [] else [.bin .ReplaceWithLHS, .bin .ReplaceWithRHS])

/-- The other actions of the expression. -/
def relExprActs (cpp : Bool) (op : BOp) (opt : Bool) : List Act :=
  if opt then
    if cpp then
      if op == .gt || op == .lt || op == .eq || op == .land then [.expr .ReplaceWithFalse]
      else [.expr .ReplaceWithTrue]
    else [.expr .ReplaceWithZeroInt, .expr .ReplaceWithOneInt, .expr .ReplaceWithMinusOneInt]
  else
    if cpp then [.expr .InsertLNot, .expr .ReplaceWithTrue, .expr .ReplaceWithFalse]
    else [.expr .InsertLNot, .expr .InsertNot, .expr .InsertMinus,
      .expr .ReplaceWithZeroInt, .expr .ReplaceWithOneInt, .expr .ReplaceWithMinusOneInt]

theorem relActs_eq (s : BinSite) (l : Lang) (o : Options) (i j : Nat)
    (hrel : s.op.isRelational = true) (hb : s.lhs.ty.isBool = false) :
    (s.apply l o i j).group.acts = relActs s.op o.optimise := by
  rw [s.group_acts]
  unfold BinSite.clauses BinSite.argClauses BinSite.replacements BinSite.candidates
  have hr : ∀ x ∈ [BOp.eq, .ne, .ge, .gt, .le, .lt], redundantArith s.lhs s.rhs x = false := by
    simp [redundantArith]
  have hv : ∀ x ∈ [BOp.eq, .ne, .ge, .gt, .le, .lt], s.isValid x = true := by
    simp [BinSite.isValid]
  generalize hop : s.op = op at *
  cases o.optimise <;> cases op <;> simp [BOp.isRelational] at hrel <;>
    simp [BOp.isLogical, opFamilies, hb, relActs, List.find?, hr, hv, BinSite.isRedundant, hop,
      BOp.isRelational, BOp.isAssign, redundantBool, BOp.action]

theorem relExprActs_eq (s : BinSite) (e : ExprSite) (l : Lang) (o : Options) (i j : Nat)
    (hrel : s.op.isRelational = true ∨ (l.cpp = true ∧ s.op.isLogical = true))
    (he : SameExpr l s e) :
    (e.apply l o i j).group.acts = relExprActs l.cpp s.op o.optimise := by
  rw [e.group_acts]
  obtain ⟨h1, h2, h3, h4, h5, h6⟩ := he
  unfold ExprSite.clauses
  generalize hop : s.op = op at *
  cases o.optimise <;> cases hl : l.cpp <;> cases op <;>
    simp [BOp.isRelational, BOp.isLogical, hl] at hrel <;>
    simp [hl] at h3 <;>
    simp [h1, h2, h3, h4, h5, h6, relExprActs, ExprSite.insertionRedundant, BTy.isBool,
      BTy.isInteger, BTy.isFloat, BTy.isSigned, ExprSite.beforeBinaryRedundant, hl,
      ExprSite.boolRedundant, ExprInfo.isBoolConst, ExprInfo.isInt, hop]

/-- C27, relational operators: every dropped mutant except the replacement by
an operand is killed by all operands that kill a certain kept mutant, for
operands of any type whose values are compared by `cmp`. -/
theorem C27_relational {α : Type} (cmp : α → α → Ordering) (l : Lang) (o o' : Options)
    (s : BinSite) (e : ExprSite) (i j k m i' j' k' m' : Nat)
    (ho : o.optimise = false) (ho' : o'.optimise = true)
    (hrel : s.op.isRelational = true) (hb : s.lhs.ty.isBool = false) (he : SameExpr l s e)
    (D : Act) (hD : D ∈ offered l o s e i j k m) (hD' : D ∉ offered l o' s e i' j' k' m')
    (hL : D ≠ .bin .ReplaceWithLHS) (hR : D ≠ .bin .ReplaceWithRHS) :
    ∃ K ∈ offered l o' s e i' j' k' m', ∀ x y : α,
      K.killedByOrder l.cpp s.op (cmp x y) → D.killedByOrder l.cpp s.op (cmp x y) := by
  simp only [offered, relActs_eq s l _ _ _ hrel hb, relExprActs_eq s e l _ _ _ (.inl hrel) he,
    ho, ho'] at hD hD' ⊢
  suffices h : ∃ K ∈ relActs s.op true ++ relExprActs l.cpp s.op true,
      subsumesOrder l.cpp s.op D K = true by
    obtain ⟨K, hK, hs⟩ := h
    exact ⟨K, hK, fun x y => subsumesOrder_spec hs _⟩
  have key : ∀ cpp ∈ [false, true], ∀ op ∈ [BOp.eq, .ne, .ge, .gt, .le, .lt],
      ∀ D ∈ relActs op false ++ relExprActs cpp op false,
      D ∈ relActs op true ++ relExprActs cpp op true ∨ D = .bin .ReplaceWithLHS ∨
      D = .bin .ReplaceWithRHS ∨
      ∃ K ∈ relActs op true ++ relExprActs cpp op true, subsumesOrder cpp op D K = true := by
    decide +kernel
  have := key l.cpp (by cases l.cpp <;> simp) s.op
    (by revert hrel; cases s.op <;> simp [BOp.isRelational]) D hD
  grind

/-- The actions of a logical operator in C++ on operands that are not small
constants. -/
def logActs (op : BOp) (opt : Bool) : List Act :=
  ([BOp.land, .lor, .eq, .ne].filter fun x => x != op && !(opt && redundantBool op x)).map
    (fun x => .bin x.action) ++ [.bin .ReplaceWithLHS, .bin .ReplaceWithRHS]

theorem logActs_eq (s : BinSite) (l : Lang) (o : Options) (i j : Nat) (hl : l.cpp = true)
    (hlog : s.op.isLogical = true) (h1 : s.lhs.isSmallConst = false)
    (h2 : s.rhs.isSmallConst = false) :
    (s.apply l o i j).group.acts = logActs s.op o.optimise := by
  rw [s.group_acts]
  unfold BinSite.clauses BinSite.argClauses BinSite.replacements BinSite.candidates
  have hr : ∀ x ∈ [BOp.land, .lor, .eq, .ne], redundantArith s.lhs s.rhs x = false := by
    simp [redundantArith]
  have hv : ∀ x ∈ [BOp.land, .lor, .eq, .ne], s.isValid x = true := by
    simp [BinSite.isValid]
  generalize hop : s.op = op at *
  cases o.optimise <;> cases op <;> simp [BOp.isLogical] at hlog <;>
    simp [BOp.isLogical, opFamilies, hl, logActs, List.find?, hr, hv, BinSite.isRedundant, hop,
      BOp.isRelational, BOp.isAssign, redundantBool, BOp.action, h1, h2]

/-- C27, logical operators in C++: every dropped mutant is killed by all truth
values that kill a certain kept mutant. -/
theorem C27_logical (l : Lang) (o o' : Options)
    (s : BinSite) (e : ExprSite) (i j k m i' j' k' m' : Nat)
    (ho : o.optimise = false) (ho' : o'.optimise = true) (hl : l.cpp = true)
    (hlog : s.op.isLogical = true) (h1 : s.lhs.isSmallConst = false)
    (h2 : s.rhs.isSmallConst = false) (he : SameExpr l s e)
    (D : Act) (hD : D ∈ offered l o s e i j k m) (hD' : D ∉ offered l o' s e i' j' k' m') :
    ∃ K ∈ offered l o' s e i' j' k' m', ∀ p q : Bool,
      K.killedByBools true s.op p q → D.killedByBools true s.op p q := by
  simp only [offered, logActs_eq s l _ _ _ hl hlog h1 h2,
    relExprActs_eq s e l _ _ _ (.inr ⟨hl, hlog⟩) he, ho, ho', hl] at hD hD' ⊢
  suffices h : ∃ K ∈ logActs s.op true ++ relExprActs true s.op true,
      subsumesBools true s.op D K = true by
    obtain ⟨K, hK, hs⟩ := h
    exact ⟨K, hK, fun x y => subsumesBools_spec hs _ _⟩
  have key : ∀ op ∈ [BOp.land, .lor],
      ∀ D ∈ logActs op false ++ relExprActs true op false,
      D ∈ logActs op true ++ relExprActs true op true ∨
      ∃ K ∈ logActs op true ++ relExprActs true op true, subsumesBools true op D K = true := by
    decide +kernel
  have := key s.op (by revert hlog; cases s.op <;> simp [BOp.isLogical]) D hD
  grind

/-- C27, operands of logical operators in C++: negating the left operand is
killed by everything that kills the replacement by the right operand, and the
other way round; both replacements are kept. -/
theorem C27_operand (l : Lang) (o' : Options) (s : BinSite) (i j : Nat)
    (hl : l.cpp = true) (hlog : s.op.isLogical = true)
    (h1 : s.lhs.isSmallConst = false) (h2 : s.rhs.isSmallConst = false) :
    (.bin .ReplaceWithRHS ∈ (s.apply l o' i j).group.acts ∧ ∀ p q : Bool,
      Act.killedByBools true s.op p q (.bin .ReplaceWithRHS) →
        s.op.onBools (!p) q ≠ s.op.onBools p q) ∧
    (.bin .ReplaceWithLHS ∈ (s.apply l o' i j).group.acts ∧ ∀ p q : Bool,
      Act.killedByBools true s.op p q (.bin .ReplaceWithLHS) →
        s.op.onBools p (!q) ≠ s.op.onBools p q) := by
  rw [logActs_eq s l _ _ _ hl hlog h1 h2]
  refine ⟨⟨by simp [logActs], ?_⟩, ⟨by simp [logActs], ?_⟩⟩ <;>
    (intro p q; revert hlog; cases s.op <;> intro hlog <;> simp [BOp.isLogical] at hlog <;>
      revert p q <;> decide)

/-- The negation of an operand of a logical operator is what optimisation
drops: nothing else is missing for an operand that is not a constant and not
itself a relational or logical expression. -/
theorem C27_operand_dropped (l : Lang) (o o' : Options) (e : ExprSite) (i j i' j' : Nat)
    (ho : o.optimise = false) (ho' : o'.optimise = true)
    (hl : l.cpp = true) (harg : e.logicalArg = true) (hty : e.self.ty = .bool)
    (hop : e.binOp = none) (hc : e.self.boolVal = none)
    (D : Act) (hD : D ∈ (e.apply l o i j).group.acts) :
    D ∉ (e.apply l o' i' j').group.acts ↔ D = .expr .InsertLNot ∧ e.self.lvalue = false := by
  rw [e.group_acts] at hD ⊢
  revert hD
  unfold ExprSite.clauses
  cases hv : e.self.lvalue <;> cases e.canMutateLValue <;>
  simp [ho, ho', hl, harg, hty, hop, hc, ExprSite.insertionRedundant, BTy.isBool,
    ExprSite.beforeLogicalArgRedundant, ExprSite.beforeBinaryRedundant, ExprSite.boolRedundant,
    ExprInfo.isBoolConst, BTy.isFloat, BTy.isInteger, BTy.isSigned, hv] <;> grind

/-- In C, where logical operators have fewer mutants, being an operand of a logical operator
makes no difference: nothing is dropped for that reason. -/
theorem C27_c_operand_kept (l : Lang) (o : Options) (e : ExprSite) (i j : Nat)
    (hl : l.cpp = false) (b : Bool) :
    ({ e with logicalArg := b }.apply l o i j).group = (e.apply l o i j).group := by
  have h : ({ e with logicalArg := b }).clauses l o.optimise = e.clauses l o.optimise := by
    simp [ExprSite.clauses, ExprSite.insertionRedundant, ExprSite.beforeLogicalArgRedundant, hl,
      ExprSite.beforeBinaryRedundant, ExprSite.boolRedundant, ExprSite.minusRedundant,
      ExprSite.notRedundant, ExprSite.lnotRedundant]
  simp only [ExprSite.apply, ExprSite.genBody_eq, runClauses_eq, h]

/-- The hypotheses are met by `a < b` (C++) for `int` operands: `==` is
dropped, and so are `true` and the negation. -/
def Sample.ltExpr (op : BOp) (l : Lang) : ExprSite :=
  { Sample.expr { Sample.intVal with ty := if l.cpp then .bool else .int } with binOp := some op }

theorem Sample.ltExpr_same (op : BOp) (h : (op.isLogical || op.isRelational) = true)
    (lhs rhs : ExprInfo) :
    SameExpr Sample.cpp (Sample.bin op lhs rhs) (Sample.ltExpr op Sample.cpp) :=
  ⟨rfl, by simp [Sample.ltExpr, Sample.bin, h, Sample.expr, Sample.cpp],
    by simp [Sample.bin, h, Sample.cpp], rfl, rfl, rfl⟩

example : ∃ K ∈ offered Sample.cpp Sample.opts (Sample.bin .lt Sample.intVal Sample.intVal)
      (Sample.ltExpr .lt Sample.cpp) 0 0 0 0,
    ∀ x y : Int, K.killedByOrder true .lt (compare x y) →
      Act.killedByOrder true .lt (compare x y) (.bin .ReplaceWithEQ) :=
  C27_relational compare Sample.cpp Sample.noopt Sample.opts
    (Sample.bin .lt Sample.intVal Sample.intVal) (Sample.ltExpr .lt Sample.cpp) 0 0 0 0 0 0 0 0
    rfl rfl rfl rfl (Sample.ltExpr_same .lt rfl _ _) _
    (by decide +kernel) (by decide +kernel) (by decide) (by decide)

/-- In C the value of the comparison is an `int`, and `-` and `~` are dropped. -/
example : SameExpr Sample.c
      { Sample.bin .lt Sample.intVal Sample.intVal with resTy := .int }
      (Sample.ltExpr .lt Sample.c) ∧
    .expr .InsertMinus ∉ offered Sample.c Sample.opts
      { Sample.bin .lt Sample.intVal Sample.intVal with resTy := .int }
      (Sample.ltExpr .lt Sample.c) 0 0 0 0 :=
  ⟨⟨rfl, rfl, rfl, rfl, rfl, rfl⟩, by decide +kernel⟩

example : ∃ K ∈ offered Sample.cpp Sample.opts (Sample.bin .land Sample.boolCall Sample.boolCall)
      (Sample.ltExpr .land Sample.cpp) 0 0 0 0,
    ∀ p q : Bool, K.killedByBools true .land p q →
      Act.killedByBools true .land p q (.bin .ReplaceWithLOr) :=
  C27_logical Sample.cpp Sample.noopt Sample.opts
    (Sample.bin .land Sample.boolCall Sample.boolCall) (Sample.ltExpr .land Sample.cpp)
    0 0 0 0 0 0 0 0
    rfl rfl rfl rfl rfl rfl (Sample.ltExpr_same .land rfl _ _) _
    (by decide +kernel) (by decide +kernel)

example : ({ Sample.expr Sample.boolCall with logicalArg := true }).self.boolVal = none := rfl

/-- With operands of type `bool` (which clang
promotes, so that this does not arise) the claim would fail: for `p == q` the
dropped `&&` survives a test suite that kills every kept mutant. -/
theorem C27_bool_operands_false :
    let s : BinSite := Sample.bin .eq Sample.boolCall Sample.boolCall
    let e := Sample.ltExpr .eq Sample.cpp
    .bin .ReplaceWithLAnd ∈ offered Sample.cpp Sample.noopt s e 0 0 0 0 ∧
    .bin .ReplaceWithLAnd ∉ offered Sample.cpp Sample.opts s e 0 0 0 0 ∧
    ∃ suite : List (Bool × Bool),
      (∀ K ∈ offered Sample.cpp Sample.opts s e 0 0 0 0, ∃ t ∈ suite,
        K.value true (fun o => (BOp.onBools t.1 t.2 o).or (BOp.onOrder (compare t.1 t.2) o))
          (some t.1) (some t.2) .eq ≠ some (ofBool (t.1 == t.2))) ∧
      ∀ t ∈ suite, ¬ Act.killedByBools true .eq t.1 t.2 (.bin .ReplaceWithLAnd) := by
  refine ⟨by decide +kernel, by decide +kernel, [(false, true), (true, false), (true, true)], ?_⟩
  decide +kernel

/-- Replacements of a comparison by one of its operands are dropped although
nothing subsumes them: `x > y` against `x` (as a truth value) for integers is
not killed by a test suite that kills all kept mutants of `x > y`. -/
theorem C27_operand_replacement_false :
    let s : BinSite := Sample.bin .gt Sample.intVal Sample.intVal
    let e := Sample.ltExpr .gt Sample.cpp
    .bin .ReplaceWithLHS ∈ offered Sample.cpp Sample.noopt s e 0 0 0 0 ∧
    .bin .ReplaceWithLHS ∉ offered Sample.cpp Sample.opts s e 0 0 0 0 ∧
    ∃ suite : List (Int × Int),
      (∀ K ∈ offered Sample.cpp Sample.opts s e 0 0 0 0, ∃ t ∈ suite,
        K.killedByOrder true .gt (compare t.1 t.2)) ∧
      ∀ t ∈ suite, decide (t.1 ≠ 0) = decide (t.1 > t.2) := by
  refine ⟨by decide +kernel, by decide +kernel, [(0, 0), (0, 1), (1, 0)], ?_⟩
  decide +kernel

end Dredd
