/-
C81: relational operators on floating-point numbers: what C27 says holds with operands that do not
compare.
-/
import Verif.Props.C27
import Verif.Spec.Floating

namespace Dredd

/-- Floating-point operands kill the action: the result differs. -/
def Act.killedByFloats (cpp : Bool) (orig : BOp) (x y : FVal) (a : Act) : Prop :=
  a.value cpp (BOp.onCmp (x.cmp y)) none none orig ≠ (orig.onCmp (x.cmp y)).map ofBool

/-- The same, of operands of which is known how they compare. -/
def Act.killedByCmp (cpp : Bool) (orig : BOp) (c : Option Ordering) (a : Act) : Prop :=
  a.value cpp (BOp.onCmp c) none none orig ≠ (orig.onCmp c).map ofBool

instance (cpp : Bool) (orig : BOp) (c : Option Ordering) (a : Act) :
    Decidable (a.killedByCmp cpp orig c) := by unfold Act.killedByCmp; infer_instance

/-- `K` kills only if `D` does, as a computation. -/
def subsumesCmp (cpp : Bool) (op : BOp) (D K : Act) : Bool :=
  [none, some Ordering.lt, some .eq, some .gt].all fun c =>
    decide (K.killedByCmp cpp op c → D.killedByCmp cpp op c)

theorem subsumesCmp_spec {cpp op D K} (h : subsumesCmp cpp op D K = true) (c : Option Ordering) :
    K.killedByCmp cpp op c → D.killedByCmp cpp op c := by
  unfold subsumesCmp at h
  have := List.all_eq_true.1 h c (by rcases c with _ | _ | _ | _ <;> simp)
  exact of_decide_eq_true this

/-- C81: every dropped mutant except the replacement by an operand is killed by all floating-point
operands that kill a certain kept mutant, infinities, zeros of either sign and not-a-number among them. -/
theorem C81_relational (l : Lang) (o o' : Options)
    (s : BinSite) (e : ExprSite) (i j k m i' j' k' m' : Nat)
    (ho : o.optimise = false) (ho' : o'.optimise = true)
    (hrel : s.op.isRelational = true) (hf : s.lhs.ty.isFloat = true) (he : SameExpr l s e)
    (D : Act) (hD : D ∈ offered l o s e i j k m) (hD' : D ∉ offered l o' s e i' j' k' m')
    (hL : D ≠ .bin .ReplaceWithLHS) (hR : D ≠ .bin .ReplaceWithRHS) :
    ∃ K ∈ offered l o' s e i' j' k' m', ∀ x y : FVal,
      K.killedByFloats l.cpp s.op x y → D.killedByFloats l.cpp s.op x y := by
  have hb : s.lhs.ty.isBool = false := by
    revert hf
    cases s.lhs.ty <;> simp [BTy.isFloat, BTy.isBool]
  simp only [offered, relActs_eq s l _ _ _ hrel hb, relExprActs_eq s e l _ _ _ (.inl hrel) he,
    ho, ho'] at hD hD' ⊢
  suffices h : ∃ K ∈ relActs s.op true ++ relExprActs l.cpp s.op true,
      subsumesCmp l.cpp s.op D K = true by
    obtain ⟨K, hK, hs⟩ := h
    exact ⟨K, hK, fun x y => subsumesCmp_spec hs _⟩
  have key : ∀ cpp ∈ [false, true], ∀ op ∈ [BOp.eq, .ne, .ge, .gt, .le, .lt],
      ∀ D ∈ relActs op false ++ relExprActs cpp op false,
      D ∈ relActs op true ++ relExprActs cpp op true ∨ D = .bin .ReplaceWithLHS ∨
      D = .bin .ReplaceWithRHS ∨
      ∃ K ∈ relActs op true ++ relExprActs cpp op true, subsumesCmp cpp op D K = true := by
    decide +kernel
  have := key l.cpp (by cases l.cpp <;> simp) s.op
    (by revert hrel; cases s.op <;> simp [BOp.isRelational]) D hD
  grind

namespace Sample

/-- A `double` that is not a constant. -/
def dblVal : ExprInfo := ⟨.double, false, false, false, false, none, none, none, false⟩
/-- A constant of type `double`. -/
def dblConst (c : FConst) : ExprInfo := { dblVal with floatVal := some c }
/-- `x < y`, and the whole expression. -/
def dblLt : BinSite := bin .lt dblVal dblVal
def dblLtExpr : ExprSite := { expr { intVal with ty := .bool } with binOp := some .lt }

end Sample

/-- Beside C81: `x >= y` is dropped for `x < y`.  Operands that do not compare do not kill it, but neither
do they kill `x <= y`, which is kept. -/
example : SameExpr Sample.cpp Sample.dblLt Sample.dblLtExpr ∧
    .bin .ReplaceWithGE ∈ offered Sample.cpp Sample.noopt Sample.dblLt Sample.dblLtExpr 0 0 0 0 ∧
    .bin .ReplaceWithGE ∉ offered Sample.cpp Sample.opts Sample.dblLt Sample.dblLtExpr 0 0 0 0 ∧
    ¬ Act.killedByFloats true .lt .nan (.fin false 0) (.bin .ReplaceWithGE) ∧
    ¬ Act.killedByFloats true .lt .nan (.fin false 0) (.bin .ReplaceWithLE) ∧
    Act.killedByFloats true .lt .nan (.fin false 0) (.bin .ReplaceWithNE) ∧
    Act.killedByFloats true .lt (.fin true 0) (.fin false 0) (.bin .ReplaceWithLE) := by
  refine ⟨⟨rfl, rfl, rfl, rfl, rfl, rfl⟩, by decide +kernel, by decide +kernel, ?_, ?_, ?_, ?_⟩ <;>
    unfold Act.killedByFloats <;> decide +kernel

end Dredd
