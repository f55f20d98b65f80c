/-
C51: signed arithmetic: what optimisation drops equals the original or
something kept, without exceptions.
C52: inserted operators and constants, for all integer types.
-/
import Verif.Props.C29

namespace Dredd

/-- C51: for signed types the exception of `C28_dropped_partial` does not
arise. -/
theorem C51_signed (P : Platform) (l : Lang) (o o' : Options) (s : BinSite) (e : ExprSite)
    (i j k m i' j' : Nat) (ho : o.optimise = false)
    (hop : s.op.isArithmetic = true) (he : IntExpr P l s e) (hs : s.resTy.isSigned l = true)
    (D : Act) (hD : D ∈ s.kept l o i' j') (hD' : D ∉ s.kept l o' i j) :
    ∃ K, Still l o' s e i j k m K ∧ ∀ a b w r, s.Operands P l a b →
      s.value P l a b none = some w → s.value P l a b (some D) = some r →
      s.value P l a b K = some r :=
  C28_dropped_partial P l o o' s e i j k m i' j' ho hop he D hD hD' (by simp [hs])

/-- C51: nor does it for unsigned types unless the operands are the constants
0 and 1. -/
theorem C51_unsigned (P : Platform) (l : Lang) (o o' : Options) (s : BinSite) (e : ExprSite)
    (i j k m i' j' : Nat) (ho : o.optimise = false)
    (hop : s.op.isArithmetic = true) (he : IntExpr P l s e)
    (hz : ¬ (s.lhs.intVal = some 0 ∧ s.rhs.intVal = some 1))
    (D : Act) (hD : D ∈ s.kept l o i' j') (hD' : D ∉ s.kept l o' i j) :
    ∃ K, Still l o' s e i j k m K ∧ ∀ a b w r, s.Operands P l a b →
      s.value P l a b none = some w → s.value P l a b (some D) = some r →
      s.value P l a b K = some r := by
  refine C28_dropped_partial P l o o' s e i j k m i' j' ho hop he D hD hD' fun h => hz ?_
  have := h.1
  unfold BinSite.zeroOpOne at this
  rwa [Bool.and_eq_true, isZero_int (he.lhsTy ▸ he.int), isOne_int he.rhsInt] at this

/-- C52. -/
theorem C52_insertion (P : Platform) (l : Lang) (hP : P.Promotes l) (o o' : Options) (e : ExprSite)
    (k m k' m' : Nat) (ho : o.optimise = false)
    (hr : e.self.lvalue = false) (hi : e.self.ty.isInteger = true)
    (hb : e.beforeBinaryRedundant l = false) (hla : e.beforeLogicalArgRedundant l = false)
    (D : Act) (hD : D ∈ (e.apply l o k' m').group.acts)
    (hD' : D ∉ (e.apply l o' k m).group.acts) :
    ∃ K, StillExpr l o' e k m K ∧ ∀ v r, e.self.Value P l v →
      exprValue P l e.self.ty v (some D) = some r → exprValue P l e.self.ty v K = some r :=
  C29_insertion P l hP o o' e k m k' m' ho hr hi hb hla D hD hD'

/-- C52: for l-values nothing is dropped. -/
theorem C52_lvalue (l : Lang) (o o' : Options) (e : ExprSite) (k m k' m' : Nat)
    (hr : e.self.lvalue = true) :
    (e.apply l o k m).group.acts = (e.apply l o' k' m').group.acts := by
  simp [e.group_acts, ExprSite.clauses, hr]

example : Sample.intVar.lvalue = true ∧
    ((Sample.expr Sample.intVar).apply Sample.cpp Sample.opts 0 0).group.acts =
      [.expr .InsertPreInc, .expr .InsertPreDec] := by decide +kernel

/-- `a * 1` meets the hypotheses of `C51_signed`: the dropped `a / 1` is the
kept left operand. -/
example : IntExpr Sample.platform Sample.cpp (Sample.bin .mul Sample.intVal (Sample.intConst 1))
      (Sample.ofOp .mul .int) ∧
    .bin .ReplaceWithDiv ∈ (Sample.bin .mul Sample.intVal (Sample.intConst 1)).kept Sample.cpp
      Sample.noopt 0 0 ∧
    .bin .ReplaceWithDiv ∉ (Sample.bin .mul Sample.intVal (Sample.intConst 1)).kept Sample.cpp
      Sample.opts 0 0 :=
  ⟨⟨rfl, rfl, rfl, rfl, rfl, fun _ _ => rfl, rfl, nofun⟩, by decide +kernel, by decide +kernel⟩

end Dredd
