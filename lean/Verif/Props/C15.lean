/-
C15: with several mutants of one group enabled, the smallest id wins.

`E` is the set of enabled ids (of the whole run).  The instrumented operator or
expression is executed with operands `c1'`, `c2'` (themselves instrumented,
behaving like `c1`, `c2`); what it may do is what the meaning of the selected
action (`Spec/Action.lean`) allows, and with `b` conversely.  Operands with side
effects are lazy in C++: they are evaluated when the action needs them.
-/
import Verif.Proofs.SiteExec
import Verif.Spec.Samples

namespace Dredd

variable {S V D : Type} {Ok : D → Prop} {b : Prop}

theorem instsFrom_shift {α : Type} (first id : Nat) (h : first ≤ id) (cs : List (RetE × α)) :
    instsFrom id cs = instsFrom (first + (id - first)) cs := by
  rw [Nat.add_sub_cancel' h]

/-- Binary operators, except logical operators in C (these are treated in
C16). -/
theorem C15_binary (s : BinSite) (l : Lang) (o : Options) (M : Machine S V) (dev : Device D)
    (E : Nat → Bool) (first id n : Nat) (hdev : dev.Faithful Ok (fun i => E (first + i)) n)
    (ho : o.track = false) (hc : ¬(l.cpp = false ∧ s.op.isLogical = true)) (hf : first ≤ id)
    (hn : (s.apply l o first id).nextId ≤ first + n)
    {p : PBOp} {i1 i2 i3 : RangeInfo} {insts : List (Nat × BAct)}
    (hg : (s.apply l o first id).group = .replaceBin p i1 i2 i3 insts)
    {c1 c2 : Comp S V} {c1' c2' : Comp (S × D) V}
    (h1 : Sim Ok b c1 c1') (h2 : Sim Ok b c2 c2') :
    let lazy1 := l.cpp && s.lhs.sideEffects
    let lazy2 := l.cpp && (s.op.isLogical || s.rhs.sideEffects)
    (∀ a, Smallest E insts a →
      Sim Ok b
        (prepare2 lazy1 lazy2 c1 c2 fun a1 a2 => (a.change.eval M a1 a2).to M (s.resTyText l))
        (s.exec l o M dev (id - first) c1' c2')) ∧
    (NoneEnabled E insts →
      Sim Ok b
        (prepare2 lazy1 lazy2 c1 c2 fun a1 a2 => (M.evalBin s.op a1 a2).to M (s.resTyText l))
        (s.exec l o M dev (id - first) c1' c2')) := by
  intro lazy1 lazy2
  have hcl : (!l.cpp && s.op.isLogical) = false := by
    cases h : l.cpp <;> cases h' : s.op.isLogical <;> simp_all
  unfold BinSite.apply at hg hn
  rw [hcl] at hg hn
  simp only [Bool.false_eq_true, if_false, BinSite.genBody_eq, runClauses_eq, List.nil_append,
    Nat.add_zero, Nat.zero_add, Group.replaceBin.injEq] at hg hn
  obtain ⟨-, -, -, -, rfl⟩ := hg
  rw [instsFrom_shift first id hf]
  have hs := BinSite.exec_sim s l o (M := M) hdev ho (id - first) (by omega) h1 h2
  unfold BinSite.exec
  rw [hcl]
  simp only [Bool.false_eq_true, if_false]
  constructor
  · intro a ha
    obtain ⟨e, hp, he⟩ := pickFrom_smallest first _ _ a ha
    simp only [picked, hp, Option.map_some, Option.getD_some, BinSite.clause_eval he M] at hs
    exact hs
  · intro ha
    simp only [picked, pickFrom_noneEnabled first _ _ ha, Option.map_none, Option.getD_none] at hs
    exact hs

/-- Unary operators. -/
theorem C15_unary (s : UnSite) (l : Lang) (o : Options) (M : Machine S V) (dev : Device D)
    (E : Nat → Bool) (first id n : Nat) (hdev : dev.Faithful Ok (fun i => E (first + i)) n)
    (ho : o.track = false) (hf : first ≤ id) (hn : (s.apply l o first id).nextId ≤ first + n)
    {p : PUOp} {i1 i2 : RangeInfo} {insts : List (Nat × UAct)}
    (hg : (s.apply l o first id).group = .replaceUn p i1 i2 insts)
    {c : Comp S V} {c' : Comp (S × D) V} (h : Sim Ok b c c') :
    let lazy := l.cpp && s.self.sideEffects
    (∀ a, Smallest E insts a →
      Sim Ok b (prepare1 lazy c fun x => (a.change.eval M x).to M (s.resTyText l))
        (s.exec l o M dev (id - first) c')) ∧
    (NoneEnabled E insts →
      Sim Ok b (prepare1 lazy c fun x => (M.evalUn s.op x).to M (s.resTyText l))
        (s.exec l o M dev (id - first) c')) := by
  intro lazy
  unfold UnSite.apply at hg hn
  simp only [UnSite.genBody_eq, runClauses_eq, List.nil_append,
    Nat.add_zero, Nat.zero_add, Group.replaceUn.injEq] at hg hn
  obtain ⟨-, -, -, rfl⟩ := hg
  rw [instsFrom_shift first id hf]
  have hs := UnSite.exec_sim s l o (M := M) hdev ho (id - first) (by omega) h
  unfold UnSite.exec
  constructor
  · intro a ha
    obtain ⟨e, hp, he⟩ := pickFrom_smallest first _ _ a ha
    simp only [picked, hp, Option.map_some, Option.getD_some, UnSite.clause_eval he M] at hs
    exact hs
  · intro ha
    simp only [picked, pickFrom_noneEnabled first _ _ ha, Option.map_none, Option.getD_none] at hs
    exact hs

/-- Expressions. -/
theorem C15_expr (s : ExprSite) (l : Lang) (o : Options) (M : Machine S V) (dev : Device D)
    (E : Nat → Bool) (first id n : Nat) (hdev : dev.Faithful Ok (fun i => E (first + i)) n)
    (ho : o.track = false) (hf : first ≤ id) (hn : (s.apply l o first id).nextId ≤ first + n)
    {i1 : RangeInfo} {insts : List (Nat × EAct)}
    (hg : (s.apply l o first id).group = .replaceExpr i1 insts)
    {c : Comp S V} {c' : Comp (S × D) V} (h : Sim Ok b c c') :
    let lazy := l.cpp && s.self.sideEffects
    (∀ a, Smallest E insts a →
      Sim Ok b (prepare1 lazy c fun x => ((a.change l.cpp).eval M x).to M (s.self.ty.name l))
        (s.exec l o M dev (id - first) c')) ∧
    (NoneEnabled E insts →
      Sim Ok b (prepare1 lazy c fun x => x.to M (s.self.ty.name l))
        (s.exec l o M dev (id - first) c')) := by
  intro lazy
  unfold ExprSite.apply at hg hn
  simp only [ExprSite.genBody_eq, runClauses_eq, List.nil_append,
    Nat.add_zero, Nat.zero_add, Group.replaceExpr.injEq] at hg hn
  obtain ⟨-, rfl⟩ := hg
  rw [instsFrom_shift first id hf]
  have hs := ExprSite.exec_sim s l o (M := M) hdev ho (id - first) (by omega) h
  unfold ExprSite.exec
  constructor
  · intro a ha
    obtain ⟨e, hp, he⟩ := pickFrom_smallest first _ _ a ha
    simp only [picked, hp, Option.map_some, Option.getD_some, ExprSite.clause_eval he M] at hs
    exact hs
  · intro ha
    simp only [picked, pickFrom_noneEnabled first _ _ ha, Option.map_none, Option.getD_none] at hs
    exact hs

end Dredd
