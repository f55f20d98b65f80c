/-
C15 for logical operators in C, where it holds for some sets of enabled mutants
only, and examples for C15.
-/
import Verif.Props.C14

namespace Dredd

variable {S V D : Type} {Ok : D → Prop} {b : Prop}

/-- Logical operators in C: the smallest enabled id wins (up to conversion of
an operand to a truth value), unless the second and third mutant are enabled but
the first is not.

Full statement: the same without `hnot`.  It is false (`C15_c_logical_false`). -/
theorem C15_c_logical_partial (s : BinSite) (l : Lang) (o : Options) (M : Machine S V)
    (dev : Device D) (E : Nat → Bool) (first id n : Nat)
    (hdev : dev.Faithful Ok (fun i => E (first + i)) n)
    (ho : o.track = false) (hcpp : l.cpp = false) (hlog : s.op = .land ∨ s.op = .lor)
    (hf : first ≤ id) (hn : (s.apply l o first id).nextId ≤ first + n)
    (hM : M.TruthLaws (s.lhs.ty.name l) (s.rhs.ty.name l) (s.resTy.name l))
    {p : PBOp} {i1 i2 i3 : RangeInfo} {insts : List (Nat × BAct)}
    (hg : (s.apply l o first id).group = .replaceBin p i1 i2 i3 insts)
    {c1 c2 : Comp S V} {c1' c2' : Comp (S × D) V}
    (t1 : c1.HasType M (s.lhs.ty.name l)) (t2 : c2.HasType M (s.rhs.ty.name l))
    (h1 : Sim Ok b c1 c1') (h2 : Sim Ok b c2 c2')
    (hnot : ¬(E id = false ∧ E (id + 1) = true ∧ E (id + 2) = true)) :
    (∀ a, Smallest E insts a →
      Sim Ok b
        (match a.change with
          | .lhs => leftTruth M s.op c1 c2
          | .rhs => rightTruth M c1 c2
          | .op x => M.evalBin x c1 c2)
        (s.exec l o M dev (id - first) c1' c2')) ∧
    (NoneEnabled E insts →
      Sim Ok b (M.evalBin s.op c1 c2) (s.exec l o M dev (id - first) c1' c2')) := by
  obtain ⟨p', j1, j2, j3, sw, hg', hsw⟩ := C16_reported s l o first id hcpp hlog
  rw [hg'] at hg
  simp only [Group.replaceBin.injEq] at hg
  obtain ⟨-, -, -, -, rfl⟩ := hg
  constructor
  · rintro a ⟨i, hi, hE, hmin⟩
    simp only [List.mem_cons, Prod.mk.injEq, List.not_mem_nil, or_false] at hi
    rcases hi with ⟨rfl, rfl⟩ | ⟨rfl, rfl⟩ | ⟨rfl, rfl⟩
    · rw [hsw]
      exact C16_swap s l o M dev E first i n hdev ho hcpp hlog hf hn hM t1 t2 h1 h2 hE
    · have e0 : E id = false := by
        cases h : E id
        · rfl
        · have := hmin id _ (.head _) h
          omega
      have e2 : E (id + 2) = false := by
        cases h : E (id + 2)
        · rfl
        · exact absurd ⟨e0, hE, h⟩ hnot
      exact C16_lhs s l o M dev E first id n hdev ho hcpp hlog hf hn hM t1 t2 h1 h2 e0 hE e2
    · have e0 : E id = false := by
        cases h : E id
        · rfl
        · have := hmin id _ (.head _) h
          omega
      have e1 : E (id + 1) = false := by
        cases h : E (id + 1)
        · rfl
        · have := hmin (id + 1) _ (.tail _ (.head _)) h
          omega
      exact C16_rhs s l o M dev E first id n hdev ho hcpp hlog hf hn hM t1 t2 h1 h2 e0 e1 hE
  · intro hE
    exact C16_none s l o M dev E first id n hdev ho hcpp hlog hf hn hM t1 t2 h1 h2
      (hE id _ (.head _)) (hE (id + 1) _ (.tail _ (.head _)))
      (hE (id + 2) _ (.tail _ (.tail _ (.head _))))

/-- C prelude, first id 0, 20 mutants, mutants 1 and 2 enabled. -/
theorem Sample.enabled12 (cpp : Bool) : (mutatingPrelude cpp 0 20 (some t!"1,2")).Faithful
    (PreludeOk 0 20 [1, 2]) (fun i => inList [1, 2] (0 + i)) 20 :=
  mutatingPrelude_faithful cpp 0 20 (some t!"1,2") [1, 2]
    (.inr ⟨[t!"1", t!"2"], by simp, rfl, .num ⟨[], t!"1", by simp, by simp, by decide,
      .inl ⟨rfl, rfl⟩⟩ (by decide) (by decide) (.num ⟨[], t!"2", by simp, by simp, by decide,
      .inl ⟨rfl, rfl⟩⟩ (by decide) (by decide) .nil)⟩) (by simp)

/-- `x && x` in C, with the mutants 1 (`ReplaceWithLHS`) and 2
(`ReplaceWithRHS`) enabled, is 1 even if `x` is 0: neither mutant's action is
performed. -/
theorem C15_c_logical_false :
    ∃ (s : BinSite) (dev : Device Thread) (n : Nat) (Ok : Thread → Prop) (E : Nat → Bool)
      (p : PBOp) (i1 i2 i3 : RangeInfo) (insts : List (Nat × BAct)) (c1 c2 : Comp Int Int)
      (c1' c2' : Comp (Int × Thread) Int),
      dev.Faithful Ok (fun i => E (0 + i)) n ∧
      (s.apply Sample.c Sample.opts 0 0).nextId ≤ 0 + n ∧
      (s.apply Sample.c Sample.opts 0 0).group = .replaceBin p i1 i2 i3 insts ∧
      Smallest E insts .ReplaceWithLHS ∧ Sim Ok True c1 c1' ∧ Sim Ok True c2 c2' ∧
      ¬ Sim Ok False (leftTruth (Sample.machine .c) s.op c1 c2)
          (s.exec Sample.c Sample.opts (Sample.machine .c) dev 0 c1' c2') := by
  let s := Sample.bin .land Sample.intVal Sample.intVal
  refine ⟨s, mutatingPrelude false 0 20 (some t!"1,2"), 20, _, inList [1, 2], .LAnd, _, _, _,
    [(0, .ReplaceWithLOr), (1, .ReplaceWithLHS), (2, .ReplaceWithRHS)], .lift Sample.read,
    .lift Sample.read, Sample.up Sample.read, Sample.up Sample.read, Sample.enabled12 false,
    by decide, rfl, ⟨1, by simp, rfl, ?_⟩, .lift _, .lift _, ?_⟩
  · intro j a' h1 h2
    simp only [List.mem_cons, Prod.mk.injEq, List.not_mem_nil, or_false] at h1
    rcases h1 with ⟨rfl, -⟩ | ⟨rfl, -⟩ | ⟨rfl, -⟩
    · cases h2
    · exact Nat.le_refl _
    · decide
  · refine not_sim (C16_lhs_rhs s Sample.c Sample.opts (Sample.machine .c)
      (mutatingPrelude false 0 20 (some t!"1,2")) (inList [1, 2]) 0 0 20
      (Sample.enabled12 false) rfl rfl (.inl rfl) (Nat.le_refl 0) (by decide)
      (Sample.truthLaws _ _ _ _) (Sample.hasType _ _ _) (Sample.hasType _ _ _)
      (.lift Sample.read) (.lift Sample.read) rfl rfl rfl)
      0 (Thread.start 20) (.inl rfl) 1 0 ?_ ?_
    · exact ⟨.done 0 0, rfl, .done 0 0, rfl, rfl⟩
    · rintro ⟨r1, h1, h2⟩
      cases h1
      obtain ⟨r2, h2, h3⟩ := h2
      cases h2
      cases h3

/-- The hypotheses of `C15_binary` can be met: `++x + ++x` in C++ whose mutants
1 and 2 are enabled: the first of them, multiplication, is performed. -/
example : Sim (PreludeOk 0 20 [1, 2]) True
    (((Sample.machine .cpp17).evalBin .mul (.lift Sample.inc) (.lift Sample.inc)).to
      (Sample.machine .cpp17) t!"int")
    ((Sample.bin .add Sample.intCall Sample.intCall).exec Sample.cpp Sample.opts
      (Sample.machine .cpp17) (mutatingPrelude true 0 20 (some t!"1,2")) 0
      (Sample.up Sample.inc) (Sample.up Sample.inc)) :=
  (C15_binary (insts := [(0, .ReplaceWithDiv), (1, .ReplaceWithMul), (2, .ReplaceWithRem),
      (3, .ReplaceWithSub), (4, .ReplaceWithLHS), (5, .ReplaceWithRHS)])
    (Sample.bin .add Sample.intCall Sample.intCall) Sample.cpp Sample.opts
    (Sample.machine .cpp17) _ (inList [1, 2]) 0 0 20 (Sample.enabled12 true) rfl (by decide)
    (Nat.le_refl 0) (by decide) rfl (.lift Sample.inc) (.lift Sample.inc)).1 .ReplaceWithMul
    ⟨1, by simp, rfl, by
      intro j a' h1 h2
      rcases j with _ | j
      · cases h2
      · omega⟩

/-- The hypotheses of `C15_unary` can be met. -/
example : Sim (PreludeOk 0 20 [1, 2]) True
    (((Sample.machine .cpp17).evalUn .lnot (.lift Sample.inc)).to (Sample.machine .cpp17) t!"int")
    ((Sample.un .minus Sample.intCall Sample.intCall).exec Sample.cpp Sample.opts
      (Sample.machine .cpp17) (mutatingPrelude true 0 20 (some t!"1,2")) 0
      (Sample.up Sample.inc)) :=
  (C15_unary (insts := [(0, .ReplaceWithNot), (1, .ReplaceWithLNot)])
    (Sample.un .minus Sample.intCall Sample.intCall) Sample.cpp Sample.opts
    (Sample.machine .cpp17) _ (inList [1, 2]) 0 0 20 (Sample.enabled12 true) rfl
    (Nat.le_refl 0) (by decide) rfl (.lift Sample.inc)).1 .ReplaceWithLNot
    ⟨1, by simp, rfl, by
      intro j a' h1 h2
      rcases j with _ | j
      · cases h2
      · omega⟩

/-- The hypotheses of `C15_expr` can be met. -/
example : Sim (PreludeOk 0 20 [1, 2]) True
    (((Sample.machine .cpp17).evalUn .not (.lift Sample.inc)).to (Sample.machine .cpp17) t!"int")
    ((Sample.expr Sample.intCall).exec Sample.cpp Sample.opts
      (Sample.machine .cpp17) (mutatingPrelude true 0 20 (some t!"1,2")) 0
      (Sample.up Sample.inc)) :=
  (C15_expr (insts := [(0, .InsertLNot), (1, .InsertNot), (2, .InsertMinus),
      (3, .ReplaceWithZeroInt), (4, .ReplaceWithOneInt), (5, .ReplaceWithMinusOneInt)])
    (Sample.expr Sample.intCall) Sample.cpp Sample.opts
    (Sample.machine .cpp17) _ (inList [1, 2]) 0 0 20 (Sample.enabled12 true) rfl
    (Nat.le_refl 0) (by decide) rfl (.lift Sample.inc)).1 .InsertNot
    ⟨1, by simp, rfl, by
      intro j a' h1 h2
      rcases j with _ | j
      · cases h2
      · omega⟩

end Dredd
