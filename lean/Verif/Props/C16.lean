/-
C16: C logical operators: the three mutants have the advertised truth value and
keep short-circuiting.
-/
import Verif.Proofs.CLogical
import Verif.Spec.SampleMachine

namespace Dredd

variable {S V D : Type} {Ok : D → Prop} {b : Prop}

/-- The other logical operator. -/
def BOp.swapped : BOp → BOp
  | .land => .lor
  | _ => .land

/-- The truth value of the left operand; the right operand is evaluated in the
cases in which the operator evaluates it. -/
def leftTruth (M : Machine S V) (op : BOp) (c1 c2 : Comp S V) : Comp S V :=
  Comp.bind c1 fun v1 => Comp.bind (.ofOption (M.truth v1)) fun x =>
    if x == (op == .lor) then .pure (M.ofBool x) else Comp.bind c2 fun _ => .pure (M.ofBool x)

/-- The truth value of the right operand, after evaluating the left one. -/
def rightTruth (M : Machine S V) (c1 c2 : Comp S V) : Comp S V :=
  Comp.bind c1 fun _ => Comp.bind c2 fun v2 => Comp.bind (.ofOption (M.truth v2)) fun x =>
    .pure (M.ofBool x)

/-- The group of a C logical operator reports three mutants: the other operator,
the left operand, the right operand. -/
theorem C16_reported (s : BinSite) (l : Lang) (o : Options) (first id : Nat)
    (hcpp : l.cpp = false) (hlog : s.op = .land ∨ s.op = .lor) :
    ∃ p i1 i2 i3 a, (s.apply l o first id).group = .replaceBin p i1 i2 i3
        [(id, a), (id + 1, .ReplaceWithLHS), (id + 2, .ReplaceWithRHS)] ∧
      a.change = .op s.op.swapped := by
  have hl : s.op.isLogical = true := by rcases hlog with h | h <;> rw [h] <;> rfl
  refine ⟨s.op.proto, s.info, s.lhsInfo, s.rhsInfo,
    if s.op == .land then .ReplaceWithLOr else .ReplaceWithLAnd, ?_, ?_⟩
  · simp only [BinSite.apply, hcpp, hl, Bool.not_false, Bool.and_self, if_true,
      BinSite.applyCLogical, GenSt.inst]
    rfl
  · rcases hlog with h | h <;> rw [h] <;> rfl

theorem run_lnot (M : Machine S V) (ty : Text) (c : Comp S V) :
    (Comp.bind c fun v => (RetE.un .lnot).run M ty (args1 (.pure v))) = (M.evalUn .lnot c).to M ty := by
  simp [RetE.run, RetE.eval, args1, Machine.evalUn, Comp.to, Comp.bind_assoc]

theorem run_arg (M : Machine S V) (ty : Text) (c : Comp S V) :
    (Comp.bind c fun v => (RetE.arg .arg).run M ty (args1 (.pure v))) = c.to M ty := by
  simp [RetE.run, RetE.eval, args1, Comp.to]

theorem run_lit (M : Machine S V) (ty : Text) (c : Comp S V) (l : Lit) :
    (Comp.bind c fun v => (RetE.lit l).run M ty (args1 (.pure v)))
      = Comp.bind c fun _ => (Comp.pure (M.lit l)).to M ty := rfl

/-- The truth value of `a && b` or `a || b`. -/
theorem truthOf_logical (M : Machine S V) (hM : ∀ x, M.truth (M.ofBool x) = some x) (op : BOp)
    (c1 c2 : Comp S V) :
    M.truthOf (M.logical op c1 c2) = Comp.bind (M.truthOf c1) fun b1 =>
      if b1 == (op == .lor) then .pure b1 else M.truthOf c2 := by
  rw [logical_truthOf]
  rw [Machine.truthOf.eq_def _ (Comp.bind _ _), Comp.bind_assoc]
  congr 1
  funext b1
  split
  · simp [hM, Comp.ofOption]
  · simp [Comp.bind_assoc, hM, Comp.ofOption]

/-- What the three nested calls do, for all eight sets of enabled mutants. -/
theorem cLogical_meaning (M : Machine S V) (op : BOp) (hlog : op = .land ∨ op = .lor)
    (lhsTy rhsTy resTy : Text) (hM : M.TruthLaws lhsTy rhsTy resTy) (c1 c2 : Comp S V)
    (t1 : c1.HasType M lhsTy) (t2 : c2.HasType M rhsTy) (x0 x1 x2 : Bool) :
    Comp.bind
      (M.logical op
        (Comp.bind c1 fun v => (if x0 = true then RetE.un UOp.lnot
          else if x2 = true then RetE.lit (if (op == BOp.land) = true then Lit.one else Lit.zero)
          else RetE.arg Arg.arg).run M lhsTy (args1 (.pure v)))
        (Comp.bind c2 fun v => (if x0 = true then RetE.un UOp.lnot
          else if x1 = true then RetE.lit (if (op == BOp.land) = true then Lit.one else Lit.zero)
          else RetE.arg Arg.arg).run M rhsTy (args1 (.pure v))))
      (fun v => (if x0 = true then RetE.un UOp.lnot else RetE.arg Arg.arg).run M
        resTy (args1 (.pure v)))
    = (if x0 then M.logical op.swapped c1 c2
       else if x1 then
         if x2 then Comp.bind c1 fun _ => Comp.bind c2 fun _ => .pure (M.ofBool (op == .land))
         else leftTruth M op c1 c2
       else if x2 then rightTruth M c1 c2
       else M.logical op c1 c2) := by
  have hty : ∀ (c1 c2 : Comp S V), (M.logical op c1 c2).HasType M resTy := by
    intro c1 c2
    have h := evalBin_hasType (M := M) (op := op) (ty := resTy) (c1 := c1) (c2 := c2)
      ⟨fun h => by (rcases hlog with h' | h' <;> rw [h'] at h <;> cases h), fun _ => hM.res⟩
      (by rcases hlog with h' | h' <;> rw [h'] <;> decide)
    have hl : op.isLogical = true := by rcases hlog with h' | h' <;> rw [h'] <;> rfl
    simpa [Machine.evalBin, hl] using h
  have hb : ∀ ty, ty = lhsTy ∨ ty = rhsTy → ∀ x s,
      ∃ v', M.conv ty (M.ofBool x) s = some (v', s) ∧ M.truth v' = some x := by
    intro ty h x s
    obtain ⟨v', h1, h2⟩ := hM.conv ty h _ (.inl ⟨x, rfl⟩) s
    exact ⟨v', h1, h2.trans (hM.bool x)⟩
  have hlit : ∀ ty, ty = lhsTy ∨ ty = rhsTy → ∀ s,
      ∃ v', M.conv ty (M.lit (if (op == BOp.land) = true then Lit.one else Lit.zero)) s
        = some (v', s) ∧ M.truth v' = some (op == .land) := by
    intro ty h s
    rcases hlog with rfl | rfl
    · obtain ⟨v', h1, h2⟩ := hM.conv ty h _ (.inr (.inr rfl)) s
      exact ⟨v', h1, h2.trans hM.one⟩
    · obtain ⟨v', h1, h2⟩ := hM.conv ty h _ (.inr (.inl rfl)) s
      exact ⟨v', h1, h2.trans hM.zero⟩
  cases x0
  · simp only [Bool.false_eq_true, if_false, run_arg]
    rw [Comp.to_eq M resTy _ (hty _ _), logical_truthOf]
    cases x1 <;> cases x2
    · simp only [Bool.false_eq_true, if_false, run_arg]
      rw [truthOf_conv M lhsTy c1 t1, truthOf_conv M rhsTy c2 t2, logical_truthOf]
    · simp only [Bool.false_eq_true, if_false, if_true, run_arg, run_lit]
      rw [truthOf_lit M lhsTy c1 _ _ (hlit _ (.inl rfl)), truthOf_conv M rhsTy c2 t2]
      simp only [rightTruth, Comp.bind_assoc, Comp.pure_bind, Machine.truthOf]
      rcases hlog with rfl | rfl <;> rfl
    · simp only [Bool.false_eq_true, if_false, if_true, run_arg, run_lit]
      rw [truthOf_lit M rhsTy c2 _ _ (hlit _ (.inr rfl)), truthOf_conv M lhsTy c1 t1]
      simp only [leftTruth, Comp.bind_assoc, Comp.pure_bind, Machine.truthOf]
      congr 1; funext v1; congr 1; funext x
      rcases hlog with rfl | rfl <;> cases x <;> rfl
    · simp only [if_true, run_lit]
      rw [truthOf_lit M rhsTy c2 _ _ (hlit _ (.inr rfl)),
        truthOf_lit M lhsTy c1 _ _ (hlit _ (.inl rfl))]
      simp only [Comp.bind_assoc, Comp.pure_bind]
      rcases hlog with rfl | rfl <;> rfl
  · simp only [if_true, run_lnot]
    have e : ∀ c : Comp S V, (M.evalUn .lnot c).to M resTy
        = Comp.bind (M.truthOf c) fun x => .pure (M.ofBool !x) := by
      intro c
      rw [Comp.to_eq M resTy _ (evalUn_hasType ⟨fun h => absurd rfl h, fun _ => hM.res⟩),
        lnot_truthOf]
    rw [e, truthOf_logical M hM.bool, truthOf_lnot M lhsTy c1 (hb _ (.inl rfl)),
      truthOf_lnot M rhsTy c2 (hb _ (.inr rfl)), logical_truthOf]
    simp only [Comp.bind_assoc, Comp.pure_bind]
    congr 1; funext x
    rcases hlog with rfl | rfl <;> cases x <;>
      simp [BOp.swapped, Comp.bind_assoc]

theorem cLogical_all (s : BinSite) (l : Lang) (o : Options) (M : Machine S V) (dev : Device D)
    (E : Nat → Bool) (first id n : Nat) (hdev : dev.Faithful Ok (fun i => E (first + i)) n)
    (ho : o.track = false) (hcpp : l.cpp = false) (hlog : s.op = .land ∨ s.op = .lor)
    (hf : first ≤ id) (hn : (s.apply l o first id).nextId ≤ first + n)
    (hM : M.TruthLaws (s.lhs.ty.name l) (s.rhs.ty.name l) (s.resTy.name l))
    {c1 c2 : Comp S V} {c1' c2' : Comp (S × D) V}
    (t1 : c1.HasType M (s.lhs.ty.name l)) (t2 : c2.HasType M (s.rhs.ty.name l))
    (h1 : Sim Ok b c1 c1') (h2 : Sim Ok b c2 c2') :
    Sim Ok b
      (if E id then M.logical s.op.swapped c1 c2
       else if E (id + 1) then
         if E (id + 2) then
           Comp.bind c1 fun _ => Comp.bind c2 fun _ => .pure (M.ofBool (s.op == .land))
         else leftTruth M s.op c1 c2
       else if E (id + 2) then rightTruth M c1 c2
       else M.logical s.op c1 c2)
      (s.exec l o M dev (id - first) c1' c2') := by
  have hl : s.op.isLogical = true := by rcases hlog with h | h <;> rw [h] <;> rfl
  have hn' : id + 3 ≤ first + n := by
    simpa [BinSite.apply, hcpp, hl, BinSite.applyCLogical] using hn
  have h := cLogical_sim s l o (M := M) hdev ho hcpp hl (id - first) (by omega) h1 h2
  have e0 : first + (id - first) = id := by omega
  have e1 : first + (id - first + 1) = id + 1 := by omega
  have e2 : first + (id - first + 2) = id + 2 := by omega
  simp only [e0, e1, e2] at h
  rw [cLogical_meaning M s.op hlog _ _ _ hM c1 c2 t1 t2] at h
  exact h

section

variable (s : BinSite) (l : Lang) (o : Options) (M : Machine S V) (dev : Device D)
    (E : Nat → Bool) (first id n : Nat) (hdev : dev.Faithful Ok (fun i => E (first + i)) n)
    (ho : o.track = false) (hcpp : l.cpp = false) (hlog : s.op = .land ∨ s.op = .lor)
    (hf : first ≤ id) (hn : (s.apply l o first id).nextId ≤ first + n)
    (hM : M.TruthLaws (s.lhs.ty.name l) (s.rhs.ty.name l) (s.resTy.name l))
    {c1 c2 : Comp S V} {c1' c2' : Comp (S × D) V}
    (t1 : c1.HasType M (s.lhs.ty.name l)) (t2 : c2.HasType M (s.rhs.ty.name l))
    (h1 : Sim Ok b c1 c1') (h2 : Sim Ok b c2 c2')

include hdev ho hcpp hlog hf hn hM t1 t2 h1 h2

/-- No mutant enabled: exactly the behaviours of the original. -/
theorem C16_none (e0 : E id = false) (e1 : E (id + 1) = false) (e2 : E (id + 2) = false) :
    Sim Ok b (M.evalBin s.op c1 c2) (s.exec l o M dev (id - first) c1' c2') := by
  have h := cLogical_all s l o M dev E first id n hdev ho hcpp hlog hf hn hM t1 t2 h1 h2
  have hl : s.op.isLogical = true := by rcases hlog with h | h <;> rw [h] <;> rfl
  simpa [e0, e1, e2, Machine.evalBin, hl] using h

/-- The first mutant enabled (whatever the others): exactly the behaviours of
the other operator, which evaluates the right operand in other cases. -/
theorem C16_swap (e0 : E id = true) :
    Sim Ok b (M.evalBin s.op.swapped c1 c2) (s.exec l o M dev (id - first) c1' c2') := by
  have h := cLogical_all s l o M dev E first id n hdev ho hcpp hlog hf hn hM t1 t2 h1 h2
  have hl : s.op.swapped.isLogical = true := by rcases hlog with h | h <;> rw [h] <;> rfl
  simpa [e0, Machine.evalBin, hl] using h

/-- Only the second mutant enabled: the truth value of the left operand. -/
theorem C16_lhs (e0 : E id = false) (e1 : E (id + 1) = true) (e2 : E (id + 2) = false) :
    Sim Ok b (leftTruth M s.op c1 c2) (s.exec l o M dev (id - first) c1' c2') := by
  have h := cLogical_all s l o M dev E first id n hdev ho hcpp hlog hf hn hM t1 t2 h1 h2
  simpa [e0, e1, e2] using h

/-- Only the third mutant enabled: the truth value of the right operand. -/
theorem C16_rhs (e0 : E id = false) (e1 : E (id + 1) = false) (e2 : E (id + 2) = true) :
    Sim Ok b (rightTruth M c1 c2) (s.exec l o M dev (id - first) c1' c2') := by
  have h := cLogical_all s l o M dev E first id n hdev ho hcpp hlog hf hn hM t1 t2 h1 h2
  simpa [e0, e1, e2] using h

/-- Outside C16 (several mutants enabled): the second and the third together
give a constant. -/
theorem C16_lhs_rhs (e0 : E id = false) (e1 : E (id + 1) = true) (e2 : E (id + 2) = true) :
    Sim Ok b (Comp.bind c1 fun _ => Comp.bind c2 fun _ => .pure (M.ofBool (s.op == .land)))
      (s.exec l o M dev (id - first) c1' c2') := by
  have h := cLogical_all s l o M dev E first id n hdev ho hcpp hlog hf hn hM t1 t2 h1 h2
  simpa [e0, e1, e2] using h

end

/-- The sample machine satisfies the laws. -/
theorem Sample.truthLaws (std : Std) (t1 t2 t3 : Text) :
    (Sample.machine std).TruthLaws t1 t2 t3 where
  zero := rfl
  one := rfl
  bool x := by cases x <;> rfl
  conv _ _ v _ s := ⟨v, rfl, rfl⟩
  res _ _ := rfl

theorem Sample.hasType (std : Std) (t : Text) (c : Comp Int Int) :
    c.HasType (Sample.machine std) t := fun _ _ _ _ => rfl

/-- C prelude, first id 10, 20 mutants, only mutant 13 (local id 3) enabled. -/
theorem Sample.enabled13 : (mutatingPrelude false 10 20 (some t!"13")).Faithful
    (PreludeOk 10 20 [13]) (fun i => inList [13] (10 + i)) 20 :=
  mutatingPrelude_faithful false 10 20 (some t!"13") [13]
    (.inr ⟨[t!"13"], by simp, rfl, .num ⟨[], t!"13", by simp, by simp, by decide,
      .inl ⟨rfl, rfl⟩⟩ (by decide) (by decide) .nil⟩) (by simp)

/-- The hypotheses can be met: `++x && x` in C with the swap, left and right
mutants. -/
example : Sim (PreludeOk 10 20 [13]) True
    ((Sample.machine .c).evalBin .lor (.lift Sample.inc) (.lift Sample.read))
    ((Sample.bin .land Sample.intCall Sample.intVal).exec Sample.c Sample.opts (Sample.machine .c)
      (mutatingPrelude false 10 20 (some t!"13")) 3 (Sample.up Sample.inc) (Sample.up Sample.read)) :=
  C16_swap (Sample.bin .land Sample.intCall Sample.intVal) Sample.c Sample.opts _ _ _ 10 13 20 Sample.enabled13 rfl rfl
    (.inl rfl) (by decide) (by decide)
    (Sample.truthLaws _ _ _ _) (Sample.hasType _ _ _) (Sample.hasType _ _ _) (.lift _) (.lift _) rfl

example : Sim (PreludeOk 10 20 [13]) True
    (leftTruth (Sample.machine .c) .land (.lift Sample.inc) (.lift Sample.read))
    ((Sample.bin .land Sample.intCall Sample.intVal).exec Sample.c Sample.opts (Sample.machine .c)
      (mutatingPrelude false 10 20 (some t!"13")) 2 (Sample.up Sample.inc) (Sample.up Sample.read)) :=
  C16_lhs (Sample.bin .land Sample.intCall Sample.intVal) Sample.c Sample.opts _ _ _ 10 12 20 Sample.enabled13 rfl rfl
    (.inl rfl) (by decide) (by decide)
    (Sample.truthLaws _ _ _ _) (Sample.hasType _ _ _) (Sample.hasType _ _ _) (.lift _) (.lift _)
    rfl rfl rfl

example : Sim (PreludeOk 10 20 [13]) True
    (rightTruth (Sample.machine .c) (.lift Sample.inc) (.lift Sample.read))
    ((Sample.bin .land Sample.intCall Sample.intVal).exec Sample.c Sample.opts (Sample.machine .c)
      (mutatingPrelude false 10 20 (some t!"13")) 1 (Sample.up Sample.inc) (Sample.up Sample.read)) :=
  C16_rhs (Sample.bin .land Sample.intCall Sample.intVal) Sample.c Sample.opts _ _ _ 10 11 20 Sample.enabled13 rfl rfl
    (.inl rfl) (by decide) (by decide)
    (Sample.truthLaws _ _ _ _) (Sample.hasType _ _ _) (Sample.hasType _ _ _) (.lift _) (.lift _)
    rfl rfl rfl

example : Sim (PreludeOk 10 20 [13]) True
    ((Sample.machine .c).evalBin .land (.lift Sample.inc) (.lift Sample.read))
    ((Sample.bin .land Sample.intCall Sample.intVal).exec Sample.c Sample.opts (Sample.machine .c)
      (mutatingPrelude false 10 20 (some t!"13")) 4 (Sample.up Sample.inc) (Sample.up Sample.read)) :=
  C16_none (Sample.bin .land Sample.intCall Sample.intVal) Sample.c Sample.opts _ _ _ 10 14 20 Sample.enabled13 rfl rfl
    (.inl rfl) (by decide) (by decide)
    (Sample.truthLaws _ _ _ _) (Sample.hasType _ _ _) (Sample.hasType _ _ _) (.lift _) (.lift _)
    rfl rfl rfl

end Dredd
