/-
What the generated functions of each kind of site do.  Helper lemmas for
C13-C17, C19 and C42.
-/
import Verif.Proofs.Exec

namespace Dredd

variable {S V D : Type} {Ok : D → Prop} {b : Prop}

theorem BOp.change_action (op : BOp) (h : op.action? ≠ none) : op.action.change = .op op := by
  cases op <;> first | rfl | exact absurd rfl h

theorem UOp.change_action (op : UOp) (h : op.action? ≠ none) : op.action.change = .op op := by
  cases op <;> first | rfl | exact absurd rfl h

theorem BinSite.mem_replacements {s : BinSite} {opt : Bool} {op : BOp}
    (h : op ∈ s.replacements opt) : op.action? ≠ none ∧ op ≠ s.op := by
  unfold BinSite.replacements at h
  rw [List.mem_filter] at h
  constructor
  · have h1 : op ∈ s.candidates := h.1
    unfold BinSite.candidates at h1
    split at h1
    · simp at h1
    · rename_i fam hf
      have hm := List.mem_of_find?_eq_some hf
      simp only [List.mem_append] at h1
      rcases h1 with (h1 | h1) | h1
      · simp only [opFamilies, List.mem_cons, List.not_mem_nil, or_false] at hm
        rcases hm with rfl | rfl | rfl | rfl | rfl | rfl <;>
          (simp only [List.mem_cons, List.not_mem_nil, or_false] at h1) <;>
          (rcases h1 with rfl | rfl | rfl | rfl | rfl | rfl | rfl | rfl | rfl | rfl | rfl) <;>
          simp [BOp.action?]
      · split at h1
        · simp only [List.mem_cons, List.not_mem_nil, or_false] at h1
          rcases h1 with rfl | rfl <;> simp [BOp.action?]
        · simp at h1
      · split at h1
        · simp only [List.mem_cons, List.not_mem_nil, or_false] at h1
          rcases h1 with rfl | rfl <;> simp [BOp.action?]
        · simp at h1
  · rintro rfl
    simp at h

theorem UnSite.mem_replacements {s : UnSite} {opt : Bool} {op : UOp}
    (h : op ∈ s.replacements opt) : op.action? ≠ none ∧ op ≠ s.op := by
  unfold UnSite.replacements at h
  rw [List.mem_filter] at h
  constructor
  · have h1 := h.1
    simp only [unaryCandidates, List.mem_cons, List.not_mem_nil, or_false] at h1
    rcases h1 with rfl | rfl | rfl | rfl | rfl | rfl | rfl <;> simp [UOp.action?]
  · rintro rfl
    simp at h

/-- Each clause computes what its action says. -/
theorem BinSite.clause_eval {s : BinSite} {opt : Bool} {e : RetE} {x : BAct}
    (h : (e, x) ∈ s.clauses opt) (M : Machine S V) (c1 c2 : Comp S V) :
    e.eval M (args2 c1 c2) = x.change.eval M c1 c2 := by
  unfold BinSite.clauses at h
  rw [List.mem_append] at h
  rcases h with h | h
  · obtain ⟨op, hop, he⟩ := List.mem_map.1 h
    simp only [Prod.mk.injEq] at he
    obtain ⟨rfl, rfl⟩ := he
    rw [BOp.change_action op (BinSite.mem_replacements hop).1]
    rfl
  · unfold BinSite.argClauses at h
    split at h
    · simp at h
    split at h
    · simp at h
    · rw [List.mem_append] at h
      rcases h with h | h <;> split at h <;>
        simp only [List.mem_singleton, List.not_mem_nil, Prod.mk.injEq] at h <;>
        obtain ⟨rfl, rfl⟩ := h <;> rfl

theorem UnSite.clause_eval {s : UnSite} {opt : Bool} {e : RetE} {x : UAct}
    (h : (e, x) ∈ s.clauses opt) (M : Machine S V) (c : Comp S V) :
    e.eval M (args1 c) = x.change.eval M c := by
  unfold UnSite.clauses at h
  rw [List.mem_append] at h
  rcases h with h | h
  · obtain ⟨op, hop, he⟩ := List.mem_map.1 h
    simp only [Prod.mk.injEq] at he
    obtain ⟨rfl, rfl⟩ := he
    rw [UOp.change_action op (UnSite.mem_replacements hop).1]
    rfl
  · split at h <;> simp only [List.mem_singleton, List.not_mem_nil, Prod.mk.injEq] at h
    obtain ⟨rfl, rfl⟩ := h
    rfl

theorem mem_ite_singleton {α : Type} {c : Prop} [Decidable c] {x y : α}
    (h : x ∈ (if c then [y] else [])) : x = y := by
  split at h
  · simpa using h
  · simp at h

theorem ExprSite.clause_eval {s : ExprSite} {l : Lang} {opt : Bool} {e : RetE} {x : EAct}
    (h : (e, x) ∈ s.clauses l opt) (M : Machine S V) (c : Comp S V) :
    e.eval M (args1 c) = (x.change l.cpp).eval M c := by
  unfold ExprSite.clauses at h
  simp only [List.mem_append] at h
  rcases h with (h | h) | h
  · split at h
    · simp at h
    · simp only [List.mem_cons, List.not_mem_nil, or_false, Prod.mk.injEq] at h
      rcases h with ⟨rfl, rfl⟩ | ⟨rfl, rfl⟩ <;> rfl
  · split at h
    · simp at h
    · simp only [List.mem_append] at h
      rcases h with (h | h) | h <;> have h := mem_ite_singleton h <;>
        simp only [Prod.mk.injEq] at h <;> obtain ⟨rfl, rfl⟩ := h <;> rfl
  · split at h
    · simp at h
    · simp only [List.mem_append] at h
      rcases h with ((((((h | h) | h) | h) | h) | h) | h) | h <;> have h := mem_ite_singleton h <;>
        simp only [Prod.mk.injEq] at h <;> obtain ⟨rfl, rfl⟩ := h <;> rfl

theorem BinSite.withArgs_modes (s : BinSite) (l : Lang) (o : Options) (id : Nat) {α : Type}
    (c1 c2 : Comp S V) (k : Comp S V → Comp S V → Comp S α) :
    withArgs ((s.genFn l o id).mode .arg1) ((s.genFn l o id).mode .arg2) c1 c2 k
      = prepare2 (l.cpp && s.lhs.sideEffects) (l.cpp && (s.op.isLogical || s.rhs.sideEffects))
          c1 c2 k := by
  have h1 : (s.genFn l o id).mode .arg1 = s.mode1 l := rfl
  have h2 : (s.genFn l o id).mode .arg2 = s.mode2 l := rfl
  rw [h1, h2]
  unfold BinSite.mode1 BinSite.mode2
  cases l.cpp <;> cases s.lhs.sideEffects <;> cases s.rhs.sideEffects <;>
    cases s.op.isLogical <;> cases s.op.isAssign <;> rfl

theorem UnSite.withArg_mode (s : UnSite) (l : Lang) (o : Options) (id : Nat) {α : Type}
    (c : Comp S V) (k : Comp S V → Comp S α) :
    withArg ((s.genFn l o id).mode .arg) c k = prepare1 (l.cpp && s.self.sideEffects) c k := by
  have h1 : (s.genFn l o id).mode .arg = s.mode l := rfl
  rw [h1]
  unfold UnSite.mode
  cases l.cpp <;> cases s.self.sideEffects <;> cases s.op.isIncDec <;> rfl

theorem ExprSite.withArg_mode (s : ExprSite) (l : Lang) (o : Options) (id : Nat) {α : Type}
    (c : Comp S V) (k : Comp S V → Comp S α) :
    withArg ((s.genFn l o id).mode .arg) c k = prepare1 (l.cpp && s.self.sideEffects) c k := by
  have h1 : (s.genFn l o id).mode .arg = s.mode l := rfl
  rw [h1]
  unfold ExprSite.mode
  cases l.cpp <;> cases s.self.sideEffects <;> cases s.self.lvalue <;> rfl

theorem BinSite.genFn_lines (s : BinSite) (l : Lang) (o : Options) (id : Nat) :
    (s.genFn l o id).lines =
      if o.track then [.record (s.clauses o.optimise).length, .ret (.bin s.op)]
      else .quick (.bin s.op) :: (guardsFrom 0 (s.clauses o.optimise) ++ [.ret (.bin s.op)]) := by
  simp only [BinSite.genFn, BinSite.genBody_eq, runClauses_eq]
  cases o.track <;> simp

theorem UnSite.genFn_lines (s : UnSite) (l : Lang) (o : Options) (id : Nat) :
    (s.genFn l o id).lines =
      if o.track then [.record (s.clauses o.optimise).length, .ret (.un s.op)]
      else .quick (.un s.op) :: (guardsFrom 0 (s.clauses o.optimise) ++ [.ret (.un s.op)]) := by
  simp only [UnSite.genFn, UnSite.genBody_eq, runClauses_eq]
  cases o.track <;> simp

theorem ExprSite.genFn_lines (s : ExprSite) (l : Lang) (o : Options) (id : Nat) :
    (s.genFn l o id).lines =
      if o.track then [.record (s.clauses l o.optimise).length, .ret (.arg .arg)]
      else .quick (.arg .arg) :: (guardsFrom 0 (s.clauses l o.optimise) ++ [.ret (.arg .arg)]) := by
  simp only [ExprSite.genFn, ExprSite.genBody_eq, runClauses_eq]
  cases o.track <;> simp

theorem Sim.args2 {c1 c2 : Comp S V} {c1' c2' : Comp (S × D) V}
    (h1 : Sim Ok b c1 c1') (h2 : Sim Ok b c2 c2') (x : Arg) :
    Sim Ok b (args2 c1 c2 x) (args2 c1' c2' x) := by
  cases x
  · exact .ub
  · exact h1
  · exact h2

theorem Sim.args1 {c : Comp S V} {c' : Comp (S × D) V} (h : Sim Ok b c c') (x : Arg) :
    Sim Ok b (args1 c x) (args1 c' x) := by
  cases x
  · exact h
  · exact .ub
  · exact .ub

/-- The expression that a call of a site's function evaluates. -/
theorem BinSite.exec_sim (s : BinSite) (l : Lang) (o : Options) {M : Machine S V}
    {dev : Device D} {en : Nat → Bool} {n : Nat} (hd : dev.Faithful Ok en n)
    (ho : o.track = false) (id : Nat) (hn : id + (s.clauses o.optimise).length ≤ n)
    {c1 c2 : Comp S V} {c1' c2' : Comp (S × D) V} (h1 : Sim Ok b c1 c1') (h2 : Sim Ok b c2 c2') :
    Sim Ok b
      (prepare2 (l.cpp && s.lhs.sideEffects) (l.cpp && (s.op.isLogical || s.rhs.sideEffects)) c1 c2
        fun a1 a2 =>
          ((picked en id (s.clauses o.optimise) (.bin s.op)).eval M
            (Dredd.args2 a1 a2)).to M (s.resTyText l))
      ((s.genFn l o id).call2 M dev id c1' c2') := by
  unfold MutFn.call2
  rw [← BinSite.withArgs_modes s l o id]
  refine Sim.withArgs _ _ h1 h2 fun x y x' y' hx hy => ?_
  rw [BinSite.genFn_lines, ho]
  exact runLines_mutating hd _ (Sim.args2 hx hy) id _ _ hn

theorem UnSite.exec_sim (s : UnSite) (l : Lang) (o : Options) {M : Machine S V}
    {dev : Device D} {en : Nat → Bool} {n : Nat} (hd : dev.Faithful Ok en n)
    (ho : o.track = false) (id : Nat) (hn : id + (s.clauses o.optimise).length ≤ n)
    {c : Comp S V} {c' : Comp (S × D) V} (h : Sim Ok b c c') :
    Sim Ok b
      (prepare1 (l.cpp && s.self.sideEffects) c fun a =>
          ((picked en id (s.clauses o.optimise) (.un s.op)).eval M
            (Dredd.args1 a)).to M (s.resTyText l))
      ((s.genFn l o id).call1 M dev id c') := by
  unfold MutFn.call1
  rw [← UnSite.withArg_mode s l o id]
  refine Sim.withArg _ h fun x x' hx => ?_
  rw [UnSite.genFn_lines, ho]
  exact runLines_mutating hd _ (Sim.args1 hx) id _ _ hn

theorem ExprSite.exec_sim (s : ExprSite) (l : Lang) (o : Options) {M : Machine S V}
    {dev : Device D} {en : Nat → Bool} {n : Nat} (hd : dev.Faithful Ok en n)
    (ho : o.track = false) (id : Nat) (hn : id + (s.clauses l o.optimise).length ≤ n)
    {c : Comp S V} {c' : Comp (S × D) V} (h : Sim Ok b c c') :
    Sim Ok b
      (prepare1 (l.cpp && s.self.sideEffects) c fun a =>
          ((picked en id (s.clauses l o.optimise) (.arg .arg)).eval M
            (Dredd.args1 a)).to M (s.self.ty.name l))
      ((s.genFn l o id).call1 M dev id c') := by
  unfold MutFn.call1
  rw [← ExprSite.withArg_mode s l o id]
  refine Sim.withArg _ h fun x x' hx => ?_
  rw [ExprSite.genFn_lines, ho]
  exact runLines_mutating hd _ (Sim.args1 hx) id _ _ hn

end Dredd
