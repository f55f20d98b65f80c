/-
C67: a mutant that a tracking run does not record makes no difference to that run.

The tracking build writes the ids of the mutants that a run reaches to a file; users
skip the mutants that are not in it.
-/
import Verif.Sem.Cov
import Verif.Sem.Devices
import Verif.Props.C18

namespace Dredd

variable {S V D : Type} {Ok G : D → Prop}

/-- The recorder: afterwards no enabled mutant is recorded only if none was before and none of the
`size k` mutants of point `k` is enabled. -/
def Device.Notes (dev : Device D) (Ok G : D → Prop) (E : Nat → Bool) (first : Nat)
    (size : Nat → Nat) : Prop :=
  ∀ k d d', Ok d → dev.record k (size k) d = some ((), d') →
    Ok d' ∧ (G d' → G d ∧ ∀ i, i < size k → E (first + k + i) = false)

theorem Cov.selected {α : Type} {E : Nat → Bool} {insts : List (Nat × α)} {f : α → Comp S V}
    {c : Comp S V} {c' : Comp (S × D) V} (h1 : ∀ a, Smallest E insts a → Cov Ok G (f a) c')
    (h2 : NoneEnabled E insts → Cov Ok G c c') :
    Cov Ok G (Dredd.selected E insts f c) c' := by
  rcases smallest_or_none E insts with ⟨a, ha⟩ | hn
  · exact
      { done := fun s d hd x p hr =>
          have h := (h1 a ha).done s d hd x p hr
          ⟨h.1, fun g => ⟨(h.2 g).1, .inl ⟨a, ha, (h.2 g).2⟩⟩⟩
        stop := fun s d hd p hr =>
          have h := (h1 a ha).stop s d hd p hr
          ⟨h.1, fun g => ⟨(h.2 g).1, .inl ⟨a, ha, (h.2 g).2⟩⟩⟩ }
  · exact
      { done := fun s d hd x p hr =>
          have h := (h2 hn).done s d hd x p hr
          ⟨h.1, fun g => ⟨(h.2 g).1, .inr ⟨hn, (h.2 g).2⟩⟩⟩
        stop := fun s d hd p hr =>
          have h := (h2 hn).stop s d hd p hr
          ⟨h.1, fun g => ⟨(h.2 g).1, .inr ⟨hn, (h.2 g).2⟩⟩⟩ }

theorem mem_instsFrom {α : Type} {k : Nat} {cs : List (RetE × α)} {i : Nat} {a : α}
    (h : (i, a) ∈ instsFrom k cs) : k ≤ i ∧ i < k + cs.length := by
  induction cs generalizing k with
  | nil => simp [instsFrom] at h
  | cons c cs ih =>
    simp only [instsFrom, List.mem_cons, Prod.mk.injEq] at h
    rcases h with ⟨rfl, -⟩ | h
    · simp
    · have := ih h
      simp only [List.length_cons]
      omega

/-- The lines of a tracking build.  `c` is what the mutant does. -/
theorem runLines_cov {M : Machine S V} {dev : Device D} {E : Nat → Bool} {first : Nat}
    {size : Nat → Nat} (hd : dev.Notes Ok G E first size) (ty : Text) {a : Arg → Comp S V}
    {a' : Arg → Comp (S × D) V} (ha : ∀ x, Cov Ok G (a x) (a' x)) (id : Nat) (q : RetE) (k : Nat)
    (hk : k = size id) (c : Comp S V)
    (hc : (∀ i, i < k → E (first + id + i) = false) → q.run M ty a = c) :
    Cov Ok G c (runLines M dev ty a' id [.record k, .ret q]) := by
  subst hk
  simp only [runLines]
  exact Cov.record _ (hd id) ((Cov.congr S Ok G).retRun ty q ha) hc

theorem smallest_not_none {α : Type} {E : Nat → Bool} {first id : Nat} (hf : first ≤ id)
    {cs : List (RetE × α)} {a : α} (h : Smallest E (instsFrom id cs) a)
    (hn : ∀ i, i < cs.length → E (first + (id - first) + i) = false) : False := by
  obtain ⟨i, hi, hE, -⟩ := h
  have := mem_instsFrom hi
  have h' := hn (i - id) (by omega)
  rw [show first + (id - first) + (i - id) = i by omega, hE] at h'
  cases h'

/-- What C67 needs of the instrumentation points.  `size k` is the number of mutants of the point whose
first id is the `k`-th of the file.  In C the right operand of a logical operator returns. -/
def coverSites (l : Lang) (o : Options) (M : Machine S V) (first : Nat) (size : Nat → Nat)
    (K : Interp S S V) (P : Prog S V) : Sites S V where
  bin s id x y := first ≤ id ∧ (s.apply l o first id).nextId = id + size (id - first) ∧
    logicalTyped l M K P s x y ∧
    (l.cpp = false → s.op.isLogical = true → ∀ k t t', ¬ y.eval K (P.call K k) t (.stop t'))
  un s id _ := first ≤ id ∧ (s.apply l o first id).nextId = id + size (id - first)
  expr s id _ := first ≤ id ∧ (s.apply l o first id).nextId = id + size (id - first)
  load s id _ := first ≤ id ∧ (s.apply l o first id).nextId = id + size (id - first)
  stmt id := first ≤ id ∧ size (id - first) = 1

theorem cLogical_cov (s : BinSite) (l : Lang) (o : Options) {M : Machine S V} {dev : Device D}
    {E : Nat → Bool} {first : Nat} {size : Nat → Nat} (hd : dev.Notes Ok G E first size)
    (ho : o.track = true) (hcpp : l.cpp = false) (hlog : s.op.isLogical = true) (id : Nat)
    (hf : first ≤ id) (hn : size (id - first) = 3)
    {c1 c2 : Comp S V} {c1' c2' : Comp (S × D) V}
    (hty : M.ResultType s.op (s.resTy.name l) c1 c2) (h1 : Cov Ok G c1 c1') (h2 : Cov Ok G c2 c2')
    (hs : ∀ t t', ¬ c2 t (.stop t')) :
    Cov Ok G (mutantLogical M E s.op id c1 c2) (s.exec l o M dev (id - first) c1' c2') := by
  have hev : ∀ (x y : Comp S V), M.evalBin s.op x y = M.logical s.op x y := by
    intro x y
    simp [Machine.evalBin, hlog]
  have hI := (Cov.congr S Ok G).evalBin (M := M) s.op h1 h2
  have hc : s.op ≠ .comma := by rintro h; rw [h] at hlog; cases hlog
  have e : M.logical s.op c1 c2 = Comp.bind (M.logical s.op c1 c2)
      fun v => (RetE.arg .arg).run M (s.resTy.name l) (args1 (.pure v)) := by
    rw [run_arg, Comp.to_eq]
    rw [← hev]
    exact evalBin_hasType hty hc
  rw [hev] at hI
  have hlines : (cLogicalOuterFn s l o).lines = [.record 3, .ret (.arg .arg)] := by
    simp [cLogicalOuterFn, ho]
  -- without enabled mutants
  have hO : Cov Ok G (M.logical s.op c1 c2) (s.exec l o M dev (id - first) c1' c2') := by
    rw [e]
    unfold BinSite.exec
    simp only [hcpp, hlog, ho, Bool.not_false, Bool.and_self, if_true]
    refine hI.bind (k' := fun v => runLines M dev (s.resTy.name l) (args1 (.pure v)) (id - first)
      (cLogicalOuterFn s l o).lines) fun v => ?_
    rw [hlines]
    exact runLines_cov hd _ ((Cov.congr S Ok G).args1 (.pure v)) _ _ 3 hn.symm _ fun _ => rfl
  by_cases hE : E id = false ∧ E (id + 1) = false ∧ E (id + 2) = false
  · simpa [mutantLogical, hE.1, hE.2.1, hE.2.2] using hO
  have hE' : ¬ ∀ i, i < size (id - first) → E (first + (id - first) + i) = false := by
    intro h
    rw [hn] at h
    rw [show first + (id - first) = id by omega] at h
    exact hE ⟨h 0 (by omega), h 1 (by omega), h 2 (by omega)⟩
  -- an enabled mutant is recorded as soon as the operator has ended
  unfold BinSite.exec at hO ⊢
  simp only [hcpp, hlog, ho, Bool.not_false, Bool.and_self, if_true] at hO ⊢
  constructor
  · intro t d hd0 a p hr
    refine ⟨(hO.done t d hd0 a p hr).1, fun g => ?_⟩
    exfalso
    obtain ⟨r1, hr1, hr2⟩ := hr
    rw [show (M.withState D).evalBin s.op c1' c2' = (M.withState D).evalBin s.op c1' c2' from rfl] at hr1
    cases r1 with
    | done v p1 =>
      obtain ⟨ok1, g1⟩ := hI.done t d hd0 v p1 hr1
      simp only [Comp.next, hlines, runLines] at hr2
      obtain ⟨r3, hr3, hr4⟩ := hr2
      simp only [onDevice, Comp.lift] at hr3
      cases e3 : dev.record (id - first) 3 p1.2 with
      | none => simp [e3] at hr3; subst hr3; cases hr4
      | some y =>
        obtain ⟨⟨⟩, d'⟩ := y
        simp only [e3, Option.map_some] at hr3
        subst hr3
        obtain ⟨ok2, g2⟩ := hd (id - first) p1.2 d' ok1 (by rw [hn]; exact e3)
        have := ((Cov.congr S Ok G).retRun (M := M) (s.resTy.name l) (.arg .arg)
          ((Cov.congr S Ok G).args1 (.pure v))).done p1.1 d' ok2 a p hr4
        exact hE' (g2 (this.2 g).1).2
    | stop p1 => cases hr2
    | ub => cases hr2
    | timeout => cases hr2
  · intro t d hd0 p hr
    have h0 := hO.stop t d hd0 p hr
    refine ⟨h0.1, fun g => ⟨(h0.2 g).1, ?_⟩⟩
    -- only the left operand can have been left
    have key : c1 t (.stop p.1) := by
      have hst := (h0.2 g).2
      unfold Machine.logical at hst
      obtain ⟨r1, k1, k2⟩ := hst
      cases r1 with
      | done v t1 =>
        exfalso
        obtain ⟨r2, k3, k4⟩ := k2
        cases hv : M.truth v with
        | none => simp only [hv, Comp.ofOption] at k3; subst k3; cases k4
        | some b1 =>
          simp only [hv, Comp.ofOption, Comp.pure] at k3
          subst k3
          simp only [Comp.next] at k4
          split at k4
          · cases k4
          · obtain ⟨r3, k5, k6⟩ := k4
            cases r3 with
            | done v2 t2 =>
              obtain ⟨r4, k7, k8⟩ := k6
              cases hv2 : M.truth v2 with
              | none => simp only [hv2, Comp.ofOption] at k7; subst k7; cases k8
              | some b2 =>
                simp only [hv2, Comp.ofOption, Comp.pure] at k7
                subst k7
                cases k8
            | stop t2 => exact hs _ _ k5
            | ub => cases k6
            | timeout => cases k6
      | stop t1 => cases k2; exact k1
      | ub => cases k2
      | timeout => cases k2
    unfold mutantLogical
    split
    · exact ⟨_, key, rfl⟩
    split
    · split
      · exact ⟨_, key, rfl⟩
      · exact ⟨_, key, rfl⟩
    split
    · exact ⟨_, key, rfl⟩
    · exact ⟨_, key, rfl⟩

theorem related_cover (l : Lang) (o o' : Options) (M : Machine S V) (dev : Device D) (E : Nat → Bool)
    (first : Nat) (size : Nat → Nat) (hdev : dev.Notes Ok G E first size) (ho : o.track = true)
    (hopt : o'.optimise = o.optimise) (P : Prog S V) (k : Nat) :
    let K := Interp.mutant l o' M E first
    Related (Cov.congr S Ok G) K (Interp.instrumented l o M dev first)
      (coverSites l o' M first size K P) (P.call K k) := by
  intro K
  let C := Cov.congr S Ok G
  have hexpr : ∀ (s : ExprSite) (id : Nat) (c : Comp S V) (c' : Comp (S × D) V), first ≤ id →
      (s.apply l o' first id).nextId = id + size (id - first) → Cov Ok G c c' →
      Cov Ok G (K.expr s id c) (s.exec l o M dev (id - first) c') := by
    intro s id c c' hf hn h
    dsimp only [K, Interp.mutant]
    unfold ExprSite.apply at hn ⊢
    simp only [ExprSite.genBody_eq, runClauses_eq, Nat.zero_add, List.nil_append, Nat.add_zero,
      hopt] at hn ⊢
    unfold ExprSite.exec MutFn.call1
    simp only [← ExprSite.withArg_mode s l o (id - first)]
    rw [ExprSite.genFn_lines, ho]
    refine Cov.selected ?_ ?_
    · intro a ha
      exact C.withArg _ h fun x x' hx => runLines_cov hdev _ (C.args1 hx) _ _ _ (by omega) _
        fun hno => (smallest_not_none hf ha hno).elim
    · intro _
      exact C.withArg _ h fun x x' hx => runLines_cov hdev _ (C.args1 hx) _ _ _ (by omega) _
        fun _ => rfl
  refine
    { machine := rfl
      raise := fun c =>
        { done := ?_
          stop := ?_ }
      step := fun f => .lift f
      bin := ?_
      un := ?_
      expr := fun s id x hQ c' h => hexpr s id _ c' hQ.1 hQ.2 h
      load := fun s id x hQ c' h => hexpr s id _ c' hQ.1 hQ.2 h
      stmt := ?_ }
  · rintro s d hd a p ⟨r0, h1, h2⟩
    cases r0 <;> simp only [Res.withD, reduceCtorEq] at h2
    cases h2
    exact ⟨hd, fun g => ⟨g, h1⟩⟩
  · rintro s d hd p ⟨r0, h1, h2⟩
    cases r0 <;> simp only [Res.withD, reduceCtorEq] at h2
    cases h2
    exact ⟨hd, fun g => ⟨g, h1⟩⟩
  · intro s id x y hQ c1' c2' h1 h2
    obtain ⟨hf, hn, ht, hs⟩ := hQ
    have ht := fun h h' => (ht h h').1
    have hs := fun h h' => hs h h' k
    generalize x.eval K (P.call K k) = c1 at h1
    generalize y.eval K (P.call K k) = c2 at h2 hs
    dsimp only [K, Interp.mutant, Interp.instrumented]
    by_cases hc : (!l.cpp && s.op.isLogical) = true
    · have hcpp : l.cpp = false := by cases h : l.cpp <;> simp_all
      have hlog : s.op.isLogical = true := by cases h : s.op.isLogical <;> simp_all
      have hM := ht hcpp hlog
      have hn' : size (id - first) = 3 := by
        have : id + 3 = id + size (id - first) := by
          simpa [BinSite.apply, hcpp, hlog, BinSite.applyCLogical] using hn
        omega
      obtain ⟨insts, hg⟩ := s.group_eq l o' first id
      rw [hg]
      simp only [hcpp, hlog, Bool.not_true, Bool.or_self, Bool.false_eq_true, if_false]
      exact cLogical_cov s l o hdev ho hcpp hlog id hf hn'
        ⟨fun h => by (rw [hlog] at h; cases h), fun _ => hM.res⟩ h1 h2 (hs hcpp hlog)
    · have hc' : (!l.cpp && s.op.isLogical) = false := by simpa using hc
      have hc2 : (l.cpp || !s.op.isLogical) = true := by
        cases h : l.cpp <;> cases h' : s.op.isLogical <;> simp_all
      unfold BinSite.apply at hn ⊢
      rw [hc'] at hn ⊢
      simp only [Bool.false_eq_true, if_false, BinSite.genBody_eq, runClauses_eq, Nat.zero_add,
        List.nil_append, Nat.add_zero, hopt] at hn ⊢
      rw [if_pos hc2]
      unfold BinSite.exec
      rw [hc']
      simp only [Bool.false_eq_true, if_false]
      unfold MutFn.call2
      simp only [← BinSite.withArgs_modes s l o (id - first)]
      rw [BinSite.genFn_lines, ho]
      refine Cov.selected ?_ ?_
      · intro a ha
        exact C.withArgs _ _ h1 h2 fun x y x' y' hx hy =>
          runLines_cov hdev _ (C.args2 hx hy) _ _ _ (by omega) _
            fun hno => (smallest_not_none hf ha hno).elim
      · intro _
        exact C.withArgs _ _ h1 h2 fun x y x' y' hx hy =>
          runLines_cov hdev _ (C.args2 hx hy) _ _ _ (by omega) _ fun _ => rfl
  · intro s id x hQ c' h
    obtain ⟨hf, hn⟩ := hQ
    generalize x.eval K (P.call K k) = c at h
    dsimp only [K, Interp.mutant, Interp.instrumented]
    unfold UnSite.apply at hn ⊢
    simp only [UnSite.genBody_eq, runClauses_eq, Nat.zero_add, List.nil_append, Nat.add_zero,
      hopt] at hn ⊢
    unfold UnSite.exec MutFn.call1
    simp only [← UnSite.withArg_mode s l o (id - first)]
    rw [UnSite.genFn_lines, ho]
    refine Cov.selected ?_ ?_
    · intro a ha
      exact C.withArg _ h fun x x' hx => runLines_cov hdev _ (C.args1 hx) _ _ _ (by omega) _
        fun hno => (smallest_not_none hf ha hno).elim
    · intro _
      exact C.withArg _ h fun x x' hx => runLines_cov hdev _ (C.args1 hx) _ _ _ (by omega) _
        fun _ => rfl
  · intro id hQ c c' h
    obtain ⟨hf, hn⟩ := hQ
    dsimp only [K, Interp.mutant, Interp.instrumented, stmtExec]
    simp only [ho, if_true]
    have hd' := hdev (id - first)
    rw [hn] at hd'
    refine Cov.record _ hd' h fun hno => ?_
    have := hno 0 (by omega)
    rw [show first + (id - first) + 0 = id by omega] at this
    simp [this]

/-- In the states of a tracking build, the mutants of a point whose flag is set are in the file. -/
def Logged (first : Nat) (size : Nat → Nat) (d : TrackVars) : Prop :=
  ∀ k, d.flags k = true → ∀ i, i < size k → first + k + i ∈ d.log

theorem trackingPrelude_notes (cpp : Bool) (first n : Nat) (size : Nat → Nat) (E : Nat → Bool) :
    (trackingPrelude cpp first n true true).Notes (Logged first size)
      (fun d => ∀ i, E i = true → i ∉ d.log) E first size := by
  intro k d d' hd h
  simp only [trackingPrelude, Bool.not_true, Bool.false_eq_true, if_false] at h
  have hE : ∀ {L : List Nat} {i : Nat}, (∀ i, E i = true → i ∉ L) → i ∈ L → E i = false := by
    intro L i h1 h2
    cases h : E i with
    | false => rfl
    | true => exact absurd h2 (h1 i h)
  split at h
  · cases h
  · split at h
    · rename_i hk
      cases h
      exact ⟨hd, fun g => ⟨g, fun i hi => hE g (hd k hk i hi)⟩⟩
    · cases h
      refine ⟨fun j hj i hi => ?_, fun g => ⟨fun i hi hm => g i hi ?_, fun i hi => hE g ?_⟩⟩
      · dsimp only at hj ⊢
        rw [List.mem_append]
        split at hj
        · rename_i hjk
          subst hjk
          right
          rw [List.mem_range'_1]
          omega
        · exact .inl (hd j hj i hi)
      · exact List.mem_append_left _ hm
      · refine List.mem_append_right _ ?_
        rw [List.mem_range'_1]
        omega

/-- C67: suppose a run of the tracking build has ended, normally or otherwise, without writing any of
the ids in `E` to its file.  Then the mutating build, with the mutants `E` enabled, may end in exactly
this way, too: same value, same final state (which contains all output).

Full statement: also for C programs in which the right operand of a logical operator does not return,
because it leaves the function by `longjmp` or ends the program.  It is false for these
(`C67_false_c_logical`).  In addition the statement needs that points with the same first id have the
same number of mutants (`size`); points without mutants violate it (`C20_empty_group_false`). -/
theorem C67_unrecorded_partial (l : Lang) (o o' : Options) (M : Machine S V) (E : Nat → Bool)
    (first n : Nat) (size : Nat → Nat) (dev : Device D)
    (hdev : dev.Faithful Ok (fun i => E (first + i)) n) (ho : o.track = true) (ho' : o'.track = false)
    (hopt : o'.optimise = o.optimise) (P : Prog S V)
    (hP : P.All (coverSites l o' M first size (Interp.mutant l o' M E first) P))
    (hn : P.All (fileSites l o' M first n (Interp.mutant l o' M E first) P))
    (k f : Nat) (vs : List V) (s : S) (d : D) (hd : Ok d) :
    let start : TrackVars := ⟨fun _ => false, []⟩
    let tracked := P.call (Interp.instrumented l o M (trackingPrelude l.cpp first n true true) first)
      k f vs (s, start)
    let mutated := P.call (Interp.instrumented l o' M dev first) k f vs (s, d)
    (∀ v s' t, tracked (.done v (s', t)) → (∀ i, E i = true → i ∉ t.log) →
      ∃ d', mutated (.done v (s', d'))) ∧
    (∀ s' t, tracked (.stop (s', t)) → (∀ i, E i = true → i ∉ t.log) →
      ∃ d', mutated (.stop (s', d'))) := by
  intro start tracked mutated
  have h1 := Prog.call_rel P hP (fun k => related_cover l o o' M _ E first size
    (trackingPrelude_notes l.cpp first n size E) ho hopt P k) k f vs
  have h2 := C50_mutant l o' M dev E first n hdev ho' P hn k f vs
  have hs : Logged first size start := fun k h => by cases h
  constructor
  · intro v s' t hr hE
    obtain ⟨-, h⟩ := h1.done s start hs v (s', t) hr
    obtain ⟨r', hr', hrel⟩ := h2.bwd trivial s d hd _ (h hE).2
    cases r' <;> simp only [Res.Rel] at hrel
    rename_i a p
    obtain ⟨rfl, rfl, -⟩ := hrel
    exact ⟨p.2, hr'⟩
  · intro s' t hr hE
    obtain ⟨-, h⟩ := h1.stop s start hs (s', t) hr
    obtain ⟨r', hr', hrel⟩ := h2.bwd trivial s d hd _ (h hE).2
    cases r' <;> simp only [Res.Rel] at hrel
    rename_i p
    obtain ⟨rfl, -⟩ := hrel
    exact ⟨p.2, hr'⟩

/-! ### Logical operators in C -/

/-- `return x && leave();`, in C, where `leave` does not return. -/
def Sample.leaving : Prog Int Int where
  body _ := .ret (some (.binAt (Sample.bin .land Sample.intVal Sample.intVal) 0
    (.atom (.lift Sample.read)) (.atom .stop)))
  enter _ _ s := some ((), s)
  leave _ v s := some (v.getD 0, s)

/-- C67 is false for it: from 1, the tracking build is left without having recorded anything, but with
mutant 0 enabled, `x || leave()`, the function returns 1. -/
theorem C67_false_c_logical :
    let start : TrackVars := ⟨fun _ => false, []⟩
    Sample.leaving.call (Interp.instrumented Sample.c Sample.track (Sample.machine .c)
      (trackingPrelude false 0 3 true true) 0) 1 0 [] (1, start) (.stop (1, start)) ∧
    ∀ k r, Sample.leaving.call (Interp.mutant Sample.c Sample.opts (Sample.machine .c)
      (inList [0]) 0) (k + 1) 0 [] 1 r → r = .done 1 1 := by
  intro start
  constructor
  · refine ⟨.done () (1, start), rfl, .stop (1, start), ⟨.stop (1, start), ?_, rfl⟩, rfl⟩
    refine ⟨.stop (1, start), ⟨.stop (1, start), ?_, rfl⟩, rfl⟩
    refine ⟨.done 1 (1, start), ⟨.done 1 1, rfl, rfl⟩, .done true (1, start), rfl, ?_⟩
    exact ⟨.stop (1, start), ⟨.stop 1, rfl, rfl⟩, rfl⟩
  · intro k r h
    have hE : inList [0] 0 = true := by decide
    have e : Sample.leaving.call (Interp.mutant Sample.c Sample.opts (Sample.machine .c)
        (inList [0]) 0) (k + 1) 0 [] = Comp.bind (.pure ()) fun _ => Comp.bind
          (Code.settle (.plain (Comp.bind (mutantLogical (Sample.machine .c) (inList [0]) .land 0
            (.lift Sample.read) .stop) fun v => .pure (.return_ (some v)))) k none)
          fun x => .lift fun s => some ((returned x).getD 0, s) := rfl
    have e1 : mutantLogical (Sample.machine .c) (inList [0]) .land 0 (.lift Sample.read) .stop 1
        = fun r => r = .done 1 1 := by
      funext r
      refine propext ⟨?_, ?_⟩
      · rintro ⟨r1, rfl, r2, rfl, h⟩
        exact h
      · rintro rfl
        exact ⟨_, rfl, .done true 1, rfl, rfl⟩
    rw [e, Comp.pure_bind] at h
    obtain ⟨r1, h1, h2⟩ := h
    have h3 : r1 = .done (.return_ (some 1)) 1 := by
      cases k <;>
      · obtain ⟨r2, ⟨r3, h3, h4⟩, h5⟩ := h1
        rw [e1] at h3
        subst h3
        cases h4
        exact h5
    subst h3
    exact h2

/-- The hypotheses can be met: a run of `Sample.prog` from 3, where the loop body is not executed, does
not record mutant 5, the removal of its statement. -/
example (k : Nat) (D : Type) (Ok : D → Prop) (dev : Device D) (d : D) (hd : Ok d)
    (hdev : dev.Faithful Ok (fun i => inList [5] (0 + i)) 20) (v : Int) (t : TrackVars)
    (h : Sample.prog.call (Interp.instrumented Sample.cpp Sample.track (Sample.machine .cpp17)
      (trackingPrelude true 0 20 true true) 0) k 0 [] (3, ⟨fun _ => false, []⟩) (.done v (3, t)))
    (h5 : 5 ∉ t.log) :
    ∃ d', Sample.prog.call (Interp.instrumented Sample.cpp Sample.opts (Sample.machine .cpp17) dev 0)
      k 0 [] (3, d) (.done v (3, d')) := by
  refine (C67_unrecorded_partial Sample.cpp Sample.track Sample.opts (Sample.machine .cpp17)
    (inList [5]) 0 20 (fun k => if k = 5 then 1 else if k = 6 then 6 else 2)
    dev hdev rfl rfl rfl Sample.prog ?_ ?_ k 0 [] 3 d hd).1 v 3 t h ?_
  · intro f
    unfold Sample.prog
    dsimp only
    split
    · refine ⟨⟨⟨⟨by decide, by decide, (fun h => by cases h), fun h => by cases h⟩, trivial, trivial⟩,
        (fun _ h => by cases h), ⟨by decide, by decide⟩, trivial⟩, ?_⟩
      rintro x hx
      cases hx
      exact ⟨⟨by decide, by decide⟩, fun i => i.elim0⟩
    · rintro x hx
      cases hx
      exact ⟨⟨by decide, by decide⟩, trivial⟩
  · intro f
    unfold Sample.prog
    dsimp only
    split
    · refine ⟨⟨⟨⟨by decide, by decide, fun h => by cases h⟩, trivial, trivial⟩,
        (fun _ h => by cases h), ⟨by decide, by decide⟩, trivial⟩, ?_⟩
      rintro x hx
      cases hx
      exact ⟨⟨by decide, by decide⟩, fun i => i.elim0⟩
    · rintro x hx
      cases hx
      exact ⟨⟨by decide, by decide⟩, trivial⟩
  · intro i hi
    have : i = 5 := by
      simp only [inList, decide_eq_true_eq, List.mem_singleton] at hi
      omega
    exact this ▸ h5

/-- The variables after recording `m` mutants at `k`. -/
def Sample.after (k m : Nat) (d : TrackVars) : TrackVars :=
  ⟨fun j => if j = k then true else d.flags j, d.log ++ List.range' (0 + k) m⟩

/-- There is such a run. -/
example : ∃ t : TrackVars, t.log = [0, 1, 6, 7, 8, 9, 10, 11, 12, 13] ∧
    Sample.prog.call (Interp.instrumented Sample.cpp Sample.track (Sample.machine .cpp17)
      (trackingPrelude true 0 20 true true) 0) 3 0 [] (3, ⟨fun _ => false, []⟩) (.done (-3) (3, t)) := by
  let t0 : TrackVars := ⟨fun _ => false, []⟩
  let t1 := Sample.after 0 2 t0
  let t2 := Sample.after 6 6 t1
  let t3 := Sample.after 12 2 t2
  refine ⟨t3, rfl, .done () (3, t0), rfl, .done (.return_ (some (-3))) (3, t3),
    ⟨.done (.return_ (some (-3))) (3, t3), ?_, rfl⟩, rfl⟩
  refine ⟨.done .normal (3, t1), ?_, ?_⟩
  · refine ⟨.done false (3, t1), ⟨.done 0 (3, t1), ?_, rfl⟩, rfl⟩
    refine ⟨.done (3, 3) (3, t0), .inl ⟨.done 3 (3, t0), ⟨.done 3 3, rfl, rfl⟩, .done 3 (3, t0),
      ⟨.done 3 3, rfl, rfl⟩, rfl⟩, .done () (3, t1), rfl, .done 0 (3, t1), ?_, rfl⟩
    exact ⟨.done (3, 3) (3, t1), .inl ⟨.done 3 (3, t1), rfl, .done 3 (3, t1), rfl, rfl⟩, rfl⟩
  · refine ⟨.done (-3) (3, t3), ?_, rfl⟩
    refine ⟨.done () (3, t2), rfl, .done (-3) (3, t3), ?_, rfl⟩
    refine ⟨.done [] (3, t2), ⟨[], .refl _, .done [] (3, t2), rfl, rfl⟩, ?_⟩
    refine ⟨.done () (3, t2), rfl, .done (.return_ (some (-3))) (3, t3),
      ⟨.done (.return_ (some (-3))) (3, t3), ⟨.done (-3) (3, t3), ?_, rfl⟩, rfl⟩, rfl⟩
    refine ⟨.done 3 (3, t2), ⟨.done 3 3, rfl, rfl⟩, .done () (3, t3), rfl, .done (-3) (3, t3), ?_, rfl⟩
    exact ⟨.done 3 (3, t3), rfl, rfl⟩

end Dredd
