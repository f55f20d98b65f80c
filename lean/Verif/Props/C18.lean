/-
Whole programs.

C18: with no mutant enabled the mutated program has the behaviour of the
original.
C19: tracking instrumentation does not change behaviour.
C50: with any set of mutants enabled, the mutated program behaves like the mutant
that the mutation information describes.

Programs are those of `Sem/Prog.lean`, with arbitrary functions, loops,
recursion; `P.call K k f vs` is a call of function `f` that may use `k` steps.
`Sim Ok True c c'` says that `c'` has exactly the behaviours of `c` (values, final
states, undefined behaviour, running out of steps).
-/
import Verif.Proofs.Prog
import Verif.Proofs.Track
import Verif.Spec.Mutant
import Verif.Props.C17

namespace Dredd

variable {S V D D' : Type} {Ok : D → Prop} {Ok' : D' → Prop} {b : Prop}

/-- The operand of an instrumented logical operator in C has the type that the
generated functions use for it, at all depths. -/
def logicalTyped (l : Lang) (M : Machine S V) (K : Interp S S V) (P : Prog S V) (s : BinSite)
    (x y : Exp S V) : Prop :=
  l.cpp = false → s.op.isLogical = true →
    M.TruthLaws (s.lhs.ty.name l) (s.rhs.ty.name l) (s.resTy.name l) ∧
    ∀ k, (x.eval K (P.call K k)).HasType M (s.lhs.ty.name l) ∧
      (y.eval K (P.call K k)).HasType M (s.rhs.ty.name l)

/-- The ids of all instrumentation points belong to the file, whose `n` mutants
begin with `first`; operands of C logical operators are typed. -/
def fileSites (l : Lang) (o : Options) (M : Machine S V) (first n : Nat) (K : Interp S S V)
    (P : Prog S V) : Sites S V where
  bin s id x y := first ≤ id ∧ (s.apply l o first id).nextId ≤ first + n ∧
    logicalTyped l M K P s x y
  un s id _ := first ≤ id ∧ (s.apply l o first id).nextId ≤ first + n
  expr s id _ := first ≤ id ∧ (s.apply l o first id).nextId ≤ first + n
  load s id _ := first ≤ id ∧ (s.apply l o first id).nextId ≤ first + n
  stmt id := first ≤ id ∧ id + 1 ≤ first + n

theorem smallest_or_none {α : Type} (E : Nat → Bool) (insts : List (Nat × α)) :
    (∃ a, Smallest E insts a) ∨ NoneEnabled E insts := by
  induction insts with
  | nil => exact .inr fun i a h => by cases h
  | cons p ps ih =>
    obtain ⟨i, a⟩ := p
    cases hE : E i with
    | true =>
      rcases ih with ⟨a', j, hj, hEj, hmin⟩ | hnone
      · by_cases hij : i ≤ j
        · refine .inl ⟨a, i, .head _, hE, fun k a'' hk hEk => ?_⟩
          cases hk with
          | head => exact Nat.le_refl _
          | tail _ hk => exact Nat.le_trans hij (hmin k a'' hk hEk)
        · refine .inl ⟨a', j, .tail _ hj, hEj, fun k a'' hk hEk => ?_⟩
          cases hk with
          | head => omega
          | tail _ hk => exact hmin k a'' hk hEk
      · refine .inl ⟨a, i, .head _, hE, fun k a'' hk hEk => ?_⟩
        cases hk with
        | head => exact Nat.le_refl _
        | tail _ hk => rw [hnone k a'' hk] at hEk; cases hEk
    | false =>
      rcases ih with ⟨a', j, hj, hEj, hmin⟩ | hnone
      · refine .inl ⟨a', j, .tail _ hj, hEj, fun k a'' hk hEk => ?_⟩
        cases hk with
        | head => rw [hE] at hEk; cases hEk
        | tail _ hk => exact hmin k a'' hk hEk
      · refine .inr fun k a'' hk => ?_
        cases hk with
        | head => exact hE
        | tail _ hk => exact hnone k a'' hk

theorem Sim.selected {α : Type} {E : Nat → Bool} {insts : List (Nat × α)} {f : α → Comp S V}
    {c : Comp S V} {c' : Comp (S × D) V} (h1 : ∀ a, Smallest E insts a → Sim Ok b (f a) c')
    (h2 : NoneEnabled E insts → Sim Ok b c c') :
    Sim Ok b (Dredd.selected E insts f c) c' := by
  constructor
  · intro s d hd r' hr
    rcases smallest_or_none E insts with ⟨a, ha⟩ | hn
    · obtain ⟨r, hr1, hr2⟩ := (h1 a ha).fwd s d hd r' hr
      exact ⟨r, .inl ⟨a, ha, hr1⟩, hr2⟩
    · obtain ⟨r, hr1, hr2⟩ := (h2 hn).fwd s d hd r' hr
      exact ⟨r, .inr ⟨hn, hr1⟩, hr2⟩
  · rintro hb s d hd r (⟨a, ha, hr⟩ | ⟨hn, hr⟩)
    · exact (h1 a ha).bwd hb s d hd r hr
    · exact (h2 hn).bwd hb s d hd r hr

theorem BinSite.group_eq (s : BinSite) (l : Lang) (o : Options) (first id : Nat) :
    ∃ insts, (s.apply l o first id).group = .replaceBin s.op.proto s.info s.lhsInfo s.rhsInfo
      insts := by
  unfold BinSite.apply
  split
  · exact ⟨_, rfl⟩
  · exact ⟨_, rfl⟩

theorem isLogical_iff (op : BOp) : op.isLogical = true ↔ op = .land ∨ op = .lor := by
  cases op <;> simp [BOp.isLogical]

/-- The instrumented program and the mutant correspond point by point. -/
theorem related_mutant (l : Lang) (o : Options) (M : Machine S V) (dev : Device D)
    (E : Nat → Bool) (first n : Nat) (hdev : dev.Faithful Ok (fun i => E (first + i)) n)
    (ho : o.track = false) (P : Prog S V) (k : Nat) :
    Related (Sim.congr S Ok b) (Interp.mutant l o M E first) (Interp.instrumented l o M dev first)
      (fileSites l o M first n (Interp.mutant l o M E first) P)
      (P.call (Interp.mutant l o M E first) k) where
  machine := rfl
  raise c := Sim.raise c
  step f := .lift f
  bin s id x y hQ c1' c2' h1 h2 := by
    obtain ⟨hf, hn, ht⟩ := hQ
    obtain ⟨insts, hg⟩ := s.group_eq l o first id
    dsimp only [Interp.mutant, Interp.instrumented]
    rw [hg]
    dsimp only
    split
    · rename_i hc
      have h := C15_binary s l o M dev E first id n hdev ho
        (by rintro ⟨e1, e2⟩; simp [e1, e2] at hc) hf hn hg h1 h2
      exact Sim.selected h.1 h.2
    · rename_i hc
      have hcpp : l.cpp = false := by cases h : l.cpp <;> simp_all
      have hlog : s.op.isLogical = true := by cases h : s.op.isLogical <;> simp_all
      obtain ⟨hM, ht⟩ := ht hcpp hlog
      exact cLogical_all s l o M dev E first id n hdev ho hcpp ((isLogical_iff _).1 hlog) hf hn hM
        (ht k).1 (ht k).2 h1 h2
  un s id x hQ c' h := by
    obtain ⟨hf, hn⟩ := hQ
    have hg : ∃ insts, (s.apply l o first id).group = .replaceUn s.op.proto s.info s.subInfo
      insts := ⟨_, rfl⟩
    obtain ⟨insts, hg⟩ := hg
    dsimp only [Interp.mutant, Interp.instrumented]
    rw [hg]
    have h := C15_unary s l o M dev E first id n hdev ho hf hn hg h
    exact Sim.selected h.1 h.2
  expr s id x hQ c' h := by
    obtain ⟨hf, hn⟩ := hQ
    have hg : ∃ insts, (s.apply l o first id).group = .replaceExpr s.info insts := ⟨_, rfl⟩
    obtain ⟨insts, hg⟩ := hg
    dsimp only [Interp.mutant, Interp.instrumented]
    rw [hg]
    have h := C15_expr s l o M dev E first id n hdev ho hf hn hg h
    exact Sim.selected h.1 h.2
  load s id x hQ c' h := by
    obtain ⟨hf, hn⟩ := hQ
    have hg : ∃ insts, (s.apply l o first id).group = .replaceExpr s.info insts := ⟨_, rfl⟩
    obtain ⟨insts, hg⟩ := hg
    dsimp only [Interp.mutant, Interp.instrumented]
    rw [hg]
    have h := C15_expr s l o M dev E first id n hdev ho hf hn hg h
    exact Sim.selected h.1 h.2
  stmt id hQ c c' h := by
    obtain ⟨hf, hn⟩ := hQ
    dsimp only [Interp.mutant, Interp.instrumented]
    cases hE : E id with
    | true =>
      exact C17_enabled Sample.stmt o dev E first id n hdev ho hf hn rfl hE c'
    | false =>
      exact C17_disabled Sample.stmt o dev E first id n hdev ho hf hn rfl hE h

/-- C50: for every program and every set of enabled mutants, the instrumented
program behaves exactly like the mutant that the mutation information
describes. -/
theorem C50_mutant (l : Lang) (o : Options) (M : Machine S V) (dev : Device D)
    (E : Nat → Bool) (first n : Nat) (hdev : dev.Faithful Ok (fun i => E (first + i)) n)
    (ho : o.track = false) (P : Prog S V)
    (hP : P.All (fileSites l o M first n (Interp.mutant l o M E first) P))
    (k f : Nat) (vs : List V) :
    Sim Ok True (P.call (Interp.mutant l o M E first) k f vs)
      (P.call (Interp.instrumented l o M dev first) k f vs) :=
  Prog.call_sim P hP (fun k => related_mutant l o M dev E first n hdev ho P k) k f vs

/-- The same prelude, asked only about mutants that are not enabled. -/
theorem Device.Faithful.none {dev : Device D} {E : Nat → Bool} {first n : Nat}
    (hdev : dev.Faithful Ok (fun i => E (first + i)) n)
    (hE : ∀ i, first ≤ i → i < first + n → E i = false) :
    dev.Faithful Ok (fun i => (fun _ => false : Nat → Bool) (first + i)) n where
  query d i hd hi := by
    obtain ⟨d', h1, h2⟩ := hdev.query d i hd hi
    rw [hE (first + i) (by omega) (by omega)] at h1
    exact ⟨d', h1, h2⟩
  some_ d hd hs i hi := rfl

/-- What the original has to satisfy at each instrumentation point for C18.
* The expression has the type that the generated function uses for it.
* Operators whose operands the language evaluates in a fixed order (C++17 shifts
  and assignments) have operands that do not influence each other, unless the
  call happens to keep that order.
* For `all`, so that no behaviour is lost: the same for operators whose operands
  may be evaluated in any order, in C++. -/
def originalSites (l : Lang) (o : Options) (M : Machine S V) (first n : Nat) (all : Prop)
    (P : Prog S V) : Sites S V where
  bin s id x y :=
    let K := Interp.original l M
    first ≤ id ∧ (s.apply l o first id).nextId ≤ first + n ∧ s.op ≠ .comma ∧
    (if s.op.isLogical then
      (∀ z t, M.conv (s.resTyText l) (M.ofBool z) t = some (M.ofBool z, t)) ∧
      logicalTyped l M K P s x y
    else
      ∀ k, M.ResultType s.op (s.resTyText l) (x.eval K (P.call K k)) (y.eval K (P.call K k)) ∧
        (M.std.order s.op = .unseq ∧ (all → l.cpp = false) ∨
        (x.eval K (P.call K k)).Commute (y.eval K (P.call K k)) ∨
        callOrder (l.cpp && s.lhs.sideEffects) (l.cpp && s.rhs.sideEffects) (M.std.order s.op)
          = M.std.order s.op))
  un s id x :=
    let K := Interp.original l M
    first ≤ id ∧ (s.apply l o first id).nextId ≤ first + n ∧
    ∀ k, M.ResultTypeUn s.op (s.resTyText l) (x.eval K (P.call K k))
  expr s id x :=
    let K := Interp.original l M
    first ≤ id ∧ (s.apply l o first id).nextId ≤ first + n ∧
    ∀ k, (x.eval K (P.call K k)).HasType M (s.self.ty.name l)
  load s id _ := first ≤ id ∧ (s.apply l o first id).nextId ≤ first + n
  stmt id := first ≤ id ∧ id + 1 ≤ first + n

theorem related_original (l : Lang) (o : Options) (M : Machine S V) (dev : Device D)
    (E : Nat → Bool) (first n : Nat) (hdev : dev.Faithful Ok (fun i => E (first + i)) n)
    (ho : o.track = false) (hE : ∀ i, E i = false)
    (all : Prop) (P : Prog S V) (k : Nat) :
    Related (Sim.congr S Ok all) (Interp.original l M) (Interp.instrumented l o M dev first)
      (originalSites l o M first n all P) (P.call (Interp.original l M) k) where
  machine := rfl
  raise c := Sim.raise c
  step f := .lift f
  bin s id x y hQ c1' c2' h1 h2 := by
    obtain ⟨hf, hn, hc, ht⟩ := hQ
    obtain ⟨insts, hg⟩ := s.group_eq l o first id
    have hnone : NoneEnabled E insts := fun i _ _ => hE i
    dsimp only [Interp.original, Interp.instrumented]
    cases hl : s.op.isLogical with
    | true =>
      simp only [hl, if_true] at ht
      obtain ⟨hty, hlt⟩ := ht
      cases hcpp : l.cpp with
      | true =>
        exact C13_logical_cpp s l o M dev E first id n hdev ho hcpp hl hf hn hg hnone
          ⟨fun h => by (rw [hl] at h; cases h), fun _ => hty⟩ h1 h2
      | false =>
        obtain ⟨hM, hlt⟩ := hlt hcpp hl
        exact C16_none s l o M dev E first id n hdev ho hcpp ((isLogical_iff _).1 hl) hf hn hM
          (hlt k).1 (hlt k).2 h1 h2 (hE _) (hE _) (hE _)
    | false =>
      simp only [hl, Bool.false_eq_true, if_false] at ht
      obtain ⟨hty, hord⟩ := ht k
      refine (C13_binary_partial s l o M dev E first id n hdev ho hl hc hf hn hg hnone hty h1 h2
        ?_).mono ?_
      · rcases hord with ⟨hu, -⟩ | h | h
        · exact .inl hu
        · exact .inr (.inl h)
        · exact .inr (.inr h)
      · intro hall
        refine ⟨hall, ?_⟩
        rcases hord with ⟨hu, hcpp⟩ | h | h
        · exact .inl ⟨hcpp hall, hu⟩
        · exact .inr (.inl h)
        · exact .inr (.inr h)
  un s id x hQ c' h := by
    obtain ⟨hf, hn, hty⟩ := hQ
    exact C13_unary (insts := (s.genBody o id).insts) s l o M dev E first id n hdev ho hf hn rfl
      (fun i _ _ => hE i) (hty k) h
  expr s id x hQ c' h := by
    obtain ⟨hf, hn, hty⟩ := hQ
    exact (C13_expr (insts := (s.genBody l o id).insts) s l o M dev E first id n hdev ho hf hn rfl
      (fun i _ _ => hE i) h).2 (hty k)
  load s id x hQ c' h := by
    obtain ⟨hf, hn⟩ := hQ
    exact (C13_expr (insts := (s.genBody l o id).insts) s l o M dev E first id n hdev ho hf hn rfl
      (fun i _ _ => hE i) h).1
  stmt id hQ c c' h := by
    obtain ⟨hf, hn⟩ := hQ
    exact C17_disabled Sample.stmt o dev E first id n hdev ho hf hn rfl (hE id) h

/-- C18: with no mutant of the file enabled, every behaviour of the
instrumented program is a behaviour of the original; and conversely if `all`
holds, that is, under the stronger conditions of `originalSites` (in C these are
the weaker ones).

The condition on interfering operands, part of the property, is needed in C++17
(`C13_shift_false`, `C13_assign_false`). -/
theorem C18_original (l : Lang) (o : Options) (M : Machine S V) (dev : Device D)
    (E : Nat → Bool) (first n : Nat) (hdev : dev.Faithful Ok (fun i => E (first + i)) n)
    (ho : o.track = false) (hE : ∀ i, first ≤ i → i < first + n → E i = false)
    (all : Prop) (P : Prog S V) (hP : P.All (originalSites l o M first n all P))
    (k f : Nat) (vs : List V) :
    Sim Ok all (P.call (Interp.original l M) k f vs)
      (P.call (Interp.instrumented l o M dev first) k f vs) :=
  Prog.call_sim P hP (fun k => related_original l o M dev _ first n (hdev.none hE) ho
    (fun _ => rfl) all P k) k f vs

/-- What C19 needs: as `fileSites`; in addition the first id of each group is
below the number of mutants (which fails for groups without mutants at the end of
the file, see C20). -/
def trackSites (l : Lang) (o : Options) (M : Machine S V) (first n : Nat) (K : Interp S S V)
    (P : Prog S V) : Sites S V where
  bin s id x y := first ≤ id ∧ id < first + n ∧ (s.apply l o first id).nextId ≤ first + n ∧
    logicalTyped l M K P s x y
  un s id _ := first ≤ id ∧ id < first + n ∧ (s.apply l o first id).nextId ≤ first + n
  expr s id _ := first ≤ id ∧ id < first + n ∧ (s.apply l o first id).nextId ≤ first + n
  load s id _ := first ≤ id ∧ id < first + n ∧ (s.apply l o first id).nextId ≤ first + n
  stmt id := first ≤ id ∧ id + 1 ≤ first + n

theorem Exp.All.imp {Q Q' : Sites S V} (hb : ∀ s id x y, Q.bin s id x y → Q'.bin s id x y)
    (hu : ∀ s id x, Q.un s id x → Q'.un s id x) (he : ∀ s id x, Q.expr s id x → Q'.expr s id x)
    (hl : ∀ s id x, Q.load s id x → Q'.load s id x) (e : Exp S V) (h : e.All Q) : e.All Q' := by
  induction e with
  | atom c => trivial
  | step f a ih => exact ih h
  | bin op x y ih1 ih2 => exact ⟨ih1 h.1, ih2 h.2⟩
  | binAt s id x y ih1 ih2 => exact ⟨hb _ _ _ _ h.1, ih1 h.2.1, ih2 h.2.2⟩
  | un op x ih => exact ih h
  | unAt s id x ih => exact ⟨hu _ _ _ h.1, ih h.2⟩
  | exprAt s id x ih => exact ⟨he _ _ _ h.1, ih h.2⟩
  | load ty x ih => exact ih h
  | loadAt s id x ih => exact ⟨hl _ _ _ h.1, ih h.2⟩
  | cond x y z ih1 ih2 ih3 => exact ⟨ih1 h.1, ih2 h.2.1, ih3 h.2.2⟩
  | call f n args ih => exact fun i => ih i (h i)

theorem Stm.All.imp {Q Q' : Sites S V} (hb : ∀ s id x y, Q.bin s id x y → Q'.bin s id x y)
    (hu : ∀ s id x, Q.un s id x → Q'.un s id x) (he : ∀ s id x, Q.expr s id x → Q'.expr s id x)
    (hl : ∀ s id x, Q.load s id x → Q'.load s id x) (hs : ∀ id, Q.stmt id → Q'.stmt id)
    (a : Stm S V) (h : a.All Q) : a.All Q' := by
  have ev := Exp.All.imp hb hu he hl
  induction a with
  | skip => trivial
  | expr e => exact ev e h
  | seq x y ih1 ih2 => exact ⟨ih1 h.1, ih2 h.2⟩
  | removable id x ih => exact ⟨hs _ h.1, ih h.2⟩
  | ite e x y ih1 ih2 => exact ⟨ev e h.1, ih1 h.2.1, ih2 h.2.2⟩
  | loop e step x ih => exact ⟨ev e h.1, fun y hy => ev y (h.2.1 y hy), ih h.2.2⟩
  | doWhile x e ih => exact ⟨ih h.1, ev e h.2⟩
  | switch e pick body ih => exact ⟨ev e h.1, ih h.2⟩
  | label l x ih => exact ih h
  | goto l => trivial
  | brk => trivial
  | cont => trivial
  | ret e => exact fun y hy => ev y (h y hy)
  | try_ x catches n handler ih1 ih2 => exact ⟨ih1 h.1, fun i => ih2 i (h.2 i)⟩
  | scope x unwinds d ih => exact ⟨ih h.1, ev d h.2⟩

theorem related_tracking (l : Lang) (o o' : Options) (M : Machine S V) (dev : Device D)
    (first n : Nat) (hdev : dev.Records Ok n) (ho : o.track = true)
    (hopt : o'.optimise = o.optimise) (P : Prog S V) (k : Nat) :
    let K := Interp.mutant l o' M (fun _ => false) first
    Related (Sim.congr S Ok b) K (Interp.instrumented l o M dev first)
      (trackSites l o M first n K P) (P.call K k) := by
  intro K
  have hsel : ∀ {α : Type} (insts : List (Nat × α)) (f : α → Comp S V) (c : Comp S V)
      (c' : Comp (S × D) V), Sim Ok b c c' →
      Sim Ok b (selected (fun _ => false) insts f c) c' := by
    intro α insts f c c' h
    refine Sim.selected ?_ fun _ => h
    rintro a ⟨i, -, h', -⟩
    cases h'
  refine
    { machine := rfl
      raise := fun c => Sim.raise c
      step := fun f => .lift f
      bin := ?_
      un := ?_
      expr := ?_
      load := ?_
      stmt := ?_ }
  · intro s id x y hQ c1' c2' h1 h2
    obtain ⟨hf, hi, hn, ht⟩ := hQ
    obtain ⟨insts, hg⟩ := s.group_eq l o' first id
    dsimp only [K, Interp.mutant, Interp.instrumented]
    rw [hg]
    dsimp only
    split
    · rename_i hc
      refine hsel _ _ _ _ ?_
      have hcl : (!l.cpp && s.op.isLogical) = false := by
        cases h : l.cpp <;> cases h' : s.op.isLogical <;> simp_all
      unfold BinSite.apply at hn
      rw [hcl] at hn
      simp only [Bool.false_eq_true, if_false, BinSite.genBody_eq, runClauses_eq,
        Nat.zero_add] at hn
      unfold BinSite.exec
      rw [hcl]
      exact BinSite.exec_track s l o hdev ho (id - first) (by omega) (by omega) h1 h2
    · rename_i hc
      have hcpp : l.cpp = false := by cases h : l.cpp <;> simp_all
      have hlog : s.op.isLogical = true := by cases h : s.op.isLogical <;> simp_all
      obtain ⟨hM, ht⟩ := ht hcpp hlog
      have hn' : id + 3 ≤ first + n := by
        simpa [BinSite.apply, hcpp, hlog, BinSite.applyCLogical] using hn
      simp only [mutantLogical, Bool.false_eq_true, if_false]
      exact cLogical_track s l o hdev ho hcpp hlog (id - first) (by omega)
        ⟨fun h => by (rw [hlog] at h; cases h), fun _ => hM.res⟩ h1 h2
  · intro s id x hQ c' h
    obtain ⟨hf, hi, hn⟩ := hQ
    refine hsel _ _ _ _ ?_
    unfold UnSite.apply at hn
    simp only [UnSite.genBody_eq, runClauses_eq, Nat.zero_add] at hn
    exact UnSite.exec_track s l o hdev ho (id - first) (by omega) (by omega) h
  · intro s id x hQ c' h
    obtain ⟨hf, hi, hn⟩ := hQ
    refine hsel _ _ _ _ ?_
    unfold ExprSite.apply at hn
    simp only [ExprSite.genBody_eq, runClauses_eq, Nat.zero_add] at hn
    exact ExprSite.exec_track s l o hdev ho (id - first) (by omega) (by omega) h
  · intro s id x hQ c' h
    obtain ⟨hf, hi, hn⟩ := hQ
    refine hsel _ _ _ _ ?_
    unfold ExprSite.apply at hn
    simp only [ExprSite.genBody_eq, runClauses_eq, Nat.zero_add] at hn
    exact ExprSite.exec_track s l o hdev ho (id - first) (by omega) (by omega) h
  · intro id hQ c c' h
    obtain ⟨hf, hn⟩ := hQ
    exact C17_tracking Sample.stmt o dev first id n hdev ho hf hn h

/-- Equal results, apart from the variables of the preludes. -/
def Res.Same {α : Type} : Res (S × D) α → Res (S × D') α → Prop
  | .done a p, .done a' p' => a = a' ∧ p.1 = p'.1
  | .stop p, .stop p' => p.1 = p'.1
  | .ub, .ub => True
  | .timeout, .timeout => True
  | _, _ => False

theorem Sim.same {c : Comp S V} {c' : Comp (S × D) V} {c'' : Comp (S × D') V}
    (h1 : Sim Ok True c c') (h2 : Sim Ok' True c c'') (s : S) (d : D) (d' : D') (hd : Ok d)
    (hd' : Ok' d') (r : Res (S × D) V) (hr : c' (s, d) r) : ∃ r', c'' (s, d') r' ∧ r.Same r' := by
  obtain ⟨r0, h3, h4⟩ := h1.fwd s d hd r hr
  obtain ⟨r', h5, h6⟩ := h2.bwd trivial s d' hd' r0 h3
  refine ⟨r', h5, ?_⟩
  cases r0 <;> cases r <;> simp only [Res.Rel] at h4 <;> cases r' <;>
    simp only [Res.Rel] at h6 <;> simp_all [Res.Same]

/-- C19: the tracking version of a program and its mutating version with no
mutant enabled have the same behaviours, for every program and every number of
steps.

Full statement: for groups without mutants as well.  It is false for them: the
recording reads behind the array (`C21_empty_group_false`). -/
theorem C19_tracking_partial (l : Lang) (o o' : Options) (M : Machine S V) (dev : Device D)
    (dev' : Device D') (E : Nat → Bool) (first n : Nat) (hdev : dev.Records Ok n)
    (hdev' : dev'.Faithful Ok' (fun i => E (first + i)) n)
    (ho : o.track = true) (ho' : o'.track = false) (hopt : o'.optimise = o.optimise)
    (hE : ∀ i, first ≤ i → i < first + n → E i = false) (P : Prog S V)
    (hP : P.All (trackSites l o M first n (Interp.mutant l o' M (fun _ => false) first) P))
    (k f : Nat) (vs : List V) (s : S) (d : D) (d' : D') (hd : Ok d) (hd' : Ok' d') :
    (∀ r, P.call (Interp.instrumented l o M dev first) k f vs (s, d) r →
      ∃ r', P.call (Interp.instrumented l o' M dev' first) k f vs (s, d') r' ∧ r.Same r') ∧
    (∀ r', P.call (Interp.instrumented l o' M dev' first) k f vs (s, d') r' →
      ∃ r, P.call (Interp.instrumented l o M dev first) k f vs (s, d) r ∧ r'.Same r) := by
  have h1 := Prog.call_sim (b := True) P hP
    (fun k => related_tracking l o o' M dev first n hdev ho hopt P k) k f vs
  have hP' : P.All (fileSites l o' M first n (Interp.mutant l o' M (fun _ => false) first) P) := by
    intro f
    refine Stm.All.imp ?_ ?_ ?_ ?_ ?_ _ (hP f)
    · rintro s id x y ⟨a1, a2, a3, a4⟩
      refine ⟨a1, ?_, a4⟩
      have : (s.apply l o' first id).nextId = (s.apply l o first id).nextId := by
        have e1 := Mutation.apply_nextId l o' first id (.bin s)
        have e2 := Mutation.apply_nextId l o first id (.bin s)
        simp only [Mutation.apply] at e1 e2
        rw [e1, e2, hopt]
      omega
    · rintro s id x ⟨a1, a2, a3⟩
      refine ⟨a1, ?_⟩
      have : (s.apply l o' first id).nextId = (s.apply l o first id).nextId := by
        have e1 := Mutation.apply_nextId l o' first id (.un s)
        have e2 := Mutation.apply_nextId l o first id (.un s)
        simp only [Mutation.apply] at e1 e2
        rw [e1, e2, hopt]
      omega
    · rintro s id x ⟨a1, a2, a3⟩
      refine ⟨a1, ?_⟩
      have : (s.apply l o' first id).nextId = (s.apply l o first id).nextId := by
        have e1 := Mutation.apply_nextId l o' first id (.expr s)
        have e2 := Mutation.apply_nextId l o first id (.expr s)
        simp only [Mutation.apply] at e1 e2
        rw [e1, e2, hopt]
      omega
    · rintro s id x ⟨a1, a2, a3⟩
      refine ⟨a1, ?_⟩
      have : (s.apply l o' first id).nextId = (s.apply l o first id).nextId := by
        have e1 := Mutation.apply_nextId l o' first id (.expr s)
        have e2 := Mutation.apply_nextId l o first id (.expr s)
        simp only [Mutation.apply] at e1 e2
        rw [e1, e2, hopt]
      omega
    · exact fun _ h => h
  have h2 := C50_mutant l o' M dev' (fun _ => false) first n (hdev'.none hE) ho' P hP' k f vs
  exact ⟨h1.same h2 s d d' hd hd', h2.same h1 s d' d hd' hd⟩

/-- A program: `while (x != 3) { ++x; } return f();` where the condition, the
increment and the call are instrumented; `f` (function 1) is `return -x;`, the
operator being instrumented. -/
def Sample.prog : Prog Int Int where
  body f :=
    if f = 0 then
      .seq
        (.loop (.binAt (Sample.bin .ne Sample.intVal Sample.intVal) 0 (.atom (.lift Sample.read))
            (.atom (Sample.num 3))) none (.removable 5 (.expr (.atom (.lift Sample.inc)))))
        (.ret (some (.exprAt (Sample.expr Sample.intCall) 6 (.call 1 0 Fin.elim0))))
    else .ret (some (.unAt (Sample.un .minus Sample.intVal Sample.intVal) 12
      (.atom (.lift Sample.read))))
  enter _ _ s := some ((), s)
  leave _ v s := some (v.getD 0, s)

/-- The hypotheses of C18 can be met. -/
example (k : Nat) : Sim (PreludeOk 0 20 []) True
    (Sample.prog.call (Interp.original Sample.cpp (Sample.machine .cpp17)) k 0 [])
    (Sample.prog.call (Interp.instrumented Sample.cpp Sample.opts (Sample.machine .cpp17)
      (Sample.unset 20) 0) k 0 []) := by
  refine C18_original _ _ _ _ (inList []) 0 20 (Sample.unset_faithful 20) rfl
    (fun _ _ _ => rfl) True _ ?_ k 0 []
  intro f
  unfold Sample.prog
  dsimp only
  split
  · refine ⟨⟨⟨⟨by decide, by decide, by decide, ?_⟩, trivial, trivial⟩, (fun _ h => by cases h),
      ⟨by decide, by decide⟩, trivial⟩, ?_⟩
    · exact fun k => ⟨⟨fun _ _ _ _ _ _ _ _ _ => rfl, fun h => by cases h⟩, .inr (.inr rfl)⟩
    · rintro x hx
      cases hx
      exact ⟨⟨by decide, by decide, fun _ _ _ _ _ => rfl⟩, fun i => i.elim0⟩
  · rintro x hx
    cases hx
    exact ⟨⟨by decide, by decide, fun _ => ⟨fun _ _ _ _ _ _ _ => rfl, fun h => by cases h⟩⟩, trivial⟩

/-- The hypotheses of C19 can be met (and with them those of C50). -/
example (k : Nat) (s : Int) (d : TrackVars) (r)
    (h : Sample.prog.call (Interp.instrumented Sample.cpp Sample.track (Sample.machine .cpp17)
      (trackingPrelude true 0 20 true true) 0) k 0 [] (s, d) r) :
    ∃ r', Sample.prog.call (Interp.instrumented Sample.cpp Sample.opts (Sample.machine .cpp17)
      (Sample.unset 20) 0) k 0 [] (s, Thread.start 20) r' ∧ r.Same r' := by
  refine (C19_tracking_partial Sample.cpp Sample.track Sample.opts (Sample.machine .cpp17)
    (trackingPrelude true 0 20 true true) (Sample.unset 20) (inList []) 0 20
    (trackingPrelude_records true 0 20 true true (.inl rfl)) (Sample.unset_faithful 20) rfl rfl rfl
    (fun _ _ _ => rfl) Sample.prog ?_ k 0 [] s d (Thread.start 20) trivial (.inl rfl)).1 r h
  intro f
  unfold Sample.prog
  dsimp only
  split
  · refine ⟨⟨⟨⟨by decide, by decide, by decide, fun h => by cases h⟩, trivial, trivial⟩,
      (fun _ h => by cases h), ⟨by decide, by decide⟩, trivial⟩, ?_⟩
    rintro x hx
    cases hx
    exact ⟨⟨by decide, by decide, by decide⟩, fun i => i.elim0⟩
  · rintro x hx
    cases hx
    exact ⟨⟨by decide, by decide, by decide⟩, trivial⟩

/-- The hypotheses of C50 can be met, here with mutants 2, 5 and 13 enabled. -/
example (k : Nat) (D : Type) (Ok : D → Prop) (dev : Device D)
    (hdev : dev.Faithful Ok (fun i => inList [2, 5, 13] (0 + i)) 20) : Sim Ok True
    (Sample.prog.call (Interp.mutant Sample.cpp Sample.opts (Sample.machine .cpp17)
      (inList [2, 5, 13]) 0) k 0 [])
    (Sample.prog.call (Interp.instrumented Sample.cpp Sample.opts (Sample.machine .cpp17) dev 0)
      k 0 []) := by
  refine C50_mutant _ _ _ _ _ 0 20 hdev rfl _ ?_ k 0 []
  intro f
  unfold Sample.prog
  dsimp only
  split
  · refine ⟨⟨⟨⟨by decide, by decide, fun h => by cases h⟩, trivial, trivial⟩,
      (fun _ h => by cases h), ⟨by decide, by decide⟩, trivial⟩, ?_⟩
    rintro x hx
    cases hx
    exact ⟨⟨by decide, by decide⟩, fun i => i.elim0⟩
  · rintro x hx
    cases hx
    exact ⟨⟨by decide, by decide⟩, trivial⟩

/-- The sample program does something: from 2 it ends with the value -3. -/
example : Sample.prog.call (Interp.original Sample.cpp (Sample.machine .cpp17)) 3 0 [] 2
    (.done (-3) 3) := by
  refine ⟨.done () 2, rfl, .done (.return_ (some (-3))) 3, ⟨.done (.return_ (some (-3))) 3, ?_, rfl⟩, rfl⟩
  refine ⟨.done .normal 3, ?_, ?_⟩
  · refine ⟨.done true 2, ⟨.done 1 2, ⟨.done (2, 3) 2, .inl ?_, rfl⟩, rfl⟩, ?_⟩
    · exact ⟨.done 2 2, rfl, .done 3 2, rfl, rfl⟩
    · refine ⟨.done .normal 3, ⟨.done 3 3, rfl, rfl⟩, .done () 3, rfl, ?_⟩
      refine ⟨.done false 3, ⟨.done 0 3, ⟨.done (3, 3) 3, .inl ?_, rfl⟩, rfl⟩, rfl⟩
      exact ⟨.done 3 3, rfl, .done 3 3, rfl, rfl⟩
  · refine ⟨.done (-3) 3, ⟨.done [] 3, ⟨[], .refl _, .done [] 3, rfl, rfl⟩, ?_⟩, rfl⟩
    exact ⟨.done () 3, rfl, .done (.return_ (some (-3))) 3, ⟨.done (.return_ (some (-3))) 3,
      ⟨.done (-3) 3, ⟨.done 3 3, rfl, rfl⟩, rfl⟩, rfl⟩, rfl⟩

end Dredd
