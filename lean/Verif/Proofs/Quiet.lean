/-
Expressions that only read can be evaluated in any order.
-/
import Verif.Proofs.IntMachine

namespace Dredd

variable {S V α β : Type}

theorem Comp.Quiet.pure (a : α) : (Comp.pure a : Comp S α).Quiet := fun s =>
  ⟨⟨_, rfl⟩, fun r hr => .inr ⟨a, hr⟩⟩

theorem Comp.Quiet.bind {c : Comp S α} {k : α → Comp S β} (h : c.Quiet) (hk : ∀ a, (k a).Quiet) :
    (Comp.bind c k).Quiet := by
  intro s
  constructor
  · obtain ⟨⟨r, hr⟩, h2⟩ := h s
    rcases h2 r hr with rfl | ⟨v, rfl⟩
    · exact ⟨.ub, .ub, hr, rfl⟩
    · obtain ⟨⟨r', hr'⟩, -⟩ := hk v s
      exact ⟨r', .done v s, hr, hr'⟩
  · rintro r ⟨r1, h1, h2⟩
    rcases (h s).2 r1 h1 with rfl | ⟨v, rfl⟩
    · exact .inl h2
    · exact (hk v s).2 r h2

theorem Comp.Quiet.lift {f : S → Option (α × S)} (h : ∀ s a s', f s = some (a, s') → s' = s) :
    (Comp.lift f).Quiet := by
  intro s
  refine ⟨⟨_, rfl⟩, fun r hr => ?_⟩
  unfold Comp.lift at hr
  split at hr
  · rename_i a s' hf
    rw [h s a s' hf] at hr
    exact .inr ⟨a, hr⟩
  · exact .inl hr

theorem Comp.Quiet.ofOption (x : Option α) : (Comp.ofOption x : Comp S α).Quiet := by
  cases x with
  | none => exact fun s => ⟨⟨_, rfl⟩, fun r hr => .inl hr⟩
  | some a => exact .pure a

theorem Comp.Quiet.both {o : Order} {c : Comp S α} {d : Comp S β} (h1 : c.Quiet) (h2 : d.Quiet) :
    (Comp.both o c d).Quiet := by
  have hl : (Comp.bind c fun a => Comp.bind d fun b => Comp.pure (a, b)).Quiet :=
    h1.bind fun a => h2.bind fun b => .pure _
  have hr : (Comp.bind d fun b => Comp.bind c fun a => Comp.pure (a, b)).Quiet :=
    h2.bind fun b => h1.bind fun a => .pure _
  cases o with
  | lhsFirst => exact hl
  | rhsFirst => exact hr
  | unseq =>
    intro s
    obtain ⟨r, hr'⟩ := (hl s).1
    refine ⟨⟨r, .inl hr'⟩, ?_⟩
    rintro r (h | h)
    · exact (hl s).2 r h
    · exact (hr s).2 r h

/-- Computations that only read commute. -/
theorem Comp.Quiet.commute {c d : Comp S V} (h1 : c.Quiet) (h2 : d.Quiet) : c.Commute d := by
  have key : ∀ {c : Comp S V} {d : Comp S V} {f : V → V → V × V}, c.Quiet → d.Quiet → ∀ s r,
      Comp.bind c (fun a => Comp.bind d fun b => Comp.pure (f a b)) s r →
      Comp.bind d (fun b => Comp.bind c fun a => Comp.pure (f a b)) s r := by
    rintro c d f h1 h2 s r ⟨r1, hr1, hr⟩
    rcases (h1 s).2 r1 hr1 with rfl | ⟨v, rfl⟩
    · -- undefined behaviour of the first
      have hr : r = .ub := hr
      subst hr
      obtain ⟨r2, hr2⟩ := (h2 s).1
      rcases (h2 s).2 r2 hr2 with rfl | ⟨w, rfl⟩
      · exact ⟨.ub, hr2, rfl⟩
      · exact ⟨.done w s, hr2, .ub, hr1, rfl⟩
    · obtain ⟨r2, hr2, hr⟩ := hr
      rcases (h2 s).2 r2 hr2 with rfl | ⟨w, rfl⟩
      · exact ⟨.ub, hr2, hr⟩
      · exact ⟨.done w s, hr2, .done v s, hr1, hr⟩
  exact Comp.ext fun s r => ⟨key h1 h2 s r, key (f := fun a b => (b, a)) h2 h1 s r⟩

/-- A fixed value commutes with everything. -/
theorem Comp.commute_pure (v : V) (c : Comp S V) :
    Comp.Commute (.pure v) c ∧ Comp.Commute c (.pure v) := by
  constructor <;> simp [Comp.Commute, Comp.both]

/-- Operators without side effects do not change the state. -/
structure Machine.Reads (M : Machine S V) : Prop where
  bin : ∀ op u v s w s', op.isAssign = false → M.bin op u v s = some (w, s') → s' = s
  un : ∀ op v s w s', op.isIncDec = false → M.un op v s = some (w, s') → s' = s
  conv : ∀ t v s w s', M.conv t v s = some (w, s') → s' = s

theorem Machine.Reads.evalBin {M : Machine S V} (hM : M.Reads) {op : BOp} (ho : op.isAssign = false)
    {c d : Comp S V} (h1 : c.Quiet) (h2 : d.Quiet) : (M.evalBin op c d).Quiet := by
  unfold Machine.evalBin
  split
  · refine h1.bind fun v => (Comp.Quiet.ofOption _).bind fun z => ?_
    split
    · exact .pure _
    · exact h2.bind fun w => (Comp.Quiet.ofOption _).bind fun z => .pure _
  · split
    · exact h1.bind fun _ => h2
    · exact (h1.both h2).bind fun p => .lift fun s a s' => hM.bin _ _ _ _ _ _ ho

theorem Machine.Reads.evalUn {M : Machine S V} (hM : M.Reads) {op : UOp} (ho : op.isIncDec = false)
    {c : Comp S V} (h1 : c.Quiet) : (M.evalUn op c).Quiet := by
  unfold Machine.evalUn
  split
  · exact h1.bind fun v => (Comp.Quiet.ofOption _).bind fun z => .pure _
  · exact h1.bind fun v => .lift fun s a s' => hM.un _ _ _ _ _ ho

/-- Expressions that only read are evaluated by computations that only read. -/
theorem Exp.Quiet.eval {M : Machine S V} (hM : M.Reads) (l : Lang)
    (calls : Nat → List V → Comp S V) {x : Exp S V} (h : x.Quiet) :
    (x.eval (Interp.original l M) calls).Quiet := by
  induction x with
  | atom c => exact h
  | step f x ih => exact (ih h.1).bind h.2
  | bin op x y ih1 ih2 => exact hM.evalBin h.1 (ih1 h.2.1) (ih2 h.2.2)
  | binAt s id x y ih1 ih2 => exact hM.evalBin h.1 (ih1 h.2.1) (ih2 h.2.2)
  | un op x ih => exact hM.evalUn h.1 (ih h.2)
  | unAt s id x ih => exact hM.evalUn h.1 (ih h.2)
  | exprAt s id x ih => exact ih h
  | load t x ih => exact (ih h).bind fun v => .lift fun s a s' => hM.conv _ _ _ _ _
  | loadAt s id x ih => exact (ih h).bind fun v => .lift fun s a s' => hM.conv _ _ _ _ _
  | cond x y z ih1 ih2 ih3 =>
    refine ((ih1 h.1).bind fun v => .ofOption _).bind fun b => ?_
    cases b
    · exact ih3 h.2.2
    · exact ih2 h.2.1
  | call f n args ih => exact h.elim

/-- Operands that do not influence each other commute. -/
theorem Exp.Apart.commute {M : Machine S V} (hM : M.Reads) (l : Lang)
    (calls : Nat → List V → Comp S V) {x y : Exp S V} (h : x.Apart y) :
    (x.eval (Interp.original l M) calls).Commute (y.eval (Interp.original l M) calls) := by
  rcases h with ⟨v, rfl⟩ | ⟨v, rfl⟩ | ⟨hx, hy⟩
  · exact (Comp.commute_pure v _).1
  · exact (Comp.commute_pure v _).2
  · exact (hx.eval hM l calls).commute (hy.eval hM l calls)

/-- The machine for integers. -/
theorem intMachine_reads {R X : Type} (N : IntRules) (l : Lang) (std : Std)
    (truthX : X → Option Bool) : (intMachine N l std R truthX).Reads where
  bin op u v s w s' ho h := by
    simp only [intMachine, IntRules.binVal] at h
    split at h
    · split at h
      · cases h; rfl
      · obtain ⟨r, -, h⟩ := Option.map_eq_some_iff.1 h
        cases h; rfl
    · have h1 : op ≠ .assign := by rintro rfl; cases ho
      have h2 : op.compound = none := by cases op <;> first | rfl | cases ho
      simp [h1, h2] at h
    · cases h
  un op v s w s' ho h := by
    simp only [intMachine, IntRules.unVal] at h
    split at h
    · split at h
      · cases h; rfl
      · obtain ⟨r, -, h⟩ := Option.map_eq_some_iff.1 h
        cases h; rfl
      · cases h; rfl
      · cases h
    · have h2 : op.delta = none := by cases op <;> first | rfl | cases ho
      simp [h2] at h
    · cases h
  conv t v s w s' h := by
    simp only [intMachine, IntRules.convVal] at h
    split at h
    · split at h
      · cases h
      · split at h
        · cases h; rfl
        · obtain ⟨r, -, h⟩ := Option.map_eq_some_iff.1 h
          cases h; rfl
        · cases h
    · split at h
      · split at h
        · cases h; rfl
        · cases h
      · cases h
    · cases h

end Dredd
