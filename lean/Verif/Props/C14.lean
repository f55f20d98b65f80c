/-
C14: enabling one mutant performs exactly the change the mutation information
describes.

`insts` is the list of (id, action) pairs of the reported group.  The meaning of
an action is defined in `Spec/Action.lean`, without reference to the code that
the tool generates.
-/
import Verif.Props.C13
import Verif.Props.C16

namespace Dredd

variable {S V D : Type} {Ok : D → Prop} {b : Prop}

/-- Exactly one mutant of the group is enabled; its action is `a`. -/
def OnlyEnabled {α : Type} (E : Nat → Bool) (insts : List (Nat × α)) (a : α) : Prop :=
  ∃ i, (i, a) ∈ insts ∧ E i = true ∧ ∀ j a', (j, a') ∈ insts → E j = true → j = i

theorem OnlyEnabled.smallest {α : Type} {E : Nat → Bool} {insts : List (Nat × α)} {a : α}
    (h : OnlyEnabled E insts a) : Smallest E insts a := by
  obtain ⟨i, h1, h2, h3⟩ := h
  exact ⟨i, h1, h2, fun j a' hj he => Nat.le_of_eq (h3 j a' hj he).symm⟩

/-- When it makes no difference that some operands are evaluated before the
call: operands that the change does not use have no effect, and the order is open
or irrelevant. -/
def BChange.Direct (std : Std) (lazy1 lazy2 : Bool) (c1 c2 : Comp S V) : BChange → Prop
  | .lhs => lazy2 = true ∨ c2.Idle
  | .rhs => lazy1 = true ∨ c1.Idle
  | .op o =>
    if o.isLogical then lazy2 = true ∨ (c2.Idle ∧ c1.Commute c2)
    else std.order o = .unseq ∨ c1.Commute c2 ∨ callOrder lazy1 lazy2 (std.order o) = std.order o

/-- When in addition all behaviours of the changed expression remain. -/
def BChange.AllOrders (std : Std) (lazy1 lazy2 : Bool) (c1 c2 : Comp S V) : BChange → Prop
  | .lhs => True
  | .rhs => True
  | .op o => o.isLogical = true ∨ c1.Commute c2 ∨
      callOrder lazy1 lazy2 (std.order o) = std.order o

theorem prepare2_change (M : Machine S V) (lazy1 lazy2 : Bool) (c1 c2 : Comp S V) (x : BChange)
    (hx : x ≠ .op .comma) (hd : x.Direct M.std lazy1 lazy2 c1 c2) :
    (∀ s r, prepare2 lazy1 lazy2 c1 c2 (fun a1 a2 => x.eval M a1 a2) s r → x.eval M c1 c2 s r) ∧
    (x.AllOrders M.std lazy1 lazy2 c1 c2 → ∀ s r, x.eval M c1 c2 s r →
      prepare2 lazy1 lazy2 c1 c2 (fun a1 a2 => x.eval M a1 a2) s r) := by
  cases x with
  | lhs =>
    simp only [BChange.eval]
    rw [prepare2_lhs _ _ _ _ hd]
    exact ⟨fun _ _ h => h, fun _ _ _ h => h⟩
  | rhs =>
    simp only [BChange.eval]
    rw [prepare2_rhs _ _ _ _ hd]
    exact ⟨fun _ _ h => h, fun _ _ _ h => h⟩
  | op o =>
    simp only [BChange.eval]
    by_cases hl : o.isLogical = true
    · have e : prepare2 lazy1 lazy2 c1 c2 (fun a1 a2 => M.evalBin o a1 a2) = M.evalBin o c1 c2 := by
        simp only [BChange.Direct, hl, if_true] at hd
        cases lazy2 with
        | true => exact prepare2_logical M _ _ hl _ _
        | false =>
          have hd' : c2.Idle ∧ c1.Commute c2 := by simpa using hd
          exact prepare2_logical_eager M _ _ hl _ _ hd'.1 hd'.2
      rw [e]
      exact ⟨fun _ _ h => h, fun _ _ _ h => h⟩
    · have hl' : o.isLogical = false := by simpa using hl
      have hc : o ≠ .comma := by rintro rfl; exact hx rfl
      have hc' : (o == BOp.comma) = false := by simpa using hc
      have ev : M.evalBin o c1 c2 = Comp.bind (Comp.both (M.std.order o) c1 c2)
          fun q => .lift (M.bin o q.1 q.2) := by
        unfold Machine.evalBin
        simp [hl', hc']
      rw [prepare2_strict M _ _ _ hl' hc, ev]
      simp only [BChange.Direct, hl', Bool.false_eq_true, if_false] at hd
      constructor
      · rintro st r ⟨r1, hr1, hr2⟩
        refine ⟨r1, ?_, hr2⟩
        rcases hd with hu | hc | he
        · rw [hu] at hr1 ⊢
          exact both_unseq _ _ _ hr1
        · rw [both_commute hc _ (M.std.order o)] at hr1
          exact hr1
        · rw [he] at hr1
          exact hr1
      · rintro hx st r ⟨r1, hr1, hr2⟩
        refine ⟨r1, ?_, hr2⟩
        rcases hx with h | hc | he
        · exact absurd h hl
        · rw [both_commute hc _ (M.std.order o)]
          exact hr1
        · rw [he]
          exact hr1

theorem BAct.change_ne_comma (a : BAct) : a.change ≠ .op .comma := by
  cases a <;> simp [BAct.change]

theorem bind_mono {α β : Type} {c d : Comp S α} {k : α → Comp S β} (h : ∀ s r, c s r → d s r) :
    ∀ s r, Comp.bind c k s r → Comp.bind d k s r := by
  rintro s r ⟨r1, h1, h2⟩
  exact ⟨r1, h _ _ h1, h2⟩

/-- Binary operators (except logical operators in C), exactly: operands that
are passed by value are evaluated first, the others where the changed expression
needs them; then the changed expression is evaluated and converted to the type of
the original. -/
theorem C14_binary_exact (s : BinSite) (l : Lang) (o : Options) (M : Machine S V) (dev : Device D)
    (E : Nat → Bool) (first id n : Nat) (hdev : dev.Faithful Ok (fun i => E (first + i)) n)
    (ho : o.track = false) (hc : ¬(l.cpp = false ∧ s.op.isLogical = true)) (hf : first ≤ id)
    (hn : (s.apply l o first id).nextId ≤ first + n)
    {p : PBOp} {i1 i2 i3 : RangeInfo} {insts : List (Nat × BAct)}
    (hg : (s.apply l o first id).group = .replaceBin p i1 i2 i3 insts)
    {c1 c2 : Comp S V} {c1' c2' : Comp (S × D) V}
    (h1 : Sim Ok b c1 c1') (h2 : Sim Ok b c2 c2') (a : BAct) (ha : OnlyEnabled E insts a) :
    Sim Ok b
      (prepare2 (l.cpp && s.lhs.sideEffects) (l.cpp && (s.op.isLogical || s.rhs.sideEffects)) c1 c2
        fun a1 a2 => (a.change.eval M a1 a2).to M (s.resTyText l))
      (s.exec l o M dev (id - first) c1' c2') :=
  (C15_binary s l o M dev E first id n hdev ho hc hf hn hg h1 h2).1 a ha.smallest

/-- Binary operators: the instrumented operator does only what the changed
expression may do (and all of it, under `AllOrders`).

Full statement: the same without `hd`.  It is false: in C an operand that the
changed expression drops is still evaluated (`C14_lhs_c_false`), and in C++17
shifts and assignments may evaluate their operands in the wrong order
(`C13_shift_false`, the same with a mutant enabled). -/
theorem C14_binary_partial (s : BinSite) (l : Lang) (o : Options) (M : Machine S V) (dev : Device D)
    (E : Nat → Bool) (first id n : Nat) (hdev : dev.Faithful Ok (fun i => E (first + i)) n)
    (ho : o.track = false) (hc : ¬(l.cpp = false ∧ s.op.isLogical = true)) (hf : first ≤ id)
    (hn : (s.apply l o first id).nextId ≤ first + n)
    {p : PBOp} {i1 i2 i3 : RangeInfo} {insts : List (Nat × BAct)}
    (hg : (s.apply l o first id).group = .replaceBin p i1 i2 i3 insts)
    {c1 c2 : Comp S V} {c1' c2' : Comp (S × D) V}
    (h1 : Sim Ok b c1 c1') (h2 : Sim Ok b c2 c2') (a : BAct) (ha : OnlyEnabled E insts a)
    (hd : a.change.Direct M.std (l.cpp && s.lhs.sideEffects)
      (l.cpp && (s.op.isLogical || s.rhs.sideEffects)) c1 c2) :
    Sim Ok (b ∧ a.change.AllOrders M.std (l.cpp && s.lhs.sideEffects)
        (l.cpp && (s.op.isLogical || s.rhs.sideEffects)) c1 c2)
      ((a.change.eval M c1 c2).to M (s.resTyText l)) (s.exec l o M dev (id - first) c1' c2') := by
  have h := C14_binary_exact s l o M dev E first id n hdev ho hc hf hn hg h1 h2 a ha
  unfold Comp.to at h
  rw [prepare2_bind] at h
  obtain ⟨hA, hB⟩ := prepare2_change M _ _ c1 c2 a.change a.change_ne_comma hd
  exact (h.mono fun x => x.1).widen (bind_mono hA) (fun hx => bind_mono (hB hx.2))

/-- In C++, operands without side effects being idle is all that is needed for
replacement by an operand and (if the site is a logical operator) for the other
logical operator: the instrumented operator has exactly the behaviours of the
changed expression. -/
theorem C14_binary_cpp (s : BinSite) (l : Lang) (o : Options) (M : Machine S V) (dev : Device D)
    (E : Nat → Bool) (first id n : Nat) (hdev : dev.Faithful Ok (fun i => E (first + i)) n)
    (ho : o.track = false) (hcpp : l.cpp = true) (hf : first ≤ id)
    (hn : (s.apply l o first id).nextId ≤ first + n)
    {p : PBOp} {i1 i2 i3 : RangeInfo} {insts : List (Nat × BAct)}
    (hg : (s.apply l o first id).group = .replaceBin p i1 i2 i3 insts)
    {c1 c2 : Comp S V} {c1' c2' : Comp (S × D) V}
    (h1 : Sim Ok b c1 c1') (h2 : Sim Ok b c2 c2') (a : BAct) (ha : OnlyEnabled E insts a)
    (hs1 : s.lhs.sideEffects = false → c1.Idle) (hs2 : s.rhs.sideEffects = false → c2.Idle)
    (hk : a.change = .lhs ∨ a.change = .rhs ∨
      s.op.isLogical = true ∧ ∃ x, a.change = .op x ∧ x.isLogical = true) :
    Sim Ok b ((a.change.eval M c1 c2).to M (s.resTyText l))
      (s.exec l o M dev (id - first) c1' c2') := by
  have e1 : (l.cpp && s.lhs.sideEffects) = true ∨ c1.Idle := by
    cases h : s.lhs.sideEffects
    · exact .inr (hs1 h)
    · simp [hcpp]
  have e2 : (l.cpp && (s.op.isLogical || s.rhs.sideEffects)) = true ∨ c2.Idle := by
    cases h : s.rhs.sideEffects
    · exact .inr (hs2 h)
    · simp [hcpp]
  refine (C14_binary_partial s l o M dev E first id n hdev ho (by simp [hcpp]) hf hn hg h1 h2 a ha
    ?_).mono fun hb => ⟨hb, ?_⟩
  · rcases hk with hk | hk | ⟨hl, x, hk, hx⟩ <;> rw [hk]
    · exact e2
    · exact e1
    · simp [BChange.Direct, hx, hcpp, hl]
  · rcases hk with hk | hk | ⟨hl, x, hk, hx⟩ <;> rw [hk]
    · trivial
    · trivial
    · exact .inl hx

/-- Unary operators: exactly the behaviours of the changed expression. -/
theorem C14_unary (s : UnSite) (l : Lang) (o : Options) (M : Machine S V) (dev : Device D)
    (E : Nat → Bool) (first id n : Nat) (hdev : dev.Faithful Ok (fun i => E (first + i)) n)
    (ho : o.track = false) (hf : first ≤ id) (hn : (s.apply l o first id).nextId ≤ first + n)
    {p : PUOp} {i1 i2 : RangeInfo} {insts : List (Nat × UAct)}
    (hg : (s.apply l o first id).group = .replaceUn p i1 i2 insts)
    {c : Comp S V} {c' : Comp (S × D) V} (h : Sim Ok b c c') (a : UAct)
    (ha : OnlyEnabled E insts a) :
    Sim Ok b ((a.change.eval M c).to M (s.resTyText l)) (s.exec l o M dev (id - first) c') := by
  have h := (C15_unary s l o M dev E first id n hdev ho hf hn hg h).1 a ha.smallest
  unfold Comp.to at h
  rw [prepare1_bind] at h
  have e : prepare1 (l.cpp && s.self.sideEffects) c (fun x => a.change.eval M x)
      = a.change.eval M c := by
    cases a.change with
    | op o => exact prepare1_evalUn M _ o c
    | operand => exact prepare1_id _ c
  rw [e] at h
  exact h

/-- Expressions: insertions behave exactly like the changed expression;
replacement by a constant likewise if the original is not evaluated (C++, side
effects) or evaluating it has no effect. -/
theorem C14_expr_partial (s : ExprSite) (l : Lang) (o : Options) (M : Machine S V) (dev : Device D)
    (E : Nat → Bool) (first id n : Nat) (hdev : dev.Faithful Ok (fun i => E (first + i)) n)
    (ho : o.track = false) (hf : first ≤ id) (hn : (s.apply l o first id).nextId ≤ first + n)
    {i1 : RangeInfo} {insts : List (Nat × EAct)}
    (hg : (s.apply l o first id).group = .replaceExpr i1 insts)
    {c : Comp S V} {c' : Comp (S × D) V} (h : Sim Ok b c c') (a : EAct)
    (ha : OnlyEnabled E insts a)
    (hd : ∀ k, a.change l.cpp = .const k → (l.cpp && s.self.sideEffects) = true ∨ c.Idle) :
    Sim Ok b (((a.change l.cpp).eval M c).to M (s.self.ty.name l))
      (s.exec l o M dev (id - first) c') := by
  have h := (C15_expr s l o M dev E first id n hdev ho hf hn hg h).1 a ha.smallest
  unfold Comp.to at h
  rw [prepare1_bind] at h
  have e : prepare1 (l.cpp && s.self.sideEffects) c (fun x => (a.change l.cpp).eval M x)
      = (a.change l.cpp).eval M c := by
    cases hch : a.change l.cpp with
    | insert o => exact prepare1_evalUn M _ o c
    | const k =>
      cases hz : (l.cpp && s.self.sideEffects) with
      | true => rfl
      | false =>
        have : c.Idle := by simpa [hz] using hd k hch
        exact idle_bind this _
  rw [e] at h
  exact h

/-- In C++ this needs only that expressions without side effects are idle. -/
theorem C14_expr_cpp (s : ExprSite) (l : Lang) (o : Options) (M : Machine S V) (dev : Device D)
    (E : Nat → Bool) (first id n : Nat) (hdev : dev.Faithful Ok (fun i => E (first + i)) n)
    (ho : o.track = false) (hcpp : l.cpp = true)
    (hf : first ≤ id) (hn : (s.apply l o first id).nextId ≤ first + n)
    {i1 : RangeInfo} {insts : List (Nat × EAct)}
    (hg : (s.apply l o first id).group = .replaceExpr i1 insts)
    {c : Comp S V} {c' : Comp (S × D) V} (h : Sim Ok b c c') (a : EAct)
    (ha : OnlyEnabled E insts a) (hs : s.self.sideEffects = false → c.Idle) :
    Sim Ok b (((a.change true).eval M c).to M (s.self.ty.name l))
      (s.exec l o M dev (id - first) c') := by
  have := C14_expr_partial s l o M dev E first id n hdev ho hf hn hg h a ha fun _ _ => by
    cases hse : s.self.sideEffects
    · exact .inr (hs hse)
    · simp [hcpp]
  rwa [hcpp] at this

/-- Replacement by an operand or constant in C keeps the value but also the
evaluation of what is replaced: the original is evaluated and then the constant
is returned. -/
theorem C14_expr_c (s : ExprSite) (l : Lang) (o : Options) (M : Machine S V) (dev : Device D)
    (E : Nat → Bool) (first id n : Nat) (hdev : dev.Faithful Ok (fun i => E (first + i)) n)
    (ho : o.track = false) (hcpp : l.cpp = false)
    (hf : first ≤ id) (hn : (s.apply l o first id).nextId ≤ first + n)
    {i1 : RangeInfo} {insts : List (Nat × EAct)}
    (hg : (s.apply l o first id).group = .replaceExpr i1 insts)
    {c : Comp S V} {c' : Comp (S × D) V} (h : Sim Ok b c c') (a : EAct)
    (ha : OnlyEnabled E insts a) :
    Sim Ok b (Comp.bind c fun v => ((a.change false).eval M (.pure v)).to M (s.self.ty.name l))
      (s.exec l o M dev (id - first) c') := by
  have h := (C15_expr s l o M dev E first id n hdev ho hf hn hg h).1 a ha.smallest
  simpa [hcpp, prepare1] using h

/-- A group that does not contain the only enabled id has no enabled mutant, so
that C13 applies to it. -/
theorem C14_others {α : Type} (E : Nat → Bool) (i : Nat) (hE : ∀ j, E j = true → j = i)
    (insts : List (Nat × α)) (hi : ∀ a, (i, a) ∉ insts) : NoneEnabled E insts := by
  intro j a hj
  cases h : E j
  · rfl
  · rw [hE j h] at hj
    exact absurd hj (hi a)

/-- The mutants of a group have different ids, so that exactly one mutant of a
group that contains the only enabled id is enabled. -/
theorem C14_only {α : Type} (E : Nat → Bool) (i : Nat) (hE : ∀ j, E j = true ↔ j = i)
    (insts : List (Nat × α)) (a : α) (hi : (i, a) ∈ insts) : OnlyEnabled E insts a :=
  ⟨i, hi, (hE i).2 rfl, fun j _ _ h => (hE j).1 h⟩

/-- C++ prelude, first id 0, 20 mutants, only mutant 4 enabled. -/
theorem Sample.enabled4 (cpp : Bool) : (mutatingPrelude cpp 0 20 (some t!"4")).Faithful
    (PreludeOk 0 20 [4]) (fun i => inList [4] (0 + i)) 20 :=
  mutatingPrelude_faithful cpp 0 20 (some t!"4") [4]
    (.inr ⟨[t!"4"], by simp, rfl, .num ⟨[], t!"4", by simp, by simp, by decide,
      .inl ⟨rfl, rfl⟩⟩ (by decide) (by decide) .nil⟩) (by simp)

theorem inList_singleton (k j : Nat) : inList [(k : Int)] j = true ↔ j = k := by
  simp only [inList, List.mem_singleton, decide_eq_true_eq]
  omega

/-- `x + ++x` in C with `ReplaceWithLHS` enabled still increments `x`. -/
theorem C14_lhs_c_false :
    ∃ (s : BinSite) (dev : Device Thread) (n : Nat) (Ok : Thread → Prop) (E : Nat → Bool)
      (p : PBOp) (i1 i2 i3 : RangeInfo) (insts : List (Nat × BAct)) (c1 c2 : Comp Int Int)
      (c1' c2' : Comp (Int × Thread) Int),
      dev.Faithful Ok (fun i => E (0 + i)) n ∧
      (s.apply Sample.c Sample.opts 0 0).nextId ≤ 0 + n ∧
      (s.apply Sample.c Sample.opts 0 0).group = .replaceBin p i1 i2 i3 insts ∧
      OnlyEnabled E insts .ReplaceWithLHS ∧ Sim Ok True c1 c1' ∧ Sim Ok True c2 c2' ∧
      ¬ Sim Ok False ((BAct.ReplaceWithLHS.change.eval (Sample.machine .c) c1 c2).to
            (Sample.machine .c) (s.resTyText Sample.c))
          (s.exec Sample.c Sample.opts (Sample.machine .c) dev 0 c1' c2') := by
  let s := Sample.bin .add Sample.intVal Sample.intCall
  have hon : OnlyEnabled (inList [4])
      [(0, BAct.ReplaceWithDiv), (1, .ReplaceWithMul), (2, .ReplaceWithRem), (3, .ReplaceWithSub),
       (4, .ReplaceWithLHS), (5, .ReplaceWithRHS)] .ReplaceWithLHS :=
    C14_only _ 4 (inList_singleton 4) _ _ (by simp)
  refine ⟨s, mutatingPrelude false 0 20 (some t!"4"), 20, _, inList [4], .Add, _, _, _,
    [(0, .ReplaceWithDiv), (1, .ReplaceWithMul), (2, .ReplaceWithRem), (3, .ReplaceWithSub),
     (4, .ReplaceWithLHS), (5, .ReplaceWithRHS)], .lift Sample.read, .lift Sample.inc,
    Sample.up Sample.read, Sample.up Sample.inc, Sample.enabled4 false, by decide, rfl, hon,
    .lift _, .lift _, ?_⟩
  refine not_sim (C14_binary_exact s Sample.c Sample.opts
    (Sample.machine .c) (mutatingPrelude false 0 20 (some t!"4")) (inList [4]) 0 0 20
    (Sample.enabled4 false) rfl
    (by decide) (Nat.le_refl 0) (by decide) rfl (.lift Sample.read) (.lift Sample.inc) _ hon)
    0 (Thread.start 20) (.inl rfl) 0 1 ?_ ?_
  · exact ⟨.done (0, 1) 1, .inl ⟨.done 0 0, rfl, .done 1 1, rfl, rfl⟩, ⟨.done 0 1, rfl, rfl⟩⟩
  · rintro ⟨r1, h1, h2⟩
    cases h1
    cases h2

/-- The hypotheses of `C14_binary_cpp` can be met: `++x + ++x` with
`ReplaceWithLHS`. -/
example : Sim (PreludeOk 0 20 [4]) True
    ((Comp.lift Sample.inc).to (Sample.machine .cpp17) t!"int")
    ((Sample.bin .add Sample.intCall Sample.intCall).exec Sample.cpp Sample.opts
      (Sample.machine .cpp17) (mutatingPrelude true 0 20 (some t!"4")) 0
      (Sample.up Sample.inc) (Sample.up Sample.inc)) :=
  C14_binary_cpp (Sample.bin .add Sample.intCall Sample.intCall) Sample.cpp Sample.opts
    (Sample.machine .cpp17) _ (inList [4]) 0 0 20 (Sample.enabled4 true) rfl rfl (Nat.le_refl 0) (by decide) rfl
    (.lift Sample.inc) (.lift Sample.inc) .ReplaceWithLHS (C14_only _ 4 (inList_singleton 4) _ _ (by decide))
    (fun h => by cases h) (fun h => by cases h) (.inl rfl)

/-- The hypotheses of `C14_unary` can be met: `-++x` whose ids start at 3, with
the mutant 4. -/
example : ∃ a : UAct, Sim (PreludeOk 0 20 [4]) True
    ((a.change.eval (Sample.machine .cpp17) (.lift Sample.inc)).to (Sample.machine .cpp17) t!"int")
    ((Sample.un .minus Sample.intCall Sample.intCall).exec Sample.cpp Sample.opts
      (Sample.machine .cpp17) (mutatingPrelude true 0 20 (some t!"4")) 3
      (Sample.up Sample.inc)) :=
  ⟨.ReplaceWithLNot, C14_unary (Sample.un .minus Sample.intCall Sample.intCall) Sample.cpp
    Sample.opts _ _ (inList [4]) 0 3 20 (Sample.enabled4 true) rfl (by decide) (by decide) rfl
    (.lift _) _ (C14_only _ 4 (inList_singleton 4) _ _ (by decide))⟩

/-- The hypotheses of `C14_expr_cpp` can be met: a call whose ids start at 3. -/
example : ∃ a : EAct, Sim (PreludeOk 0 20 [4]) True
    (((a.change true).eval (Sample.machine .cpp17) (.lift Sample.inc)).to
      (Sample.machine .cpp17) t!"int")
    ((Sample.expr Sample.intCall).exec Sample.cpp Sample.opts
      (Sample.machine .cpp17) (mutatingPrelude true 0 20 (some t!"4")) 3
      (Sample.up Sample.inc)) :=
  ⟨.InsertNot, C14_expr_cpp (Sample.expr Sample.intCall) Sample.cpp
    Sample.opts _ _ (inList [4]) 0 3 20 (Sample.enabled4 true) rfl rfl (by decide) (by decide) rfl
    (.lift _) _ (C14_only _ 4 (inList_singleton 4) _ _ (by decide)) (fun h => by cases h)⟩

end Dredd
