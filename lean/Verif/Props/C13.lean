/-
C13: with no mutant enabled, each instrumented operator or expression behaves
like the original.

The operands are arbitrary computations (any value, side effect, undefined
behaviour, abrupt end, any number of steps); `c1'`, `c2'` are the operands in the
instrumented program, themselves instrumented.  `Sim Ok b c c'` says that every
behaviour of `c'` is one of `c`, and, if `b`, conversely; as the operands can
record their evaluations in the state, this covers how often and when they are
evaluated.
-/
import Verif.Props.C15
import Verif.Proofs.Order
import Verif.Spec.SampleMachine

namespace Dredd

variable {S V D : Type} {Ok : D → Prop} {b : Prop}

/-- Logical operators in C++ behave like the original, with exactly the same
behaviours. -/
theorem C13_logical_cpp (s : BinSite) (l : Lang) (o : Options) (M : Machine S V) (dev : Device D)
    (E : Nat → Bool) (first id n : Nat) (hdev : dev.Faithful Ok (fun i => E (first + i)) n)
    (ho : o.track = false) (hcpp : l.cpp = true) (hlog : s.op.isLogical = true) (hf : first ≤ id)
    (hn : (s.apply l o first id).nextId ≤ first + n)
    {p : PBOp} {i1 i2 i3 : RangeInfo} {insts : List (Nat × BAct)}
    (hg : (s.apply l o first id).group = .replaceBin p i1 i2 i3 insts)
    (hE : NoneEnabled E insts) {c1 c2 : Comp S V} {c1' c2' : Comp (S × D) V}
    (hty : M.ResultType s.op (s.resTyText l) c1 c2)
    (h1 : Sim Ok b c1 c1') (h2 : Sim Ok b c2 c2') :
    Sim Ok b (M.evalBin s.op c1 c2) (s.exec l o M dev (id - first) c1' c2') := by
  have h := (C15_binary s l o M dev E first id n hdev ho (by simp [hcpp]) hf hn hg h1 h2).2 hE
  have hcomma : s.op ≠ .comma := by rintro h'; rw [h'] at hlog; cases hlog
  unfold Comp.to at h
  rw [prepare2_bind, hlog, hcpp, Bool.true_or, Bool.and_true,
    prepare2_logical M _ _ hlog] at h
  have e := Comp.to_eq M (s.resTyText l) _ (evalBin_hasType hty hcomma)
  unfold Comp.to at e
  rw [e] at h
  exact h

/-- The other binary operators: the instrumented operator evaluates both
operands, each once, in the order `callOrder`, and applies the operator. -/
theorem C13_binary_exact (s : BinSite) (l : Lang) (o : Options) (M : Machine S V)
    (dev : Device D) (E : Nat → Bool) (first id n : Nat)
    (hdev : dev.Faithful Ok (fun i => E (first + i)) n)
    (ho : o.track = false) (hlog : s.op.isLogical = false) (hcomma : s.op ≠ .comma)
    (hf : first ≤ id) (hn : (s.apply l o first id).nextId ≤ first + n)
    {p : PBOp} {i1 i2 i3 : RangeInfo} {insts : List (Nat × BAct)}
    (hg : (s.apply l o first id).group = .replaceBin p i1 i2 i3 insts)
    (hE : NoneEnabled E insts) {c1 c2 : Comp S V} {c1' c2' : Comp (S × D) V}
    (hty : M.ResultType s.op (s.resTyText l) c1 c2)
    (h1 : Sim Ok b c1 c1') (h2 : Sim Ok b c2 c2') :
    Sim Ok b
      (Comp.bind (Comp.both (callOrder (l.cpp && s.lhs.sideEffects) (l.cpp && s.rhs.sideEffects)
        (M.std.order s.op)) c1 c2) fun q => .lift (M.bin s.op q.1 q.2))
      (s.exec l o M dev (id - first) c1' c2') := by
  have h := (C15_binary s l o M dev E first id n hdev ho (by simp [hlog]) hf hn hg h1 h2).2 hE
  unfold Comp.to at h
  rw [prepare2_bind, hlog, Bool.false_or, prepare2_strict M _ _ _ hlog hcomma] at h
  rw [Comp.bind_assoc] at h
  rw [Comp.bind_congr (k' := fun q => .lift (M.bin s.op q.1 q.2))] at h
  · exact h
  · intro q hq
    have hy := Comp.yields_both hq
    exact Comp.to_eq M _ _ fun st v st' hd => hty.bin hlog _ _ hy.1 hy.2 _ _ _ (Comp.lift_done hd)

/-- Binary operators other than logical ones: if the language leaves the order
of evaluation of the operands open (C, C++ before 2017, and in C++17 all
operators but shifts and assignments), or the operands do not influence each
other, then the instrumented operator does only what the original may do; and
all of that, if it also does not fix the order.

Full statement: the same without `hord`.  It is false in C++17
(`C13_shift_false`, `C13_assign_false`). -/
theorem C13_binary_partial (s : BinSite) (l : Lang) (o : Options) (M : Machine S V)
    (dev : Device D) (E : Nat → Bool) (first id n : Nat)
    (hdev : dev.Faithful Ok (fun i => E (first + i)) n)
    (ho : o.track = false) (hlog : s.op.isLogical = false) (hcomma : s.op ≠ .comma)
    (hf : first ≤ id) (hn : (s.apply l o first id).nextId ≤ first + n)
    {p : PBOp} {i1 i2 i3 : RangeInfo} {insts : List (Nat × BAct)}
    (hg : (s.apply l o first id).group = .replaceBin p i1 i2 i3 insts)
    (hE : NoneEnabled E insts) {c1 c2 : Comp S V} {c1' c2' : Comp (S × D) V}
    (hty : M.ResultType s.op (s.resTyText l) c1 c2)
    (h1 : Sim Ok b c1 c1') (h2 : Sim Ok b c2 c2')
    (hord : M.std.order s.op = .unseq ∨ c1.Commute c2 ∨
      callOrder (l.cpp && s.lhs.sideEffects) (l.cpp && s.rhs.sideEffects) (M.std.order s.op)
        = M.std.order s.op) :
    Sim Ok (b ∧ (l.cpp = false ∧ M.std.order s.op = .unseq ∨ c1.Commute c2 ∨
        callOrder (l.cpp && s.lhs.sideEffects) (l.cpp && s.rhs.sideEffects) (M.std.order s.op)
          = M.std.order s.op))
      (M.evalBin s.op c1 c2) (s.exec l o M dev (id - first) c1' c2') := by
  have h := C13_binary_exact s l o M dev E first id n hdev ho hlog hcomma hf hn hg hE hty h1 h2
  have hc' : (s.op == BOp.comma) = false := by simpa using hcomma
  have ev : M.evalBin s.op c1 c2 = Comp.bind (Comp.both (M.std.order s.op) c1 c2)
      fun q => .lift (M.bin s.op q.1 q.2) := by
    unfold Machine.evalBin
    simp [hlog, hc']
  rw [ev]
  refine (h.mono fun x => x.1).widen ?_ ?_
  · rintro st r ⟨r1, hr1, hr2⟩
    refine ⟨r1, ?_, hr2⟩
    rcases hord with hu | hc | he
    · rw [hu] at hr1 ⊢
      exact both_unseq _ _ _ hr1
    · rw [both_commute hc _ (M.std.order s.op)] at hr1
      exact hr1
    · rw [he] at hr1
      exact hr1
  · rintro ⟨-, hx⟩ st r ⟨r1, hr1, hr2⟩
    refine ⟨r1, ?_, hr2⟩
    rcases hx with ⟨hC, hu⟩ | hc | he
    · simpa [hC, callOrder, hu] using hr1
    · rw [both_commute hc _ (M.std.order s.op)]
      exact hr1
    · rw [he]
      exact hr1

/-- Unary operators behave like the original, with exactly the same
behaviours. -/
theorem C13_unary (s : UnSite) (l : Lang) (o : Options) (M : Machine S V) (dev : Device D)
    (E : Nat → Bool) (first id n : Nat) (hdev : dev.Faithful Ok (fun i => E (first + i)) n)
    (ho : o.track = false) (hf : first ≤ id) (hn : (s.apply l o first id).nextId ≤ first + n)
    {p : PUOp} {i1 i2 : RangeInfo} {insts : List (Nat × UAct)}
    (hg : (s.apply l o first id).group = .replaceUn p i1 i2 insts)
    (hE : NoneEnabled E insts) {c : Comp S V} {c' : Comp (S × D) V}
    (hty : M.ResultTypeUn s.op (s.resTyText l) c) (h : Sim Ok b c c') :
    Sim Ok b (M.evalUn s.op c) (s.exec l o M dev (id - first) c') := by
  have h := (C15_unary s l o M dev E first id n hdev ho hf hn hg h).2 hE
  unfold Comp.to at h
  rw [prepare1_bind, prepare1_evalUn] at h
  have e := Comp.to_eq M (s.resTyText l) _ (evalUn_hasType hty)
  unfold Comp.to at e
  rw [e] at h
  exact h

/-- Expressions: the instrumented expression evaluates the original once and
yields its value.  For l-values this is the value read from the object, which is
what the original expression is used for (mutation_replace_expr.cc 708-714). -/
theorem C13_expr (s : ExprSite) (l : Lang) (o : Options) (M : Machine S V) (dev : Device D)
    (E : Nat → Bool) (first id n : Nat) (hdev : dev.Faithful Ok (fun i => E (first + i)) n)
    (ho : o.track = false) (hf : first ≤ id) (hn : (s.apply l o first id).nextId ≤ first + n)
    {i1 : RangeInfo} {insts : List (Nat × EAct)}
    (hg : (s.apply l o first id).group = .replaceExpr i1 insts) (hE : NoneEnabled E insts)
    {c : Comp S V} {c' : Comp (S × D) V} (h : Sim Ok b c c') :
    Sim Ok b (c.to M (s.self.ty.name l)) (s.exec l o M dev (id - first) c') ∧
    (c.HasType M (s.self.ty.name l) → Sim Ok b c (s.exec l o M dev (id - first) c')) := by
  have h := (C15_expr s l o M dev E first id n hdev ho hf hn hg h).2 hE
  unfold Comp.to at h
  rw [prepare1_bind, prepare1_id] at h
  refine ⟨h, fun hty => ?_⟩
  have e := Comp.to_eq M (s.self.ty.name l) _ hty
  unfold Comp.to at e
  rw [e] at h
  exact h

/-- If the exact behaviour of an instrumented operator has a result that the
original cannot have, it does not do only what the original may do. -/
theorem not_sim {d e : Comp S V} {c' : Comp (S × D) V} (h : Sim Ok True d c') (s : S) (x : D)
    (hx : Ok x) (v : V) (s' : S) (hd : d s (.done v s')) (he : ¬ e s (.done v s')) :
    ¬ Sim Ok False e c' := by
  intro hs
  obtain ⟨r', h1, h2⟩ := h.bwd trivial s x hx _ hd
  obtain ⟨r, h3, h4⟩ := hs.fwd s x hx r' h1
  cases r' with
  | done v1 p =>
    simp only [Res.Rel] at h2
    cases r with
    | done v2 s2 =>
      simp only [Res.Rel] at h4
      obtain ⟨rfl, rfl, -⟩ := h2
      obtain ⟨rfl, rfl, -⟩ := h4
      exact he h3
    | _ => simp [Res.Rel] at h4
  | _ => simp [Res.Rel] at h2

/-- `f() << x` in C++17, where `f` increments `x` and returns 1: with no mutant
enabled the instrumented expression can give a result that the original cannot
give, because `x` is passed by value and `f()` as a function, so that `x` is read
first. -/
theorem C13_shift_false :
    ∃ (s : BinSite) (dev : Device Thread) (n : Nat) (Ok : Thread → Prop) (E : Nat → Bool)
      (p : PBOp) (i1 i2 i3 : RangeInfo) (insts : List (Nat × BAct)) (c1 c2 : Comp Int Int)
      (c1' c2' : Comp (Int × Thread) Int),
      dev.Faithful Ok (fun i => E (0 + i)) n ∧
      (s.apply Sample.cpp Sample.opts 0 0).nextId ≤ 0 + n ∧
      (s.apply Sample.cpp Sample.opts 0 0).group = .replaceBin p i1 i2 i3 insts ∧
      NoneEnabled E insts ∧ s.op = .shl ∧
      (Sample.machine .cpp17).ResultType s.op (s.resTyText Sample.cpp) c1 c2 ∧
      Sim Ok True c1 c1' ∧ Sim Ok True c2 c2' ∧
      ¬ Sim Ok False ((Sample.machine .cpp17).evalBin s.op c1 c2)
          (s.exec Sample.cpp Sample.opts (Sample.machine .cpp17) dev 0 c1' c2') := by
  let s := Sample.bin .shl Sample.intCall Sample.intVal
  let f : Int → Option (Int × Int) := fun x => some (1, x + 1)
  let g : Int → Option (Int × Int) := fun x => some (x, x)
  have hty : (Sample.machine .cpp17).ResultType s.op (s.resTyText Sample.cpp) (.lift f) (.lift g) :=
    ⟨fun _ _ _ _ _ _ _ _ _ => rfl, fun h => by cases h⟩
  refine ⟨s, Sample.unset 3, 3, _, inList [], _, _, _, _, _, .lift f, .lift g, Sample.up f,
    Sample.up g, Sample.unset_faithful 3, by decide, rfl, fun i a _ => rfl, rfl, hty,
    .lift f, .lift g, ?_⟩
  refine not_sim (C13_binary_exact s Sample.cpp Sample.opts
    (Sample.machine .cpp17) (Sample.unset 3) (inList []) 0 0 3 (Sample.unset_faithful 3) rfl rfl
    (by decide) (Nat.le_refl 0) (by decide) rfl (fun i a _ => rfl) hty (.lift f) (.lift g))
    0 (Thread.start 3) (.inl rfl) 1 1 ?_ ?_
  · refine ⟨.done (1, 0) 1, ⟨.done 0 0, rfl, .done 1 1, rfl, rfl⟩, rfl⟩
  · rintro ⟨r1, ⟨r2, h2, h3⟩, h1⟩
    cases h2
    obtain ⟨r3, h3, h4⟩ := h3
    cases h3
    cases h4
    cases h1

/-- `a[i] = f()` in C++17, where `f` changes `i` from 1 to 0: the original
evaluates `f()` first and assigns to `a[0]`; the instrumented form binds the
reference `a[1]` first.  (On the sample machine the object with address 1 does
not exist, so that the instrumented form is undefined.) -/
theorem C13_assign_false :
    ∃ (s : BinSite) (dev : Device Thread) (n : Nat) (Ok : Thread → Prop) (E : Nat → Bool)
      (p : PBOp) (i1 i2 i3 : RangeInfo) (insts : List (Nat × BAct)) (c1 c2 : Comp Int Int)
      (c1' c2' : Comp (Int × Thread) Int),
      dev.Faithful Ok (fun i => E (0 + i)) n ∧
      (s.apply Sample.cpp Sample.opts 0 0).nextId ≤ 0 + n ∧
      (s.apply Sample.cpp Sample.opts 0 0).group = .replaceBin p i1 i2 i3 insts ∧
      NoneEnabled E insts ∧ s.op = .assign ∧
      (Sample.machine .cpp17).ResultType s.op (s.resTyText Sample.cpp) c1 c2 ∧
      Sim Ok True c1 c1' ∧ Sim Ok True c2 c2' ∧
      ¬ Sim Ok False ((Sample.machine .cpp17).evalBin s.op c1 c2)
          (s.exec Sample.cpp Sample.opts (Sample.machine .cpp17) dev 0 c1' c2') := by
  let s := Sample.bin .assign Sample.intVar Sample.intCall
  let f : Int → Option (Int × Int) := fun x => some (x, x)
  let g : Int → Option (Int × Int) := fun _ => some (7, 0)
  have hty : (Sample.machine .cpp17).ResultType s.op (s.resTyText Sample.cpp) (.lift f) (.lift g) :=
    ⟨fun _ _ _ _ _ _ _ _ _ => rfl, fun h => by cases h⟩
  refine ⟨s, Sample.unset 10, 10, _, inList [], _, _, _, _, _, .lift f, .lift g, Sample.up f,
    Sample.up g, Sample.unset_faithful 10, by decide, rfl, fun i a _ => rfl, rfl, hty,
    .lift f, .lift g, ?_⟩
  have hx := C13_binary_exact s Sample.cpp Sample.opts
    (Sample.machine .cpp17) (Sample.unset 10) (inList []) 0 0 10 (Sample.unset_faithful 10) rfl rfl
    (by decide) (Nat.le_refl 0) (by decide) rfl (fun i a _ => rfl) hty
    (Sim.lift (Ok := PreludeOk 0 10 []) (b := True) f) (Sim.lift g)
  intro hs
  obtain ⟨r', h1, h2⟩ := hx.bwd trivial 1 (Thread.start 10) (.inl rfl) .ub
    ⟨.done (1, 7) 0, ⟨.done 1 1, rfl, .done 7 0, rfl, rfl⟩, rfl⟩
  obtain ⟨r, h3, h4⟩ := hs.fwd 1 (Thread.start 10) (.inl rfl) r' h1
  cases r' <;> simp only [Res.Rel] at h2
  cases r <;> simp only [Res.Rel] at h4
  obtain ⟨r1, ⟨r2, h5, h6⟩, h8⟩ := h3
  cases h5
  obtain ⟨r3, h6, h7⟩ := h6
  cases h6
  cases h7
  cases h8

/-- The hypotheses of `C13_binary_partial` can be met: `++x + x` in C++ before
2017. -/
example : Sim (PreludeOk 0 20 []) False
    ((Sample.machine .cppOld).evalBin .add (.lift Sample.inc) (.lift Sample.read))
    ((Sample.bin .add Sample.intCall Sample.intVal).exec Sample.cpp Sample.opts
      (Sample.machine .cppOld) (Sample.unset 20) 0 (Sample.up Sample.inc) (Sample.up Sample.read)) :=
  (C13_binary_partial (b := False) (Sample.bin .add Sample.intCall Sample.intVal) Sample.cpp
    Sample.opts (Sample.machine .cppOld) (Sample.unset 20) (inList []) 0 0 20
    (Sample.unset_faithful 20) rfl rfl (by decide) (Nat.le_refl 0) (by decide) rfl
    (fun i a _ => rfl) ⟨fun _ _ _ _ _ _ _ _ _ => rfl, fun h => by cases h⟩ (.lift _) (.lift _)
    (.inl rfl)).mono fun h => h.elim

/-- The hypotheses of `C13_logical_cpp` can be met: `++x && x`. -/
example : Sim (PreludeOk 0 20 []) True
    ((Sample.machine .cpp17).evalBin .land (.lift Sample.inc) (.lift Sample.read))
    ((Sample.bin .land Sample.boolCall Sample.boolCall).exec Sample.cpp Sample.opts
      (Sample.machine .cpp17) (Sample.unset 20) 0 (Sample.up Sample.inc) (Sample.up Sample.read)) :=
  C13_logical_cpp (Sample.bin .land Sample.boolCall Sample.boolCall) Sample.cpp
    Sample.opts (Sample.machine .cpp17) (Sample.unset 20) (inList []) 0 0 20
    (Sample.unset_faithful 20) rfl rfl rfl (Nat.le_refl 0) (by decide) rfl
    (fun i a _ => rfl) ⟨fun h => by (cases h), fun _ _ _ => rfl⟩ (.lift _) (.lift _)

/-- The hypotheses of `C13_unary` can be met: `-++x`. -/
example : Sim (PreludeOk 0 20 []) True
    ((Sample.machine .cpp17).evalUn .minus (.lift Sample.inc))
    ((Sample.un .minus Sample.intCall Sample.intCall).exec Sample.cpp Sample.opts
      (Sample.machine .cpp17) (Sample.unset 20) 0 (Sample.up Sample.inc)) :=
  C13_unary (Sample.un .minus Sample.intCall Sample.intCall) Sample.cpp
    Sample.opts (Sample.machine .cpp17) (Sample.unset 20) (inList []) 0 0 20
    (Sample.unset_faithful 20) rfl (Nat.le_refl 0) (by decide) rfl
    (fun i a _ => rfl) ⟨fun _ _ _ _ _ _ _ => rfl, fun h => by cases h⟩ (.lift _)

/-- The hypotheses of `C13_expr` can be met: `++x`. -/
example : Sim (PreludeOk 0 20 []) True (.lift Sample.inc)
    ((Sample.expr Sample.intCall).exec Sample.cpp Sample.opts
      (Sample.machine .cpp17) (Sample.unset 20) 0 (Sample.up Sample.inc)) :=
  (C13_expr (Sample.expr Sample.intCall) Sample.cpp
    Sample.opts (Sample.machine .cpp17) (Sample.unset 20) (inList []) 0 0 20
    (Sample.unset_faithful 20) rfl (Nat.le_refl 0) (by decide) rfl
    (fun i a _ => rfl) (.lift _)).2 (fun _ _ _ _ => rfl)

end Dredd
