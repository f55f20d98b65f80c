/-
The three functions generated for a C logical operator.  Helper lemmas for C16.
-/
import Verif.Proofs.SiteExec
import Verif.Proofs.Order

namespace Dredd

variable {S V D : Type} {Ok : D → Prop} {b : Prop}

/-- The expression a function body returns: that of the first enabled guard. -/
def choose (en : Nat → Bool) (id : Nat) : List Line → Option RetE
  | [] => none
  | .quick _ :: ls => choose en id ls
  | .guard k e :: ls => if en (id + k) then some e else choose en id ls
  | .record _ :: _ => none
  | .ret e :: _ => some e

theorem runLines_choose {M : Machine S V} {dev : Device D} {en : Nat → Bool} {n : Nat}
    (hd : dev.Faithful Ok en n) (ty : Text) {a : Arg → Comp S V} {a' : Arg → Comp (S × D) V}
    (ha : ∀ x, Sim Ok b (a x) (a' x)) (id : Nat) (ls : List Line) (e : RetE)
    (he : choose en id ls = some e)
    (hg : ∀ k e', Line.guard k e' ∈ ls → id + k < n)
    (hq : ∀ q, Line.quick q ∈ ls → (∀ i, i < n → en i = false) → q = e) :
    Sim Ok b (e.run M ty a) (runLines M dev ty a' id ls) := by
  induction ls with
  | nil => cases he
  | cons ln ls ih =>
    have ih' := fun h => ih h (fun k e' hm => hg k e' (.tail _ hm)) (fun q hm => hq q (.tail _ hm))
    cases ln with
    | quick q =>
      refine runLines_quick hd ty ha id q ls _ ?_ (ih' he)
      intro h
      rw [hq q (.head _) h]
    | guard k e' =>
      simp only [runLines]
      refine Sim.device (fun d h => hd.query d (id + k) h (hg k e' (.head _))) ?_
      simp only [choose] at he
      by_cases hk : en (id + k) = true
      · simp only [hk, if_true, Option.some.injEq] at he ⊢
        subst he
        exact .retRun ty _ ha
      · simp only [hk] at he ⊢
        exact ih' he
    | record m => cases he
    | ret e' =>
      simp only [choose, Option.some.injEq] at he
      subst he
      exact .retRun ty _ ha

/-- The truth value of a computation. -/
def Machine.truthOf (M : Machine S V) (c : Comp S V) : Comp S Bool :=
  Comp.bind c fun v => .ofOption (M.truth v)

theorem logical_truthOf (M : Machine S V) (op : BOp) (c1 c2 : Comp S V) :
    M.logical op c1 c2 = Comp.bind (M.truthOf c1) fun b1 =>
      if b1 == (op == .lor) then .pure (M.ofBool b1)
      else Comp.bind (M.truthOf c2) fun b2 => .pure (M.ofBool b2) := by
  simp only [Machine.logical, Machine.truthOf, Comp.bind_assoc]

theorem lnot_truthOf (M : Machine S V) (c : Comp S V) :
    M.evalUn .lnot c = Comp.bind (M.truthOf c) fun x => .pure (M.ofBool !x) := by
  simp [Machine.evalUn, Machine.truthOf, Comp.bind_assoc]

/-- What is needed of truth values: 0 and 1 have the truth values one expects,
the results of logical operators too, and converting them to the types of the
operands or of the result keeps this. -/
structure Machine.TruthLaws (M : Machine S V) (lhsTy rhsTy resTy : Text) : Prop where
  zero : M.truth (M.lit .zero) = some false
  one : M.truth (M.lit .one) = some true
  bool : ∀ x, M.truth (M.ofBool x) = some x
  conv : ∀ ty, ty = lhsTy ∨ ty = rhsTy → ∀ v, (∃ x, v = M.ofBool x) ∨ v = M.lit .zero ∨ v = M.lit .one →
    ∀ s, ∃ v', M.conv ty v s = some (v', s) ∧ M.truth v' = M.truth v
  res : ∀ x s, M.conv resTy (M.ofBool x) s = some (M.ofBool x, s)

/-- A conversion that keeps truth values does not show in them. -/
theorem truth_conv {M : Machine S V} {ty : Text} {v : V} {x : Bool}
    (h : ∀ s, ∃ v', M.conv ty v s = some (v', s) ∧ M.truth v' = some x) :
    Comp.bind (Comp.lift (M.conv ty v) : Comp S V) (fun v => Comp.ofOption (M.truth v))
      = .pure x := by
  refine Comp.ext fun s r => ?_
  obtain ⟨v', h1, h2⟩ := h s
  constructor
  · rintro ⟨r1, hr1, hr2⟩
    simp only [Comp.lift, h1] at hr1
    subst hr1
    simpa [Comp.next, h2, Comp.ofOption] using hr2
  · intro hr
    refine ⟨.done v' s, by simp [Comp.lift, h1], ?_⟩
    simpa [Comp.next, h2, Comp.ofOption] using hr

theorem truthOf_conv (M : Machine S V) (ty : Text) (c : Comp S V) (h : c.HasType M ty) :
    M.truthOf (c.to M ty) = M.truthOf c := by rw [Comp.to_eq M ty c h]

theorem truthOf_lnot (M : Machine S V) (ty : Text) (c : Comp S V)
    (h : ∀ x s, ∃ v', M.conv ty (M.ofBool x) s = some (v', s) ∧ M.truth v' = some x) :
    M.truthOf ((M.evalUn .lnot c).to M ty) = Comp.bind (M.truthOf c) fun x => .pure !x := by
  rw [lnot_truthOf]
  unfold Comp.to
  rw [Machine.truthOf]
  simp only [Comp.bind_assoc, Comp.pure_bind]
  congr 1
  funext x
  exact truth_conv (h !x)

theorem truthOf_lit (M : Machine S V) (ty : Text) (c : Comp S V) (l : Lit) (x : Bool)
    (h : ∀ s, ∃ v', M.conv ty (M.lit l) s = some (v', s) ∧ M.truth v' = some x) :
    M.truthOf (Comp.bind c fun _ => (Comp.pure (M.lit l)).to M ty)
      = Comp.bind c fun _ => .pure x := by
  unfold Comp.to
  rw [Machine.truthOf]
  simp only [Comp.bind_assoc, Comp.pure_bind]
  congr 1
  funext _
  exact truth_conv h

/-- The three calls, when the guards are decided by `en`. -/
theorem cLogical_sim (s : BinSite) (l : Lang) (o : Options) {M : Machine S V} {dev : Device D}
    {en : Nat → Bool} {n : Nat} (hd : dev.Faithful Ok en n) (ho : o.track = false)
    (hcpp : l.cpp = false) (hlog : s.op.isLogical = true) (id : Nat) (hn : id + 3 ≤ n)
    {c1 c2 : Comp S V} {c1' c2' : Comp (S × D) V} (h1 : Sim Ok b c1 c1') (h2 : Sim Ok b c2 c2') :
    let lit : RetE := .lit (if s.op == .land then .one else .zero)
    let e1 : RetE := if en id then .un .lnot else if en (id + 2) then lit else .arg .arg
    let e2 : RetE := if en id then .un .lnot else if en (id + 1) then lit else .arg .arg
    let e3 : RetE := if en id then .un .lnot else .arg .arg
    Sim Ok b
      (Comp.bind
        (M.logical s.op
          (Comp.bind c1 fun v => e1.run M (s.lhs.ty.name l) (args1 (.pure v)))
          (Comp.bind c2 fun v => e2.run M (s.rhs.ty.name l) (args1 (.pure v))))
        fun v => e3.run M (s.resTy.name l) (args1 (.pure v)))
      (s.exec l o M dev id c1' c2') := by
  intro lit e1 e2 e3
  have hL : Sim Ok b (Comp.bind c1 fun v => e1.run M (s.lhs.ty.name l) (args1 (.pure v)))
      ((cLogicalLhsFn s l o).call1 M dev id c1') := by
    refine h1.bind fun v => ?_
    refine runLines_choose hd _ (Sim.args1 (.pure v)) id _ e1 ?_ ?_ ?_
    · simp only [cLogicalLhsFn, choose, e1, lit]
      by_cases h0 : en id = true <;> by_cases h2 : en (id + 2) = true <;> simp [h0, h2]
    · intro k e' hm
      simp [cLogicalLhsFn] at hm
      omega
    · intro q hm hno
      simp [cLogicalLhsFn] at hm
      simp [hm, e1, hno id (by omega), hno (id + 2) (by omega)]
  have hR : Sim Ok b (Comp.bind c2 fun v => e2.run M (s.rhs.ty.name l) (args1 (.pure v)))
      ((cLogicalRhsFn s l o).call1 M dev id c2') := by
    refine h2.bind fun v => ?_
    refine runLines_choose hd _ (Sim.args1 (.pure v)) id _ e2 ?_ ?_ ?_
    · simp only [cLogicalRhsFn, choose, e2, lit]
      by_cases h0 : en id = true <;> by_cases h2 : en (id + 1) = true <;> simp [h0, h2]
    · intro k e' hm
      simp [cLogicalRhsFn] at hm
      omega
    · intro q hm hno
      simp [cLogicalRhsFn] at hm
      simp [hm, e2, hno id (by omega), hno (id + 1) (by omega)]
  have hI := Sim.evalBin (M := M) s.op hL hR
  have hev : ∀ (x y : Comp S V), M.evalBin s.op x y = M.logical s.op x y := by
    intro x y
    simp [Machine.evalBin, hlog]
  rw [hev] at hI
  have hO := hI.bind (k := fun v => e3.run M (s.resTy.name l) (args1 (.pure v)))
    (k' := fun v => runLines M dev (s.resTy.name l) (args1 (.pure v)) id
      (cLogicalOuterFn s l o).lines) fun v => by
    refine runLines_choose hd _ (Sim.args1 (.pure v)) id _ e3 ?_ ?_ ?_
    · simp only [cLogicalOuterFn, ho, choose, e3, Bool.false_eq_true, if_false, List.cons_append,
        List.nil_append]
      by_cases h0 : en id = true <;> simp [h0]
    · intro k e' hm
      simp [cLogicalOuterFn, ho] at hm
      omega
    · intro q hm
      simp [cLogicalOuterFn, ho] at hm
  unfold BinSite.exec
  simp only [hcpp, hlog, ho, Bool.not_false, Bool.and_self, if_true, Bool.false_eq_true, if_false]
  exact hO

end Dredd
