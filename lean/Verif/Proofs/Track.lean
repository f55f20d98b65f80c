/-
What instrumentation points do in a tracking build.
-/
import Verif.Proofs.SiteExec
import Verif.Props.C16

namespace Dredd

variable {S V D : Type} {Ok : D → Prop} {b : Prop}

theorem BinSite.exec_track (s : BinSite) (l : Lang) (o : Options) {M : Machine S V}
    {dev : Device D} {n : Nat} (hd : dev.Records Ok n)
    (ho : o.track = true) (id : Nat) (hi : id < n) (hn : id + (s.clauses o.optimise).length ≤ n)
    {c1 c2 : Comp S V} {c1' c2' : Comp (S × D) V} (h1 : Sim Ok b c1 c1') (h2 : Sim Ok b c2 c2') :
    Sim Ok b
      (prepare2 (l.cpp && s.lhs.sideEffects) (l.cpp && (s.op.isLogical || s.rhs.sideEffects)) c1 c2
        fun a1 a2 => (M.evalBin s.op a1 a2).to M (s.resTyText l))
      ((s.genFn l o id).call2 M dev id c1' c2') := by
  unfold MutFn.call2
  rw [← BinSite.withArgs_modes s l o id]
  refine Sim.withArgs _ _ h1 h2 fun x y x' y' hx hy => ?_
  rw [BinSite.genFn_lines, ho]
  exact runLines_tracking hd _ (Sim.args2 hx hy) id (.bin s.op) _ hi hn

theorem UnSite.exec_track (s : UnSite) (l : Lang) (o : Options) {M : Machine S V}
    {dev : Device D} {n : Nat} (hd : dev.Records Ok n)
    (ho : o.track = true) (id : Nat) (hi : id < n) (hn : id + (s.clauses o.optimise).length ≤ n)
    {c : Comp S V} {c' : Comp (S × D) V} (h : Sim Ok b c c') :
    Sim Ok b
      (prepare1 (l.cpp && s.self.sideEffects) c fun a => (M.evalUn s.op a).to M (s.resTyText l))
      ((s.genFn l o id).call1 M dev id c') := by
  unfold MutFn.call1
  rw [← UnSite.withArg_mode s l o id]
  refine Sim.withArg _ h fun x x' hx => ?_
  rw [UnSite.genFn_lines, ho]
  exact runLines_tracking hd _ (Sim.args1 hx) id (.un s.op) _ hi hn

theorem ExprSite.exec_track (s : ExprSite) (l : Lang) (o : Options) {M : Machine S V}
    {dev : Device D} {n : Nat} (hd : dev.Records Ok n)
    (ho : o.track = true) (id : Nat) (hi : id < n) (hn : id + (s.clauses l o.optimise).length ≤ n)
    {c : Comp S V} {c' : Comp (S × D) V} (h : Sim Ok b c c') :
    Sim Ok b
      (prepare1 (l.cpp && s.self.sideEffects) c fun a => a.to M (s.self.ty.name l))
      ((s.genFn l o id).call1 M dev id c') := by
  unfold MutFn.call1
  rw [← ExprSite.withArg_mode s l o id]
  refine Sim.withArg _ h fun x x' hx => ?_
  rw [ExprSite.genFn_lines, ho]
  exact runLines_tracking hd _ (Sim.args1 hx) id (.arg .arg) _ hi hn

theorem cLogical_track (s : BinSite) (l : Lang) (o : Options) {M : Machine S V} {dev : Device D}
    {n : Nat} (hd : dev.Records Ok n) (ho : o.track = true)
    (hcpp : l.cpp = false) (hlog : s.op.isLogical = true) (id : Nat) (hn : id + 3 ≤ n)
    {c1 c2 : Comp S V} {c1' c2' : Comp (S × D) V}
    (hty : M.ResultType s.op (s.resTy.name l) c1 c2) (h1 : Sim Ok b c1 c1') (h2 : Sim Ok b c2 c2') :
    Sim Ok b (M.logical s.op c1 c2) (s.exec l o M dev id c1' c2') := by
  have hev : ∀ (x y : Comp S V), M.evalBin s.op x y = M.logical s.op x y := by
    intro x y
    simp [Machine.evalBin, hlog]
  have hI := Sim.evalBin (M := M) s.op h1 h2
  have hc : s.op ≠ .comma := by rintro h; rw [h] at hlog; cases hlog
  have e : M.logical s.op c1 c2 = Comp.bind (M.logical s.op c1 c2)
      fun v => (RetE.arg .arg).run M (s.resTy.name l) (args1 (.pure v)) := by
    rw [run_arg, Comp.to_eq]
    rw [← hev]
    exact evalBin_hasType hty hc
  rw [e]
  rw [hev] at hI
  have hO := hI.bind (k := fun v => (RetE.arg .arg).run M (s.resTy.name l) (args1 (.pure v)))
    (k' := fun v => runLines M dev (s.resTy.name l) (args1 (.pure v)) id
      (cLogicalOuterFn s l o).lines) fun v => by
    have : (cLogicalOuterFn s l o).lines = [.record 3, .ret (.arg .arg)] := by
      simp [cLogicalOuterFn, ho]
    rw [this]
    exact runLines_tracking hd _ (Sim.args1 (.pure v)) id _ 3 (by omega) hn
  unfold BinSite.exec
  simp only [hcpp, hlog, ho, Bool.not_false, Bool.and_self, if_true]
  exact hO

end Dredd
