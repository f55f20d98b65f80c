/-
C17: statement removal.  Disabled keeps the statement, enabled skips it
entirely; in a tracking build it is always executed.

The statement is an arbitrary computation that may also leave the enclosing
function or loop, or not end.
-/
import Verif.Sem.Sim
import Verif.Spec.SampleMachine
import Verif.Props.C14

namespace Dredd

variable {S V D : Type} {Ok : D → Prop} {b : Prop}

/-- Disabled: exactly the behaviours of the statement. -/
theorem C17_disabled (s : StmtSite) (o : Options) (dev : Device D) (E : Nat → Bool)
    (first id n : Nat) (hdev : dev.Faithful Ok (fun i => E (first + i)) n)
    (ho : o.track = false) (hf : first ≤ id) (hn : (s.apply o first id).nextId ≤ first + n)
    {i : Nat} {info : RangeInfo} (hg : (s.apply o first id).group = .removeStmt i info)
    (hE : E i = false) {c : Comp S (Ctl V)} {c' : Comp (S × D) (Ctl V)} (h : Sim Ok b c c') :
    Sim Ok b c (stmtExec o dev (id - first) c') := by
  have hn' : id + 1 ≤ first + n := by simpa [StmtSite.apply] using hn
  have hi : i = id := by
    simp only [StmtSite.apply, Group.removeStmt.injEq] at hg
    exact hg.1.symm
  subst hi
  have hq : ∀ d, Ok d → ∃ d', dev.query (i - first) d = some (false, d') ∧ Ok d' := by
    intro d hd
    obtain ⟨d', h1, h2⟩ := hdev.query d (i - first) hd (by omega)
    rw [show first + (i - first) = i by omega, hE] at h1
    exact ⟨d', h1, h2⟩
  simpa [stmtExec, ho] using Sim.device (f := dev.query (i - first)) hq (k := fun en =>
    if !en then c' else .pure .normal) h

/-- Enabled: nothing happens. -/
theorem C17_enabled (s : StmtSite) (o : Options) (dev : Device D) (E : Nat → Bool)
    (first id n : Nat) (hdev : dev.Faithful Ok (fun i => E (first + i)) n)
    (ho : o.track = false) (hf : first ≤ id) (hn : (s.apply o first id).nextId ≤ first + n)
    {i : Nat} {info : RangeInfo} (hg : (s.apply o first id).group = .removeStmt i info)
    (hE : E i = true) (c' : Comp (S × D) (Ctl V)) :
    Sim Ok b (Comp.pure .normal : Comp S (Ctl V)) (stmtExec o dev (id - first) c') := by
  have hn' : id + 1 ≤ first + n := by simpa [StmtSite.apply] using hn
  have hi : i = id := by
    simp only [StmtSite.apply, Group.removeStmt.injEq] at hg
    exact hg.1.symm
  subst hi
  have hq : ∀ d, Ok d → ∃ d', dev.query (i - first) d = some (true, d') ∧ Ok d' := by
    intro d hd
    obtain ⟨d', h1, h2⟩ := hdev.query d (i - first) hd (by omega)
    rw [show first + (i - first) = i by omega, hE] at h1
    exact ⟨d', h1, h2⟩
  simpa [stmtExec, ho] using Sim.device (f := dev.query (i - first)) hq (k := fun en =>
    if !en then c' else .pure .normal) (Sim.pure (b := b) (Ctl.normal : Ctl V))

/-- Tracking: exactly the behaviours of the statement. -/
theorem C17_tracking (s : StmtSite) (o : Options) (dev : Device D)
    (first id n : Nat) (hdev : dev.Records Ok n)
    (ho : o.track = true) (hf : first ≤ id) (hn : (s.apply o first id).nextId ≤ first + n)
    {c : Comp S (Ctl V)} {c' : Comp (S × D) (Ctl V)} (h : Sim Ok b c c') :
    Sim Ok b c (stmtExec o dev (id - first) c') := by
  have hn' : id + 1 ≤ first + n := by simpa [StmtSite.apply] using hn
  have hq : ∀ d, Ok d → ∃ d', dev.record (id - first) 1 d = some ((), d') ∧ Ok d' :=
    fun d hd => hdev d (id - first) 1 hd (by omega) (by omega)
  simpa [stmtExec, ho] using Sim.device (f := dev.record (id - first) 1) hq
    (k := fun _ => c') h

/-- The hypotheses can be met: `++x;` with id 4, disabled, enabled, tracking. -/
example : Sim (PreludeOk 0 20 [4]) True
    (.lift fun x => (Sample.inc x).map fun r => (Ctl.normal, r.2) : Comp Int (Ctl Int))
    (stmtExec Sample.opts (mutatingPrelude true 0 20 (some t!"4")) 3
      (Sample.up fun x => (Sample.inc x).map fun r => (Ctl.normal, r.2))) :=
  C17_disabled Sample.stmt Sample.opts _ (inList [4]) 0 3 20 (Sample.enabled4 true) rfl
    (by decide) (by decide) rfl (by decide) (.lift _)

example : Sim (PreludeOk 0 20 [4]) True (.pure .normal : Comp Int (Ctl Int))
    (stmtExec Sample.opts (mutatingPrelude true 0 20 (some t!"4")) 4
      (Sample.up fun x => (Sample.inc x).map fun r => (Ctl.normal, r.2))) :=
  C17_enabled Sample.stmt Sample.opts _ (inList [4]) 0 4 20 (Sample.enabled4 true) rfl
    (by decide) (by decide) rfl (by decide) _

example : Sim (fun _ => True) True
    (.lift fun x => (Sample.inc x).map fun r => (Ctl.normal, r.2) : Comp Int (Ctl Int))
    (stmtExec Sample.track (trackingPrelude true 0 20 true true) 4
      (Sample.up fun x => (Sample.inc x).map fun r => (Ctl.normal, r.2))) :=
  C17_tracking Sample.stmt Sample.track _ 0 4 20 (trackingPrelude_records true 0 20 true true
    (.inl rfl)) rfl (by decide) (by decide) (.lift _)

end Dredd
