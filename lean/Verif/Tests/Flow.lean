/-
Control flow of the programs of `Sem/Prog.lean`: jumps, exceptions, destructors.
-/
import Verif.Spec.SampleMachine
import Verif.Sem.Interp

namespace Dredd.FlowTests

open Sample

/-- `++x` -/
def incE : Exp Int Int := .atom (.lift inc)
/-- `x != n` -/
def neE (n : Int) : Exp Int Int := .atom (.lift fun x => some (if x = n then 0 else 1, x))
/-- Runs a body from a value of `x`. -/
def runs (a : Stm Int Int) (fuel : Nat) (x : Int) (r : Res Int (Ctl Int)) : Prop :=
  a.exec (Interp.original cpp (machine .cpp17)) (fun _ _ => .ub) fuel x r

attribute [local simp] Stm.exec Stm.code Code.settle Code.seq Code.ite Code.label Code.build Code.plain
  Code.skip Code.after Code.scope Code.try_ Code.loop Code.switch Code.doWhile andThen Comp.bind Comp.lift
  Comp.next Comp.pure Comp.either Comp.stop Comp.timeout Exp.eval Interp.original Sample.inc Machine.test Sample.read
  Comp.ofOption ignore loopN doN afterBody afterSwitch optStep optRet List.finRange incE neE runs

@[local simp] theorem truth_eq (v : Int) : (machine .cpp17).truth v = some (decide (v ≠ 0)) := rfl

/-- `l: ++x; if (x != 3) goto l; return;` -/
@[local simp] def again : Stm Int Int :=
  .seq (.label 0 (.expr incE)) (.seq (.ite (neE 3) (.goto 0) .skip) (.ret none))

/-- From 2 the jump is not taken, from 1 once. -/
example (r) : runs again 5 2 r ↔ r = .done (.return_ none) 3 := by simp
example (r) : runs again 5 1 r ↔ r = .done (.return_ none) 3 := by simp

/-- Without enough steps the jump is not completed. -/
example (r) : runs again 0 1 r ↔ r = .timeout := by simp

/-- `throw` -/
@[local simp] def throwE : Exp Int Int := .atom .stop

/-- `try { T t; ++x; throw; } catch ... { ++x; }` where the destructor of `t` increments `x` too. -/
@[local simp] def caught : Stm Int Int :=
  .try_ (.scope (.seq (.expr incE) (.expr throwE)) (fun _ => true) incE)
    (fun s => some (some 0, s)) 1 fun _ => .expr incE

example (r) : runs caught 5 1 r ↔ r = .done .normal 4 := by simp

/-- An exception that no handler catches. -/
@[local simp] def uncaught : Stm Int Int :=
  .try_ (.scope (.expr throwE) (fun _ => true) incE) (fun s => some (none, s)) 1 fun _ => .expr incE

example (r) : runs uncaught 5 1 r ↔ r = .stop 2 := by simp

/-- `exit` runs no destructors. -/
example (r) : runs (.scope (.expr throwE) (fun _ => false) incE) 5 1 r ↔ r = .stop 1 := by simp

/-- A jump inside the life of an object does not destroy it; leaving it does. -/
example (r) : runs (.scope again (fun _ => true) (.atom (.lift fun x => some (0, x * 10)))) 5 1 r ↔
    r = .done (.return_ none) 30 := by simp

/-- A jump out of it does: `{ T t; goto l; } ++x; l: ;` -/
example (r) : runs (.seq (.scope (.goto 7) (fun _ => true) (.atom (.lift fun x => some (0, x * 10))))
    (.seq (.expr incE) (.label 7 .skip))) 5 1 r ↔ r = .done .normal 10 := by simp

/-- `switch (x) { case 0: ++x; while (x != 5) { case 1: ++x; } default: break; }` -/
@[local simp] def into : Stm Int Int :=
  .switch (.atom (.lift read)) (fun v => if v = 0 then [0, 2] else if v = 1 then [1, 2] else [2])
    (.seq (.label 0 (.expr incE)) (.seq (.loop (neE 5) none (.label 1 (.expr incE))) (.label 2 .brk)))

example (r) : runs into 5 0 r ↔ r = .done .normal 5 := by simp
example (r) : runs into 5 1 r ↔ r = .done .normal 5 := by simp
example (r) : runs into 5 9 r ↔ r = .done .normal 9 := by simp

end Dredd.FlowTests
