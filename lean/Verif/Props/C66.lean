/-
C66: enabling a statement removal is deleting the statement.

The instrumented program with statement removals enabled (among other mutants) is
compared with the program from which these statements are deleted.  They agree as
long as the deleted statements contain no labels; a jump to a label inside a
"removed" statement still executes the rest of it.
-/
import Verif.Spec.Delete
import Verif.Proofs.CSem
import Verif.Props.C18

namespace Dredd

variable {S T V D : Type} {Ok : D → Prop}

theorem Stm.code_labels (K : Interp S T V) (calls : Nat → List V → Comp T V) (fuel : Nat)
    (a : Stm S V) : (a.code K calls fuel).labels = a.labels := by
  induction a with
  | seq x y ih1 ih2 | ite e x y ih1 ih2 =>
    simp [Stm.code, Stm.labels, Code.seq, Code.ite, Code.build, ih1, ih2]
  | try_ x catches n handler ih1 ih2 =>
    simp only [Stm.code, Stm.labels, Code.try_, Code.build, ih1, ih2]
  | _ =>
    simp_all [Stm.code, Stm.labels, Code.skip, Code.plain, Code.loop, Code.doWhile, Code.switch,
      Code.label, Code.scope, Code.atStart, Code.build]

theorem atStart_none {a : Code T V} (h : a.labels = []) :
    Code.atStart (fun _ => .pure .normal) a = .skip := by
  refine Code.ext' (by simp [Code.atStart, Code.build, h, Code.skip, Code.plain]) fun e => ?_
  cases e <;> simp [Code.atStart, Code.build, h, Code.skip, Code.plain]

theorem atStart_id (a : Code T V) : Code.atStart (fun c => c) a = a := by
  refine Code.ext' rfl fun e => ?_
  cases e with
  | none => rfl
  | some l =>
    simp only [Code.atStart, Code.build]
    split
    · rfl
    · rename_i h
      exact (a.out l h).symm

theorem Stm.code_delete {K : Interp S T V} {E : Nat → Bool}
    (hK : ∀ id c, K.stmt id c = if E id then .pure .normal else c)
    (calls : Nat → List V → Comp T V) (fuel : Nat) (a : Stm S V) (h : a.RemovesNoLabel E) :
    (a.delete E).code K calls fuel = a.code K calls fuel := by
  induction a with
  | removable id x ih =>
    simp only [Stm.RemovesNoLabel] at h
    simp only [Stm.delete, Stm.code]
    have : K.stmt id = fun c => if E id then .pure .normal else c := funext (hK id)
    rw [this]
    split at h
    · rename_i hE
      simp only [hE, if_true]
      exact (atStart_none ((Stm.code_labels K calls fuel x).trans h)).symm
    · rename_i hE
      simp only [hE, Bool.false_eq_true, if_false]
      rw [ih h, atStart_id]
  | seq x y ih1 ih2 | ite e x y ih1 ih2 => simp only [Stm.delete, Stm.code, ih1 h.1, ih2 h.2]
  | try_ x catches n handler ih1 ih2 =>
    simp only [Stm.delete, Stm.code, ih1 h.1]
    congr 1
    funext i
    exact ih2 i (h.2 i)
  | loop e step x ih => simp only [Stm.delete, Stm.code, ih h]
  | doWhile x e ih => simp only [Stm.delete, Stm.code, ih h]
  | switch e pick x ih => simp only [Stm.delete, Stm.code, ih h]
  | label l x ih => simp only [Stm.delete, Stm.code, ih h]
  | scope x u d ih => simp only [Stm.delete, Stm.code, ih h]
  | _ => rfl

theorem Prog.call_delete {K : Interp S T V} {E : Nat → Bool}
    (hK : ∀ id c, K.stmt id c = if E id then .pure .normal else c) (P : Prog S V)
    (h : ∀ f, (P.body f).RemovesNoLabel E) (k f : Nat) (vs : List V) :
    (P.delete E).call K k f vs = P.call K k f vs := by
  have : ∀ k, (P.delete E).call K k = P.call K k := by
    intro k
    induction k with
    | zero => rfl
    | succ k ih =>
      funext f vs
      simp only [Prog.call, ih, Stm.exec]
      rw [show ((P.delete E).body f) = (P.body f).delete E from rfl, Stm.code_delete hK _ _ _ (h f)]
      rfl
  rw [this]

/-- C66: the instrumented program has exactly the behaviours of the mutant of the program from which
the removed statements are deleted.

Full statement: without the condition that no removed statement contains a label.  It is false
(`C66_false_case`). -/
theorem C66_deleted_partial (l : Lang) (o : Options) (M : Machine S V) (dev : Device D)
    (E : Nat → Bool) (first n : Nat) (hdev : dev.Faithful Ok (fun i => E (first + i)) n)
    (ho : o.track = false) (P : Prog S V)
    (hP : P.All (fileSites l o M first n (Interp.mutant l o M E first) P))
    (hl : ∀ f, (P.body f).RemovesNoLabel E) (k f : Nat) (vs : List V) :
    Sim Ok True ((P.delete E).call (Interp.mutant l o M E first) k f vs)
      (P.call (Interp.instrumented l o M dev first) k f vs) := by
  rw [Prog.call_delete (fun _ _ => rfl) P hl]
  exact C50_mutant l o M dev E first n hdev ho P hP k f vs

/-! ### Labels in removed statements -/

/-- `switch (x) { do { ++x; case 1: ++x; } while (0); }`, where the loop can be removed. -/
def Sample.duff : Prog Int Int where
  body _ := .switch (.atom (.lift Sample.read)) (fun v => if v = 1 then [1] else [])
    (.removable 0 (.doWhile
      (.seq (.expr (.atom (.lift Sample.inc))) (.label 1 (.expr (.atom (.lift Sample.inc)))))
      (.atom (Sample.num 0))))
  enter _ _ s := some ((), s)
  leave _ _ s := some (0, s)

/-- C66 is false if a removed statement contains a `case` label: from 1, with the removal of the loop
enabled, the variable is still incremented; without the loop it is not. -/
theorem C66_false_case (D : Type) (dev : Device D) (d : D) :
    Sample.duff.call (Interp.instrumented Sample.cpp Sample.opts (Sample.machine .cpp17) dev 0)
      2 0 [] (1, d) (.done 0 (2, d)) ∧
    ∀ k r, (Sample.duff.delete (inList [0])).call
        (Interp.mutant Sample.cpp Sample.opts (Sample.machine .cpp17) (inList [0]) 0) (k + 1) 0 [] 1 r →
      r = .done 0 1 := by
  constructor
  · refine ⟨.done () (1, d), rfl, .done .normal (2, d), ⟨.done .normal (2, d), ?_, rfl⟩, rfl⟩
    refine ⟨.done [1] (1, d), ⟨.done 1 (1, d), ⟨.done 1 1, rfl, rfl⟩, rfl⟩, ?_⟩
    refine ⟨.done .normal (2, d), ?_, rfl⟩
    refine ⟨.done .normal (2, d), ⟨.done 2 (2, d), ⟨.done 2 2, rfl, rfl⟩, rfl⟩, ?_⟩
    exact ⟨.done false (2, d), ⟨.done 0 (2, d), ⟨.done 0 2, rfl, rfl⟩, rfl⟩, rfl⟩
  · intro k r h
    have hE : inList [0] 0 = true := by decide
    cases k <;>
      simpa [Prog.call, Prog.delete, Sample.duff, Stm.delete, hE, Stm.exec, Stm.code, Code.settle,
        Code.switch, Code.build, Code.skip, Code.plain, Exp.eval, Interp.mutant, Comp.bind, Comp.lift,
        Comp.next, Comp.pure, Sample.read, Code.after, returned] using h

/-- The hypotheses can be met: in `while (x != 3) { ++x; } return f();` (`Sample.prog`) the increment is
removed. -/
example (k : Nat) (D : Type) (Ok : D → Prop) (dev : Device D)
    (hdev : dev.Faithful Ok (fun i => inList [2, 5, 13] (0 + i)) 20) : Sim Ok True
    ((Sample.prog.delete (inList [2, 5, 13])).call (Interp.mutant Sample.cpp Sample.opts
      (Sample.machine .cpp17) (inList [2, 5, 13]) 0) k 0 [])
    (Sample.prog.call (Interp.instrumented Sample.cpp Sample.opts (Sample.machine .cpp17) dev 0)
      k 0 []) := by
  refine C66_deleted_partial _ _ _ _ _ 0 20 hdev rfl _ ?_ ?_ k 0 []
  · intro f
    unfold Sample.prog
    dsimp only
    split
    · refine ⟨⟨⟨⟨by decide, by decide, fun h => by cases h⟩, trivial, trivial⟩,
        (fun _ h => by cases h), ⟨by decide, by decide⟩, trivial⟩, ?_⟩
      rintro x hx
      cases hx
      exact ⟨⟨by decide, by decide⟩, fun i => i.elim0⟩
    · rintro x hx
      cases hx
      exact ⟨⟨by decide, by decide⟩, trivial⟩
  · intro f
    unfold Sample.prog
    dsimp only
    split
    · exact ⟨rfl, trivial⟩
    · trivial

/-- And its body is then `while (x != 3) ; return f();`. -/
example : (Sample.prog.delete (inList [2, 5, 13])).body 0 =
    .seq
      (.loop (.binAt (Sample.bin .ne Sample.intVal Sample.intVal) 0 (.atom (.lift Sample.read))
          (.atom (Sample.num 3))) none .skip)
      (.ret (some (.exprAt (Sample.expr Sample.intCall) 6 (.call 1 0 Fin.elim0)))) := rfl

end Dredd
