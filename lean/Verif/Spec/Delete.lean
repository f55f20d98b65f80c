/-
Deleting statements from a program.

This is the reading of "remove statement" that the mutation information
suggests (dredd.proto 50-55: the removed statement and its text): the program text
without the statement.
-/
import Verif.Sem.Prog

namespace Dredd

variable {S V : Type}

/-- The labels in a statement. -/
def Stm.labels : Stm S V → List Nat
  | .skip => []
  | .expr _ => []
  | .seq a b => a.labels ++ b.labels
  | .removable _ a => a.labels
  | .ite _ a b => a.labels ++ b.labels
  | .loop _ _ a => a.labels
  | .doWhile a _ => a.labels
  | .switch _ _ body => body.labels
  | .label l a => l :: a.labels
  | .goto _ => []
  | .brk => []
  | .cont => []
  | .ret _ => []
  | .try_ a _ n handler => a.labels ++ (List.finRange n).flatMap fun i => (handler i).labels
  | .scope a _ _ => a.labels

/-- The statement without those of its parts whose removal is enabled. -/
def Stm.delete (E : Nat → Bool) : Stm S V → Stm S V
  | .skip => .skip
  | .expr e => .expr e
  | .seq a b => .seq (a.delete E) (b.delete E)
  | .removable id a => if E id then .skip else a.delete E
  | .ite e a b => .ite e (a.delete E) (b.delete E)
  | .loop e step a => .loop e step (a.delete E)
  | .doWhile a e => .doWhile (a.delete E) e
  | .switch e pick body => .switch e pick (body.delete E)
  | .label l a => .label l (a.delete E)
  | .goto l => .goto l
  | .brk => .brk
  | .cont => .cont
  | .ret e => .ret e
  | .try_ a catches n handler => .try_ (a.delete E) catches n fun i => (handler i).delete E
  | .scope a unwinds d => .scope (a.delete E) unwinds d

/-- The program without the statements whose removal is enabled. -/
def Prog.delete (E : Nat → Bool) (P : Prog S V) : Prog S V where
  body f := (P.body f).delete E
  enter := P.enter
  leave := P.leave

/-- No statement whose removal is enabled contains a label. -/
def Stm.RemovesNoLabel (E : Nat → Bool) : Stm S V → Prop
  | .skip => True
  | .expr _ => True
  | .seq a b => a.RemovesNoLabel E ∧ b.RemovesNoLabel E
  | .removable id a => if E id then a.labels = [] else a.RemovesNoLabel E
  | .ite _ a b => a.RemovesNoLabel E ∧ b.RemovesNoLabel E
  | .loop _ _ a => a.RemovesNoLabel E
  | .doWhile a _ => a.RemovesNoLabel E
  | .switch _ _ body => body.RemovesNoLabel E
  | .label _ a => a.RemovesNoLabel E
  | .goto _ => True
  | .brk => True
  | .cont => True
  | .ret _ => True
  | .try_ a _ _ handler => a.RemovesNoLabel E ∧ ∀ i, (handler i).RemovesNoLabel E
  | .scope a _ _ => a.RemovesNoLabel E

end Dredd
