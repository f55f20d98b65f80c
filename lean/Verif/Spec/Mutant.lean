/-
The mutant that a set of enabled ids stands for, according to the mutation
information: every instrumentation point performs the action of the smallest
enabled id of its group.

Operands are prepared as in `Spec/Action.lean`: those that the instrumented
program evaluates before the call are evaluated first.
-/
import Verif.Sem.Interp
import Verif.Props.C16

namespace Dredd

variable {S V D α : Type}

/-- Does what `f` says for the smallest enabled mutant of a group, and `c` if
none is enabled. -/
def selected (E : Nat → Bool) (insts : List (Nat × α)) (f : α → Comp S V) (c : Comp S V) :
    Comp S V := fun s r =>
  (∃ a, Smallest E insts a ∧ f a s r) ∨ (NoneEnabled E insts ∧ c s r)

/-- The mutated form of a logical operator in C. -/
def mutantLogical (M : Machine S V) (E : Nat → Bool) (op : BOp) (id : Nat) (c1 c2 : Comp S V) :
    Comp S V :=
  if E id then M.logical op.swapped c1 c2
  else if E (id + 1) then
    if E (id + 2) then Comp.bind c1 fun _ => Comp.bind c2 fun _ => .pure (M.ofBool (op == .land))
    else leftTruth M op c1 c2
  else if E (id + 2) then rightTruth M c1 c2
  else M.logical op c1 c2

/-- The mutant. -/
def Interp.mutant (l : Lang) (o : Options) (M : Machine S V) (E : Nat → Bool) (first : Nat) :
    Interp S S V where
  machine := M
  raise c := c
  step f := .lift f
  bin s id c1 c2 :=
    let lazy1 := l.cpp && s.lhs.sideEffects
    let lazy2 := l.cpp && (s.op.isLogical || s.rhs.sideEffects)
    match (s.apply l o first id).group with
    | .replaceBin _ _ _ _ insts =>
      if l.cpp || !s.op.isLogical then
        selected E insts
          (fun a => prepare2 lazy1 lazy2 c1 c2 fun x y => (a.change.eval M x y).to M (s.resTyText l))
          (prepare2 lazy1 lazy2 c1 c2 fun x y => (M.evalBin s.op x y).to M (s.resTyText l))
      else mutantLogical M E s.op id c1 c2
    | _ => .ub
  un s id c :=
    let lazy := l.cpp && s.self.sideEffects
    match (s.apply l o first id).group with
    | .replaceUn _ _ _ insts =>
      selected E insts
        (fun a => prepare1 lazy c fun x => (a.change.eval M x).to M (s.resTyText l))
        (prepare1 lazy c fun x => (M.evalUn s.op x).to M (s.resTyText l))
    | _ => .ub
  expr s id c :=
    let lazy := l.cpp && s.self.sideEffects
    match (s.apply l o first id).group with
    | .replaceExpr _ insts =>
      selected E insts
        (fun a => prepare1 lazy c fun x => ((a.change l.cpp).eval M x).to M (s.self.ty.name l))
        (prepare1 lazy c fun x => x.to M (s.self.ty.name l))
    | _ => .ub
  load s id c :=
    let lazy := l.cpp && s.self.sideEffects
    match (s.apply l o first id).group with
    | .replaceExpr _ insts =>
      selected E insts
        (fun a => prepare1 lazy c fun x => ((a.change l.cpp).eval M x).to M (s.self.ty.name l))
        (prepare1 lazy c fun x => x.to M (s.self.ty.name l))
    | _ => .ub
  stmt id c := if E id then .pure .normal else c

end Dredd
