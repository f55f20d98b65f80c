/-
The original program, the instrumented program, and the mutant that the
mutation information describes.
-/
import Verif.Sem.Prog
import Verif.Model.Apply

namespace Dredd

variable {S V D : Type}

/-- The original program: instrumentation points do what they did before. -/
def Interp.original (l : Lang) (M : Machine S V) : Interp S S V where
  machine := M
  raise c := c
  step f := .lift f
  bin s _ c1 c2 := M.evalBin s.op c1 c2
  un s _ c := M.evalUn s.op c
  expr _ _ c := c
  load s _ c := c.to M (s.self.ty.name l)
  stmt _ c := c

/-- A result with the variables of the prelude. -/
def Res.withD {α : Type} (d : D) : Res S α → Res (S × D) α
  | .done a s => .done a (s, d)
  | .stop s => .stop (s, d)
  | .ub => .ub
  | .timeout => .timeout

/-- The instrumented program: calls of generated functions
(mutation_replace_binary_operator.cc 627-897, mutation_replace_unary_operator.cc
401-457, mutation_replace_expr.cc 538-639, mutation_remove_stmt.cc 111-154).  The
ids written into the file are relative to the file's first id. -/
def Interp.instrumented (l : Lang) (o : Options) (M : Machine S V) (dev : Device D)
    (first : Nat) : Interp S (S × D) V where
  machine := M.withState D
  raise c := fun p r => ∃ r0, c p.1 r0 ∧ r = r0.withD p.2
  step f := .lift (liftState f)
  bin s id c1 c2 := s.exec l o M dev (id - first) c1 c2
  un s id c := s.exec l o M dev (id - first) c
  expr s id c := s.exec l o M dev (id - first) c
  load s id c := s.exec l o M dev (id - first) c
  stmt id c := stmtExec o dev (id - first) c

end Dredd
