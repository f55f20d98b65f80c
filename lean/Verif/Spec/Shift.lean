/-
Specification of moving ids (C80): the same mutation information with ids that begin elsewhere.
-/
import Verif.Model.Driver

namespace Dredd

/-- The same group, with ids that are `k` greater. -/
def Group.shift (k : Nat) : Group → Group
  | .removeStmt id info => .removeStmt (id + k) info
  | .replaceExpr info is => .replaceExpr info (is.map fun i => (i.1 + k, i.2))
  | .replaceBin op info lhs rhs is => .replaceBin op info lhs rhs (is.map fun i => (i.1 + k, i.2))
  | .replaceUn op info sub is => .replaceUn op info sub (is.map fun i => (i.1 + k, i.2))

/-- The same node of the tree. -/
def PNode.shift (k : Nat) (n : PNode) : PNode := ⟨n.groups.map (·.shift k), n.children⟩

/-- The same entry for a file. -/
def FileInfo.shift (k : Nat) (i : FileInfo) : FileInfo := ⟨i.filename, i.nodes.map (·.shift k)⟩

end Dredd
