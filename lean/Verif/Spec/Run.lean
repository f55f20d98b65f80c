/-
Specification vocabulary for runs of the tool.
-/
import Verif.Model.Driver
import Verif.Spec.Tree

namespace Dredd

/-- The files whose name does not occur earlier in the list (nor in `seen`). -/
def firstOcc (seen : List Text) : List SourceFile → List SourceFile
  | [] => []
  | f :: fs =>
    if seen.contains f.name then firstOcc seen fs
    else f :: firstOcc (seen ++ [f.name]) fs

/-- The file-local ids that an edit inserts. -/
def Edit.ids : Edit → List Nat
  | .before _ ps | .after _ ps => ps.filterMap fun p => match p with | .id n => some n | _ => none
  | .replace _ _ _ => []

/-- The file-local ids inserted by the edits of one instrumented point. -/
def Applied.localIds (a : Applied) : List Nat := a.edits.flatMap Edit.ids

/-- The entries encode the trees, one by one. -/
def EncodedAs : List FileInfo → List (MTree Group) → Prop
  | [], [] => True
  | fi :: fis, t :: ts => Encodes fi.nodes 0 t ∧ EncodedAs fis ts
  | _, _ => False

end Dredd
