/-
Removal of statements (mutation_remove_stmt.cc) and `Mutation::Apply` for all
kinds of mutation.
-/
import Verif.Model.GenExpr

namespace Dredd

/-- The text inserted after a removable statement (mutation_remove_stmt.cc
124-149). -/
def StmtSite.closing (s : StmtSite) : Text :=
  let t := t!" }"
  let t := if !s.extSemi && s.nextHash then t!"; " ++ t else t
  if s.extComment && !s.extSemi then t!"\n" ++ t else t

/-- The edits of `MutationRemoveStmt::Apply` (mutation_remove_stmt.cc
111-154). -/
def StmtSite.edits (s : StmtSite) (o : Options) (localId : Nat) : List Edit :=
  if o.track then
    [ .before s.span.b
        [.txt (t!"__dredd_record_covered_mutants" ++ nodeComment o s.node ++ t!"("),
         .id localId, .txt t!", 1); "] ]
  else
    [ .before s.span.b
        [.txt (t!"if (!__dredd_enabled_mutation" ++ nodeComment o s.node ++ t!"("),
         .id localId, .txt t!")) { "],
      .after s.extEnd [.txt s.closing] ]

/-- `MutationRemoveStmt::Apply` (mutation_remove_stmt.cc 43-161). -/
def StmtSite.apply (s : StmtSite) (o : Options) (first id : Nat) : Applied :=
  { group := .removeStmt id s.info
    nextId := id + 1
    edits := s.edits o (id - first)
    decls := [] }

/-- `Mutation::Apply` (mutation.h): dynamic dispatch. (mutation.h 52-56.) -/
def Mutation.apply (l : Lang) (o : Options) (first id : Nat) : Mutation → Applied
  | .bin s => s.apply l o first id
  | .un s => s.apply l o first id
  | .expr s => s.apply l o first id
  | .stmt s => s.apply o first id

end Dredd
