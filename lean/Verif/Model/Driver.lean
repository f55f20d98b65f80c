/-
The program as a whole: main.cc 95-193, new_mutate_frontend_action_factory.cc
48-68, log_failed_files_diagnostic_consumer.cc.
-/
import Verif.Model.TransUnit

namespace Dredd

/-- The state of a run: the id counter (main.cc 132), the mutation info
(136-142), `processed_files_` (new_mutate_frontend_action_factory.cc 103), the
files written so far, the files with errors
(log_failed_files_diagnostic_consumer.cc 23-33) and whether any invocation
failed (`ClangTool::run`). -/
structure RunState where
  nextId : Nat := 0
  info : List FileInfo := []
  processed : List Text := []
  written : List (Text × Text) := []
  failed : List Text := []
  anyError : Bool := false
deriving Repr

/-- One input file: `BeginInvocation` (new_mutate_frontend_action_factory.cc
48-68) and, unless the file was processed before, `HandleTranslationUnit`.  A
file with errors makes the invocation fail. -/
def processFile (o : Options) (infoRequested : Bool) (st : RunState) (f : SourceFile) : RunState :=
  if st.processed.contains f.name then st
  else
    let r := handleTU o infoRequested st.nextId f
    { nextId := r.nextId
      info := st.info ++ r.info.toList
      processed := st.processed ++ [f.name]
      written := st.written ++ (r.output.map fun t => (f.name, t)).toList
      failed := if f.hasErrors then st.failed ++ [f.name] else st.failed
      anyError := st.anyError || f.hasErrors }

/-- `tool.run(factory)` (main.cc 152): all files, in order. -/
def runTool (o : Options) (infoRequested : Bool) (fs : List SourceFile) : RunState :=
  fs.foldl (processFile o infoRequested) {}

/-- `main`'s exit status (main.cc 152-192), for a run whose JSON output could be
generated: `ClangTool::run` returns 1 if an invocation failed and 0
otherwise. -/
def exitCode (st : RunState) : Nat := if st.anyError then 1 else 0

end Dredd
