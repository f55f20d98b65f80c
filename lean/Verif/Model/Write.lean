/-
Sources that cannot be written: `overwriteChangedFiles` fails (mutate_ast_consumer.cc 172-174).
-/
import Verif.Model.Main

namespace Dredd

/-- Whether writing the mutated file fails: `w` says which files can be written.
(mutate_ast_consumer.cc 172.) -/
def writeFails (o : Options) (infoRequested : Bool) (w : Text → Bool) (st : RunState)
    (f : SourceFile) : Bool :=
  !st.processed.contains f.name && (handleTU o infoRequested st.nextId f).output.isSome && !w f.name

/-- One input file, as `processFile`.  If `overwriteChangedFiles` fails (mutate_ast_consumer.cc 172), the
ids have been given out and the entry of the mutation info has been added (122-136).  According to clang's
Rewriter, an error is reported, which log_failed_files_diagnostic_consumer.cc 23-33 takes for one of the
compiler; the invocation fails. -/
def processFileW (o : Options) (infoRequested : Bool) (w : Text → Bool) (st : RunState)
    (f : SourceFile) : RunState :=
  if st.processed.contains f.name then st
  else
    let r := handleTU o infoRequested st.nextId f
    let lost := r.output.isSome && !w f.name
    { nextId := r.nextId
      info := st.info ++ r.info.toList
      processed := st.processed ++ [f.name]
      written := if lost then st.written else st.written ++ (r.output.map fun t => (f.name, t)).toList
      failed := if f.hasErrors || lost then st.failed ++ [f.name] else st.failed
      anyError := st.anyError || f.hasErrors || lost }

/-- All files, in order (main.cc 152).  Built with assertions, the program stops when a file cannot be
written (mutate_ast_consumer.cc 174): the result says so. -/
def runToolW (asserts : Bool) (o : Options) (infoRequested : Bool) (w : Text → Bool) :
    RunState → List SourceFile → RunState × Bool
  | st, [] => (st, false)
  | st, f :: fs =>
    if asserts && writeFails o infoRequested w st f then (processFileW o infoRequested w st f, true)
    else runToolW asserts o infoRequested w (processFileW o infoRequested w st f) fs

/-- `main` from line 132 on, as `mainRun`, where `w` says which sources can be written.
(main.cc 132-193.) -/
def mainRunW (asserts : Bool) (o : Options) (infoRequested canWrite : Bool) (w : Text → Bool)
    (is : List Input) : MainResult :=
  let (st, stopped) := runToolW asserts o infoRequested w {} (Input.files is)
  if stopped then ⟨none, st.written, [], none⟩
  else
    let errors := st.anyError || Input.anyBroken is
    let code := toolCode st is
    if asserts && (if code == 0 then errors || !st.failed.isEmpty else !errors) then
      ⟨none, st.written, [], none⟩
    else
      ⟨some code, st.written, if code == 0 then [] else sortedDecls st.failed,
        if infoRequested && canWrite then some (infoFile st.info) else none⟩

end Dredd
