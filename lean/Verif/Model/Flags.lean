/-
The command line options of the program (src/dredd/src/main.cc 59-84) and what they are used for.
-/
import Verif.Model.Main
import Verif.Model.Analyse

namespace Dredd

/-- The command line options.  Reading them is left to `llvm::cl`: options that are not given are `false`
and the empty text. (main.cc 59-84.) -/
structure Flags where
  /-- `--no-mutation-opts` (main.cc 59-61) -/
  noMutationOpts : Bool := false
  /-- `--only-track-mutant-coverage` (main.cc 63-67) -/
  onlyTrack : Bool := false
  /-- `--dump-asts` (main.cc 69-72) -/
  dumpAsts : Bool := false
  /-- `--mutation-info-file` (main.cc 74-78) -/
  infoFile : Text := []
  /-- `--show-ast-node-types` (main.cc 80-84) -/
  showAst : Bool := false
deriving DecidableEq, Repr

/-- `dredd_options` (main.cc 144-146, options.h 22-28). -/
def Flags.options (fl : Flags) : Options :=
  { optimise := !fl.noMutationOpts
    dumpAsts := fl.dumpAsts
    track := fl.onlyTrack
    showAst := fl.showAst }

/-- `main` with the given options (main.cc 132-193). -/
def mainFlags (asserts canWrite : Bool) (fl : Flags) (is : List Input) : MainResult :=
  mainRun asserts fl.options (!fl.infoFile.isEmpty) canWrite is

/-- What `ClangTool::run` meets (main.cc 152), as `Input`, but with what clang hands over for the files
that are parsed. -/
inductive ParsedInput
  | skipped (name : Text)
  | broken (name : Text)
  | file (f : ParsedFile)

/-- The visitor is run on the files that are parsed (main.cc 146-152; mutate_ast_consumer.cc 95). -/
def ParsedInput.input (opt : Bool) : ParsedInput → Input
  | .skipped n => .skipped n
  | .broken n => .broken n
  | .file f => .file (analyse opt f)

/-- The whole program: `main` with the given options, for files as clang hands them over
(main.cc 132-193). -/
def mainParsed (asserts canWrite : Bool) (fl : Flags) (is : List ParsedInput) : MainResult :=
  mainFlags asserts canWrite fl (is.map (·.input fl.options.optimise))

end Dredd
