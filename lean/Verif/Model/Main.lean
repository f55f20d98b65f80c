/-
`main` (src/dredd/src/main.cc 95-193) after the command line has been read.
-/
import Verif.Model.Driver
import Verif.Model.Json

namespace Dredd

/-- What `ClangTool::run` (main.cc 152) meets: one compile command after the other, for the files of
the command line in order. -/
inductive Input
  /-- a file for which there is no compile command; it is skipped -/
  | skipped (name : Text)
  /-- a compile command that fails before there is a main file: errors in the command line, or a
  file that cannot be opened.  Errors are printed, but
  log_failed_files_diagnostic_consumer.cc 27-31 does not know the file. -/
  | broken (name : Text)
  /-- a file that is parsed -/
  | file (f : SourceFile)

/-- The files that are parsed, in order (main.cc 152). -/
def Input.files : List Input → List SourceFile
  | [] => []
  | .file f :: is => f :: files is
  | _ :: is => files is

/-- Whether some file is skipped (main.cc 152). -/
def Input.anySkipped : List Input → Bool
  | [] => false
  | .skipped _ :: _ => true
  | _ :: is => anySkipped is

/-- Whether some compile command fails early (main.cc 152). -/
def Input.anyBroken : List Input → Bool
  | [] => false
  | .broken _ :: _ => true
  | _ :: is => anyBroken is

/-- The result of `tool.run` (main.cc 152).  According to clang's Tooling.h: 1 if any error occurred,
otherwise 2 if some files were skipped, otherwise 0. -/
def toolCode (st : RunState) (is : List Input) : Nat :=
  if st.anyError || Input.anyBroken is then 1 else if Input.anySkipped is then 2 else 0

/-- What a run of the program leaves behind (main.cc 152-192). -/
structure MainResult where
  /-- exit status; `none` if an assertion has failed -/
  exit : Option Nat
  /-- files with their new contents, in the order written -/
  written : List (Text × Text)
  /-- the files listed as not mutated (main.cc 163-172) -/
  listed : List Text
  /-- contents of the mutation info file (main.cc 175-191) -/
  info : Option Json

/-- `main` from line 132 on.  `asserts` says whether the program was built with assertions (154-162).
`infoRequested` is `!mutation_info_file.empty()` (138-142).  The set of files with errors is a
`std::set`, hence sorted (log_failed_files_diagnostic_consumer.h 52).  The JSON text is always
generated (180-185).  `canWrite` says whether the info file can be opened; nothing is reported if it
cannot (184-185).  (main.cc 132-193.) -/
def mainRun (asserts : Bool) (o : Options) (infoRequested canWrite : Bool) (is : List Input) :
    MainResult :=
  let st := runTool o infoRequested (Input.files is)
  let errors := st.anyError || Input.anyBroken is
  let code := toolCode st is
  if asserts && (if code == 0 then errors || !st.failed.isEmpty else !errors) then
    ⟨none, st.written, [], none⟩
  else
    ⟨some code, st.written, if code == 0 then [] else sortedDecls st.failed,
      if infoRequested && canWrite then some (infoFile st.info) else none⟩

end Dredd
