/-
Programs made of several mutated files.

Each mutated file has its own prelude with its own variables (the functions and the
variables are `static`, mutate_ast_consumer.cc 262-343, 347-466).  All of them read
the same environment variable; all tracking preludes write to the same file.
-/
import Verif.Sem.Interp
import Verif.Sem.Devices
import Verif.Model.Driver

namespace Dredd

variable {S V D : Type}

/-- The instrumented program: the point with first id `id` is in file `fileOf id` and uses that
file's prelude, with ids relative to that file's first id.  All files are in the same language. -/
def Interp.linked (l : Lang) (o : Options) (M : Machine S V) (devs : Nat → Device D)
    (first fileOf : Nat → Nat) : Interp S (S × D) V where
  machine := M.withState D
  raise c := fun p r => ∃ r0, c p.1 r0 ∧ r = r0.withD p.2
  step f := .lift (liftState f)
  bin s id c1 c2 := s.exec l o M (devs (fileOf id)) (id - first (fileOf id)) c1 c2
  un s id c := s.exec l o M (devs (fileOf id)) (id - first (fileOf id)) c
  expr s id c := s.exec l o M (devs (fileOf id)) (id - first (fileOf id)) c
  load s id c := s.exec l o M (devs (fileOf id)) (id - first (fileOf id)) c
  stmt id c := stmtExec o (devs (fileOf id)) (id - first (fileOf id)) c

/-- The mutating preludes of all files: file `i` has the variables `d i`
(mutate_ast_consumer.cc 253-343, 374-438). -/
def mutatingPreludes (cpp : Bool) (first n : Nat → Nat) (env : Option Text) (i : Nat) :
    Device (Nat → Thread) :=
  let dev := mutatingPrelude cpp (first i) (n i) env
  { some_ := fun d => dev.some_ (d i)
    query := fun k d => (dev.query k (d i)).map fun p => (p.1, fun j => if j = i then p.2 else d j)
    record := fun k m d => (dev.record k m (d i)).map fun p =>
      (p.1, fun j => if j = i then p.2 else d j) }

/-- The variables of the tracking preludes, one array per file, and the file they write to. -/
structure TrackAll where
  flags : Nat → Nat → Bool
  log : List Nat

/-- What file `i` sees. -/
def TrackAll.view (d : TrackAll) (i : Nat) : TrackVars := ⟨d.flags i, d.log⟩

/-- What file `i` sees has changed. -/
def TrackAll.set (d : TrackAll) (i : Nat) (t : TrackVars) : TrackAll :=
  ⟨fun j => if j = i then t.flags else d.flags j, t.log⟩

/-- The tracking preludes of all files (mutate_ast_consumer.cc 347-373, 442-466). -/
def trackingPreludes (cpp : Bool) (first n : Nat → Nat) (i : Nat) : Device TrackAll :=
  let dev := trackingPrelude cpp (first i) (n i) true true
  { some_ := fun d => dev.some_ (d.view i)
    query := fun k d => (dev.query k (d.view i)).map fun p => (p.1, d.set i p.2)
    record := fun k m d => (dev.record k m (d.view i)).map fun p => (p.1, d.set i p.2) }

/-- First mutant of the `i`-th file of a run of the tool (mutate_ast_consumer.cc 105, 497-501;
mutation_id_ is shared by all files). -/
def blockFirst (o : Options) (fs : List SourceFile) (i : Nat) : Nat :=
  (runTool o true (fs.take i)).nextId

/-- Number of mutants of the `i`-th file. -/
def blockSize (o : Options) (fs : List SourceFile) (i : Nat) : Nat :=
  blockFirst o fs (i + 1) - blockFirst o fs i

end Dredd
