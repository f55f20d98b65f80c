/-
What the code in the tracking preludes does when it runs:
mutate_ast_consumer.cc 347-373 (C++) and 442-466 (C).
-/
import Verif.Model.Text

namespace Dredd

/-- A call `__dredd_record_covered_mutants(k, m)` (mutate_ast_consumer.cc 355,
450) in the code of file number `file`. -/
structure RecCall where
  file : Nat
  k : Nat
  m : Nat
deriving DecidableEq, Repr

/-- What is fixed when the program runs: for each file its first id and the size
of its array (`initial_mutation_id`, `num_mutations`; mutate_ast_consumer.cc
350, 357, 368); whether the environment variable is set (361-363) and whether
the file can be opened (364-366, 458); the language of the preludes. -/
structure TrackCfg where
  cpp : Bool
  first : Nat → Nat
  size : Nat → Nat
  envSet : Bool
  canOpen : Bool

/-- A thread: the calls it still has to make, and, inside a call, the next id to
write and how many (the loop mutate_ast_consumer.cc 367-370, 459-462). -/
structure TrackThread where
  todo : List RecCall
  writing : Option (Nat × Nat)
deriving DecidableEq, Repr

/-- The arrays `already_recorded` (one static array per file,
mutate_ast_consumer.cc 357, 452), the tracking file, the threads. -/
structure TrackState where
  flags : Nat → Nat → Bool
  log : List Nat
  threads : Nat → TrackThread

/-- Replace the state of one thread. (the threads run mutate_ast_consumer.cc
355-371, 450-464.) -/
def TrackState.setThread (s : TrackState) (t : Nat) (th : TrackThread) : TrackState :=
  { s with threads := fun u => if u = t then th else s.threads u }

/-- Thread `t` makes one step; `none` is undefined behaviour.  A step is either
the beginning of a call up to the loop – the index into the array, the atomic
exchange and the early returns (mutate_ast_consumer.cc 359-363, 453-457) – or
the writing of one line (368, 460).  Simplified: a line is written at once. -/
def TrackState.step (c : TrackCfg) (s : TrackState) (t : Nat) : Option TrackState :=
  match (s.threads t).writing with
  | some (x, r + 1) =>
    some { (s.setThread t
      ⟨(s.threads t).todo, if r = 0 then none else some (x + 1, r)⟩) with log := s.log ++ [x] }
  | some (_, 0) => some (s.setThread t ⟨(s.threads t).todo, none⟩)
  | none =>
    match (s.threads t).todo with
    | [] => some s
    | call :: rest =>
      if c.size call.file ≤ call.k then none
      else if s.flags call.file call.k then some (s.setThread t ⟨rest, none⟩)
      else
        let s' := { s with flags := fun f k => if f = call.file ∧ k = call.k then true else s.flags f k }
        if !c.envSet then some (s'.setThread t ⟨rest, none⟩)
        else if !c.canOpen then
          -- a stream in a failed state ignores output; fprintf to NULL is undefined
          if c.cpp then some (s'.setThread t ⟨rest, none⟩) else none
        else
          some (s'.setThread t
            ⟨rest, if call.m = 0 then none else some (c.first call.file + call.k, call.m)⟩)

/-- A schedule: which thread moves next. (the threads run mutate_ast_consumer.cc
355-371, 450-464.) -/
def TrackState.run (c : TrackCfg) : TrackState → List Nat → Option TrackState
  | s, [] => some s
  | s, t :: ts => (s.step c t).bind fun s' => TrackState.run c s' ts

/-- Nothing recorded, an empty file, every thread about to make its calls
(mutate_ast_consumer.cc 357, 452: static, hence false). -/
def TrackState.start (calls : Nat → List RecCall) : TrackState :=
  ⟨fun _ _ => false, [], fun t => ⟨calls t, none⟩⟩

end Dredd
