/-
Several threads using the regular preludes (mutate_ast_consumer.cc 278-343,
403-438).  All variables of the preludes are `thread_local`
(mutate_ast_consumer.cc 278-284, 403-407), so a thread has its own `Thread`
record; the environment is shared.
-/
import Verif.Model.Prelude

namespace Dredd

/-- What can happen in a process: a thread calls `__dredd_enabled_mutation`
(mutate_ast_consumer.cc 279, 404), or the environment variable is changed. -/
inductive Event
  | query (t i : Nat)
  | setenv (e : Option Text)
deriving DecidableEq, Repr

/-- The environment variable and every thread's variables
(mutate_ast_consumer.cc 278-284, 403-407). -/
structure World where
  env : Option Text
  threads : Nat → Thread

/-- One event; a query also yields an answer.  Queries are atomic: justified for
C++ because a query touches only the thread's own variables and reads the
environment once (mutate_ast_consumer.cc 287-289); for C see `CState` below. -/
def World.step (cpp : Bool) (first n : Nat) (w : World) :
    Event → Out World (World × List (Nat × Nat × Bool))
  | .setenv e => .ok ({ w with env := e }, [])
  | .query t i =>
    match enabledMutation cpp first n w.env (w.threads t) i with
    | .ok (th, b) =>
      .ok ({ w with threads := fun u => if u = t then th else w.threads u }, [(t, i, b)])
    | .threw th => .threw { w with threads := fun u => if u = t then th else w.threads u }
    | .ub => .ub

/-- A sequence of events and all answers given, in order
(mutate_ast_consumer.cc 279-343, 404-438). -/
def World.run (cpp : Bool) (first n : Nat) :
    World → List Event → Out World (World × List (Nat × Nat × Bool))
  | w, [] => .ok (w, [])
  | w, e :: es =>
    match w.step cpp first n e with
    | .ok (w', as) =>
      match World.run cpp first n w' es with
      | .ok (w'', bs) => .ok (w'', as ++ bs)
      | .threw s => .threw s
      | .ub => .ub
    | .threw s => .threw s
    | .ub => .ub

/-- The process before any query (mutate_ast_consumer.cc 278-284, 403-407). -/
def World.start (n : Nat) (e : Option Text) : World := ⟨e, fun _ => Thread.start n⟩

/-! ### The C prelude in small steps

`strtok` keeps its position in a variable shared by the whole process
(mutate_ast_consumer.cc 417, 428), so the C initialisation is not atomic. -/

/-- Where a thread is in the C initialisation (mutate_ast_consumer.cc 408-434). -/
inductive CPhase
  | fresh
  | parsing (p : Parse)
  | done (p : Parse)
deriving DecidableEq, Repr

/-- `strtok`'s hidden variable and the phases of the threads.
(mutate_ast_consumer.cc 403-409, 417, 428.) -/
structure CState where
  saved : Text
  phase : Nat → CPhase

/-- Handle the token that `strtok` returned to thread `t`
(mutate_ast_consumer.cc 418-427): `none` ends the loop. -/
def CState.token (first n : Nat) (s : CState) (t : Nat) (p : Parse) :
    Option (Text × Text) → Option CState
  | none => some ⟨s.saved, fun u => if u = t then .done p else s.phase u⟩
  | some (tok, rest) =>
    match tokenC first n p tok with
    | .ok p' => some ⟨rest, fun u => if u = t then .parsing p' else s.phase u⟩
    | _ => none

/-- Thread `t` runs to just after its next call of `strtok` and the handling of
the token: `strtok(temp, ",")` (mutate_ast_consumer.cc 417) the first time,
`strtok(NULL, ",")` (428) afterwards.  `none` is undefined behaviour.
Simplified: the data race on the hidden variable, and `free(temp)` (430) while
another thread's `strtok` still points into it, are themselves undefined and not
modelled. -/
def CState.step (first n : Nat) (env : Text) (s : CState) (t : Nat) : Option CState :=
  match s.phase t with
  | .fresh => s.token first n t ⟨List.replicate ((n + 63) / 64) 0#64, false⟩ (strtok env)
  | .parsing p => s.token first n t p (strtok s.saved)
  | .done _ => some s

/-- A schedule: which thread moves next. (the threads run mutate_ast_consumer.cc
408-434.) -/
def CState.run (first n : Nat) (env : Text) : CState → List Nat → Option CState
  | s, [] => some s
  | s, t :: ts => (s.step first n env t).bind fun s' => CState.run first n env s' ts

/-- No thread has started (mutate_ast_consumer.cc 405). -/
def CState.start : CState := ⟨[], fun _ => .fresh⟩

end Dredd
