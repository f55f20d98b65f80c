/-
The preludes as seen by the generated functions of one file and one thread.
-/
import Verif.Sem.Exec
import Verif.Model.Prelude

namespace Dredd

/-- The prelude of a mutating build (mutate_ast_consumer.cc 253-343, 374-438).
`env` is the value of the environment variable.  An exception in the parsing
code counts as `none`. -/
def mutatingPrelude (cpp : Bool) (first n : Nat) (env : Option Text) : Device Thread where
  some_ th := th.some_
  query i th :=
    match enabledMutation cpp first n env th i with
    | .ok (th', a) => some (a, th')
    | _ => none
  record _ _ _ := none

/-- The variables of a tracking build (mutate_ast_consumer.cc 357, 452) and the
tracking file. -/
structure TrackVars where
  flags : Nat → Bool
  log : List Nat

/-- The prelude of a tracking build, one thread running (mutate_ast_consumer.cc
347-373, 442-466): `size` is the size of the array, `envSet` whether the
environment variable is set, `canOpen` whether the tracking file can be
opened. -/
def trackingPrelude (cpp : Bool) (first size : Nat) (envSet canOpen : Bool) :
    Device TrackVars where
  some_ _ := true
  query _ _ := none
  record k m d :=
    if size ≤ k then none
    else if d.flags k then some ((), d)
    else
      let flags := fun j => if j = k then true else d.flags j
      if !envSet then some ((), ⟨flags, d.log⟩)
      else if !canOpen then
        if cpp then some ((), ⟨flags, d.log⟩) else none
      else some ((), ⟨flags, d.log ++ List.range' (first + k) m⟩)

end Dredd
