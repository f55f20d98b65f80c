/-
Specification of coverage tracking.
-/
import Verif.Model.Tracking

namespace Dredd

/-- The ids a call reports. -/
def RecCall.covers (c : TrackCfg) (call : RecCall) (x : Nat) : Prop :=
  c.first call.file + call.k ≤ x ∧ x < c.first call.file + call.k + call.m

/-- The calls belong to non-empty groups: each owns a non-empty block of its
file's ids, and two groups are equal or have no id in common. -/
structure Blocks (c : TrackCfg) (P : RecCall → Prop) : Prop where
  pos : ∀ a, P a → 0 < a.m
  bound : ∀ a, P a → a.k + a.m ≤ c.size a.file
  disj : ∀ a b, P a → P b → a = b ∨ ∀ x, ¬ (a.covers c x ∧ b.covers c x)

/-- Thread `t`, whose calls are `calls t`, has already begun call `a`. -/
def TrackState.Reached (calls : Nat → List RecCall) (s : TrackState) (t : Nat) (a : RecCall) :
    Prop :=
  ∃ done, calls t = done ++ (s.threads t).todo ∧ a ∈ done

/-- All threads have finished. -/
def TrackState.Finished (s : TrackState) : Prop :=
  ∀ t, (s.threads t).todo = [] ∧ (s.threads t).writing = none

end Dredd
