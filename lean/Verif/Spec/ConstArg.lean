/-
Arguments that must be constants.
-/
import Verif.Spec.Syntax

namespace Dredd

/-- The node is an argument that a builtin function requires to be an integer constant. -/
def MustBeConst (n : Node) : Prop :=
  ∃ s ks e, n = .stmt s ks ∧ s.kind = .expr e ∧ e.mustBeConst = true

/-- The node is a call of `__builtin_frame_address`. -/
def CallsFrameAddress (n : Node) : Prop := ∃ a adl member, n.cls? = some (.call (some a) adl member)

end Dredd
