import Verif.Model.IeeeCrowd

/-!
# Agents who are nowhere
-/

namespace CrowdDynamics.Spec

open CrowdDynamics

/-- A coordinate of the position of the agent is infinite or not a number. -/
def Nowhere (a : AgentI) : Prop := ¬ ∃ x y : ℝ, a.position = (.num x, .num y)

end CrowdDynamics.Spec
