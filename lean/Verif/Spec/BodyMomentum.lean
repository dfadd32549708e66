import Verif.Spec.Turning
import Verif.Spec.Momentum

/-!
# What acts on three-circle agents from outside
-/

namespace CrowdDynamics.Spec

open CrowdDynamics

noncomputable section

open Classical in
/-- `f` is a possible value of everything but the forces of other agents that acts on the three-circle
agent `i` in the update from `s` to `t`: a random force, the adjusting force and, if `order` contains
the node for obstacles, the forces of the walls. -/
def ActsOnBodyFromOutside {n : ℕ} (env : SimEnv n) (order : List Node) (s t : SimState n) (i : Fin n)
    (f : ℝ × ℝ) : Prop :=
  ∃ fluctuation adjusting walls,
    ContributesBody CodeArm env (aimingBody s t) i .fluctuation fluctuation ∧
    ContributesBody CodeArm env (aimingBody s t) i .adjusting adjusting ∧
    (if .agentObstacle ∈ order then
        ContributesBody CodeArm env (aimingBody s t) i .agentObstacle walls
      else walls = 0) ∧
    f = (fluctuation + adjusting + walls).1

end

end CrowdDynamics.Spec
