import Verif.Spec.LongRun

/-!
# Momentum of a crowd
-/

namespace CrowdDynamics.Spec

open CrowdDynamics

noncomputable section

/-- The total momentum of a crowd. -/
def totalMomentum {n : ℕ} (crowd : Crowd n) : ℝ × ℝ := ∑ i, (crowd i).mass • (crowd i).velocity

open Classical in
/-- `f` is a possible value of everything but the forces of other agents that acts on agent `i` in the
update from `s` to `t`: a random force, the adjusting force and, if `order` contains the node for
obstacles, the forces of the walls. -/
def ActsFromOutside {n : ℕ} (env : SimEnv n) (order : List Node) (s t : SimState n) (i : Fin n)
    (f : ℝ × ℝ) : Prop :=
  ∃ fluctuation adjusting walls,
    Contributes env (aiming s t) i .fluctuation fluctuation ∧
    Contributes env (aiming s t) i .adjusting adjusting ∧
    (if .agentObstacle ∈ order then Contributes env (aiming s t) i .agentObstacle walls
      else walls = 0) ∧
    f = fluctuation + adjusting + walls

end

end CrowdDynamics.Spec
