import Verif.Model.ExampleFields
import Verif.Model.Field

/-!
# Model of where the agents of the shipped simulations start
-/

namespace CrowdDynamics

noncomputable section

/-- The positions that `field.sample_spawn(index)` can generate: a point of the convex hull of what
remains of the spawn without the points that are nearer than 0.3 to an obstacle. (shapely approximates
the round parts of `buffer` by polygons.) C75 relates the generator to this set.
Source: crowddynamics/simulation/field.py:118-129. -/
def Plan.samples (f : Plan) (index : ℤ) : Set Vec :=
  match pyListGet f.spawns index with
  | .error _ => ∅
  | .ok spawn => convexHull ℝ {p | p ∈ spawn ∧ ∀ q ∈ f.obstacles, 0.3 ≤ length (p - q)}

/-- Whether a simulation passes its obstacles to `add_non_overlapping_group`.
Source: crowddynamics/examples/simulations.py:156-161, 233-234, 295-298 and
crowddynamics/examples/collective_motion.py:175-178, 263-266, 333-342, 456-459, 535-548. -/
def ExampleSimulation.passesObstacles : ExampleSimulation → Bool
  | .hallway _ _ _ _ => false
  | .roomWithOneExit _ _ _ _ _ => false
  | .fourExits _ _ => true
  | .rounding _ _ _ _ => true
  | .avoidObstacle _ _ _ _ _ _ => true
  | .closedRoom _ _ _ _ => false
  | .fourExitsLeaders _ _ _ => true
  | .fixedPlacing _ _ _ => true

/-- The positions at which a circular agent of radius `r` of a group can be placed: those that are
generated and, if the obstacles are passed, are not refused because of an obstacle (other agents can
refuse further ones). The test is exact, see C118.
Source: crowddynamics/simulation/agents.py:652-671 and as `passesObstacles`. -/
def ExampleSimulation.starts (s : ExampleSimulation) (g : GroupPlan) (r : ℝ) : Set Vec :=
  {p | p ∈ s.plan.samples g.spawn ∧
    (s.passesObstacles = true → ¬ ∃ q ∈ s.plan.obstacles, length (p - q) < r)}

end

end CrowdDynamics
