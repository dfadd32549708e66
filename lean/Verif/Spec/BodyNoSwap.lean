import Verif.Spec.NoSwap
import Verif.Spec.Turning

/-!
# Three-circle agents without contact
-/

namespace CrowdDynamics.Spec

open CrowdDynamics

/-- No circle of agent `i` overlaps a circle of another agent or a wall. -/
def BodyTouchesNothing {n : ℕ} (env : SimEnv n) (crowd : Crowd n) (i : Fin n) : Prop :=
  (∀ j, j ≠ i → ∀ p q, (crowd i).radii p + (crowd j).radii q ≤
    dist ((crowd i).circles p) ((crowd j).circles q)) ∧
  ∀ w ∈ fieldWalls env.field.obstacles, ClearOfSegment .threeCircle (crowd i) w.1 w.2

end CrowdDynamics.Spec
