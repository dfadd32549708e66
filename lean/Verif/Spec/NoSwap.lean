import Verif.Spec.LongRun

/-!
# Agents that change sides
-/

namespace CrowdDynamics.Spec

open CrowdDynamics

noncomputable section

/-- Two bodies that move straight, one from `p` to `p'`, the other at the same time from `q` to `q'`, do
not change sides: all the time the first is on the side of the second on which it was at first (in the
direction of their first distance). In particular their centres never meet. -/
def KeepSides (p q p' q' : ℝ × ℝ) : Prop :=
  ∀ t : ℝ, 0 ≤ t → t ≤ 1 → 0 < inner (p - q) ((p + t • (p' - p)) - (q + t • (q' - q)))

/-- Agent `i` overlaps no other agent and no wall. -/
def TouchesNothing {n : ℕ} (env : SimEnv n) (crowd : Crowd n) (i : Fin n) : Prop :=
  (∀ j, j ≠ i → (crowd i).radius + (crowd j).radius ≤ dist (crowd i).position (crowd j).position) ∧
  ∀ w ∈ fieldWalls env.field.obstacles, ∀ z ∈ segment ℝ w.1 w.2,
    (crowd i).radius ≤ dist (crowd i).position z

end

end CrowdDynamics.Spec
