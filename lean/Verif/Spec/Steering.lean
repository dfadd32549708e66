import Verif.Spec.Following
import Mathlib.Analysis.SpecialFunctions.Pow.Real

/-!
# Directions near obstacles
-/

namespace CrowdDynamics.Spec

noncomputable section

/-- Weight of the obstacles at the distance `x`. -/
def obstacleWeight (strength radius x : ℝ) : ℝ := strength ^ (x / radius)

/-- Mixture of the direction away from an obstacle (`toObs` points towards it) and the direction
to the target, at distance `x` from the obstacle. -/
def mixture (strength radius x : ℝ) (toObs toTarget : ℝ × ℝ) : ℝ × ℝ :=
  obstacleWeight strength radius x • (-toObs) + (1 - obstacleWeight strength radius x) • toTarget

/-- `r` is the unit vector in the direction of `v`, and undefined if there is none. -/
def IsDirOf (v : ℝ × ℝ) (r : Option (ℝ × ℝ)) : Prop :=
  (v = 0 ∧ r = none) ∨ (v ≠ 0 ∧ r = some (dir v))

end

end CrowdDynamics.Spec
