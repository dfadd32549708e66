import Verif.Spec.Dynamics

/-!
# What a contact does to the bodies
-/

namespace CrowdDynamics.Spec

open CrowdDynamics

noncomputable section

/-- The speed at which a body moves towards a point, if `x` leads from the point to the body and `v` is
the velocity of the body relative to the point. -/
def approachSpeed (x v : ℝ × ℝ) : ℝ := -inner v x / len x

/-- The part of `v` across the direction of `x` (times the length of `x`). -/
def slip (x v : ℝ × ℝ) : ℝ := inner v (x.2, -x.1)

/-- The constants of the contact force are not negative. -/
def ContactConstants (a : Agent) : Prop := 0 ≤ a.mu ∧ 0 ≤ a.kappa ∧ 0 ≤ a.damping

/-- `z` is a point of the wall that is nearest to `p`. -/
def IsNearest (p : ℝ × ℝ) (w : Wall) (z : ℝ × ℝ) : Prop :=
  z ∈ segment ℝ w.p0 w.p1 ∧ ∀ z' ∈ segment ℝ w.p0 w.p1, dist p z ≤ dist p z'

end

end CrowdDynamics.Spec
