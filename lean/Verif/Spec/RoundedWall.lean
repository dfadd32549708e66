import Verif.Spec.Float64
import Verif.Model.Agent
import Mathlib.Order.Interval.Set.UnorderedInterval

/-!
# Walking against a wall in floating point
-/

namespace CrowdDynamics.Spec

open CrowdDynamics

/-- An agent with the constants of the code and a body of ordinary size, who stands or walks along the first
axis, no faster than 1.75, and wants to walk along it, towards the wall from `(X, Y0)` to `(X, Y1)`. It
starts beside the wall, clear of it and within 1000 m. The numbers are floats. -/
structure PressStart (a : Agent) (X Y0 Y1 : ℝ) : Prop where
  tau : a.tauAdj = 1 / 2
  mu : a.mu = 1.2e5
  damping : a.damping = 500
  mass : 50 ≤ a.mass ∧ a.mass ≤ 90
  radius : Binary64 a.radius ∧ 0.19 ≤ a.radius ∧ a.radius ≤ 1
  pace : Binary64 a.targetVelocity ∧ 0.4 ≤ a.targetVelocity ∧ a.targetVelocity ≤ 1.7
  place : Binary64 a.position.1 ∧ Binary64 a.position.2
  slow : Binary64 a.velocity.1 ∧ |a.velocity.1| ≤ 1.75 ∧ a.velocity.2 = 0
  aim : a.targetDirection = (1, 0)
  force : a.force = 0 ∧ a.forcePrev = 0
  wall : Binary64 X ∧ |X| ≤ 1000 ∧ Binary64 Y0 ∧ Binary64 Y1 ∧ Y0 ≠ Y1
  beside : a.position.2 ∈ Set.uIcc Y0 Y1
  clear : a.radius ≤ X - a.position.1 ∧ X - a.position.1 ≤ 1000

end CrowdDynamics.Spec
