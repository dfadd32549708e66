import Verif.Spec.Placement

/-!
# How the agents of the simulations `Outdoor` start
-/

namespace CrowdDynamics.Spec

open CrowdDynamics

/-- An active adult that walks at 1 m/s in the direction at the given angle and wants to keep it. -/
structure SetsOut (kind : Kind) (leader follower : Bool) (angle : ℝ) (a : Agent) : Prop where
  active : a.active = true
  isLeader : a.isLeader = leader
  isFollower : a.isFollower = follower
  noTarget : a.target = -1
  notReached : a.targetReached = false
  velocity : a.velocity = (Real.cos angle, Real.sin angle)
  targetDirection : a.targetDirection = (Real.cos angle, Real.sin angle)
  small : 0.22 ≤ a.radius
  large : a.radius ≤ 0.29
  light : 65.5 ≤ a.mass
  heavy : a.mass ≤ 81.5
  slow : 0.95 ≤ a.targetVelocity
  fast : a.targetVelocity ≤ 1.55
  force : a.force = (0, 0)
  orientation : kind = .threeCircle → a.orientation = angle
  targetOrientation : kind = .threeCircle → a.targetOrientation = angle
  angularVelocity : kind = .threeCircle → a.angularVelocity = 0
  torque : kind = .threeCircle → a.torque = 0

/-- A point of the rectangle. -/
def OnField (width height : ℝ) (p : ℝ × ℝ) : Prop :=
  0 ≤ p.1 ∧ p.1 ≤ width ∧ 0 ≤ p.2 ∧ p.2 ≤ height

end CrowdDynamics.Spec
