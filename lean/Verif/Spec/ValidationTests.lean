import Verif.Spec.Placement

/-!
# What the test simulations start with
-/

namespace CrowdDynamics.Spec

open CrowdDynamics

/-- An agent of the test simulations at `p` that walks at 1 m/s in the direction `dir`, which is at the
given angle to the first axis: an active person with a radius of 25.5 cm and a mass of 73.5 kg, on whom
no force acts. -/
structure Walker (kind : Kind) (p dir : ℝ × ℝ) (angle : ℝ) (a : Agent) : Prop where
  active : a.active = true
  position : a.position = p
  velocity : a.velocity = dir
  targetDirection : a.targetDirection = dir
  targetVelocity : a.targetVelocity = 1
  radius : a.radius = 0.255
  mass : a.mass = 73.5
  force : a.force = (0, 0)
  forcePrev : a.forcePrev = (0, 0)
  orientation : kind = .threeCircle → a.orientation = angle
  targetOrientation : kind = .threeCircle → a.targetOrientation = angle
  angularVelocity : kind = .threeCircle → a.angularVelocity = 0
  torque : kind = .threeCircle → a.torque = 0
  torquePrev : kind = .threeCircle → a.torquePrev = 0
  torso : kind = .threeCircle → a.rT = 0.5882 * 0.255
  shoulder : kind = .threeCircle → a.rS = 0.3725 * 0.255
  shoulders : kind = .threeCircle → a.rTs = 0.6275 * 0.255 ∧ ShouldersAttached a

end CrowdDynamics.Spec
