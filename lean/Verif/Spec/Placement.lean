import Verif.Spec.Plane
import Verif.Model.Agent

/-!
# What it means that bodies do not overlap

A body is a list of discs; only the stored data (`Agent` rows) are used, no functions of
the model.
-/

namespace CrowdDynamics.Spec

open CrowdDynamics

/-- The discs (centre, radius) covered by a stored agent. -/
def discs : Kind → Agent → List ((ℝ × ℝ) × ℝ)
  | .circular, a => [(a.position, a.radius)]
  | .threeCircle, a => [(a.position, a.rT), (a.positionLs, a.rS), (a.positionRs, a.rS)]

/-- The interiors of the bodies are disjoint: every two discs are at least the sum of their
radii apart. -/
def DisjointBodies (k : Kind) (a b : Agent) : Prop :=
  ∀ d ∈ discs k a, ∀ e ∈ discs k b, d.2 + e.2 ≤ dist d.1 e.1

/-- Every disc of the body stays at least its radius away from the closed segment. -/
def ClearOfSegment (k : Kind) (a : Agent) (p0 p1 : ℝ × ℝ) : Prop :=
  ∀ d ∈ discs k a, ∀ q ∈ segment ℝ p0 p1, d.2 ≤ dist d.1 q

/-- The whole body lies within distance `e` of the position of the agent. -/
def BodyWithin (k : Kind) (a : Agent) (e : ℝ) : Prop :=
  ∀ d ∈ discs k a, dist a.position d.1 + d.2 ≤ e

/-- The shoulders lie at distance `r_ts` to the left and right of an agent that looks in
the direction `(cos φ, sin φ)`. -/
def ShouldersAttached (a : Agent) : Prop :=
  a.positionLs = (a.position.1 - a.rTs * Real.sin a.orientation,
    a.position.2 + a.rTs * Real.cos a.orientation) ∧
  a.positionRs = (a.position.1 + a.rTs * Real.sin a.orientation,
    a.position.2 - a.rTs * Real.cos a.orientation)

/-- A row in which nothing was ever written: every number is zero and every flag is false. -/
def Blank (a : Agent) : Prop :=
  a.active = false ∧ a.targetReached = false ∧ a.target = 0 ∧ a.isLeader = false ∧
  a.isFollower = false ∧ a.indexLeader = 0 ∧ a.familiarExit = 0 ∧ a.radius = 0 ∧ a.rT = 0 ∧
  a.rS = 0 ∧ a.rTs = 0 ∧ a.mass = 0 ∧ a.inertiaRot = 0 ∧ a.targetVelocity = 0 ∧
  a.targetAngularVelocity = 0 ∧ a.position = 0 ∧ a.velocity = 0 ∧ a.targetDirection = 0 ∧
  a.force = 0 ∧ a.forcePrev = 0 ∧ a.tauAdj = 0 ∧ a.kSoc = 0 ∧ a.tau0 = 0 ∧ a.mu = 0 ∧
  a.kappa = 0 ∧ a.damping = 0 ∧ a.stdRandForce = 0 ∧ a.orientation = 0 ∧ a.angularVelocity = 0 ∧
  a.targetOrientation = 0 ∧ a.torque = 0 ∧ a.torquePrev = 0 ∧ a.tauRot = 0 ∧
  a.stdRandTorque = 0 ∧ a.positionLs = 0 ∧ a.positionRs = 0

end CrowdDynamics.Spec
