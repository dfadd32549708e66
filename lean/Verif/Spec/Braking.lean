import Verif.Spec.SocialForce
import Verif.Spec.Plane

/-!
# Forces that slow the approach of two pedestrians

Only the stored velocities and the circles of the agents are used.
-/

namespace CrowdDynamics.Spec

/-- Both forces act against the motion of their agent relative to the other one. -/
def SlowsApproach (ai aj : Agent) (f : Vec × Vec) : Prop :=
  inner f.1 (ai.velocity - aj.velocity) < 0 ∧ inner f.2 (aj.velocity - ai.velocity) < 0

/-- The circles that touch first are not behind the middle of their bodies, as seen along the
relative motion. -/
def PartsAhead (ai aj : Agent) : Prop := ∀ (p q : Fin 3) (t : ℝ), EarliestContact ai aj p q t →
  0 ≤ inner ((ai.circles p - ai.position) - (aj.circles q - aj.position))
    (ai.velocity - aj.velocity)

/-- Mass, strength and time of the social force of the agent are positive. -/
def Responsive (a : Agent) : Prop := 0 < a.mass ∧ 0 < a.kSoc ∧ 0 < a.tau0

/-- The discs of the agents will first touch within the next 30 seconds, and then overlap. -/
def CollisionAhead (ai aj : Agent) : Prop :=
  WillOverlap (ai.position - aj.position) (ai.velocity - aj.velocity) (ai.radius + aj.radius) ∧
  ∃ t, 0 < t ∧ t ≤ 30 ∧
    FirstTouch (ai.position - aj.position) (ai.velocity - aj.velocity) (ai.radius + aj.radius) t

end CrowdDynamics.Spec
