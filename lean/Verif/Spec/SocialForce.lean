import Verif.Spec.Collision
import Verif.Model.Agent

/-!
# Contacts of two agents and invariance

Only the stored data (`Agent` rows, their circles and radii) are used, no functions of the
model of the force.
-/

namespace CrowdDynamics
/-- The agent moved by the displacement `d`, with `u` added to its velocity. -/
def Spec.shifted (d u : Vec) (a : Agent) : Agent :=
  { a with
    position := a.position + d, positionLs := a.positionLs + d, positionRs := a.positionRs + d
    velocity := a.velocity + u }

/-- The pair `(p, q)` of circles makes the earliest proper contact, at the time `t > 0`. -/
def Spec.EarliestContact (ai aj : Agent) (p q : Fin 3) (t : ℝ) : Prop :=
  0 < t ∧
  Spec.FirstTouch (ai.circles p - aj.circles q) (ai.velocity - aj.velocity)
    (ai.radii p + aj.radii q) t ∧
  Spec.WillOverlap (ai.circles p - aj.circles q) (ai.velocity - aj.velocity)
    (ai.radii p + aj.radii q) ∧
  ∀ p' q' t', 0 < t' →
    Spec.FirstTouch (ai.circles p' - aj.circles q') (ai.velocity - aj.velocity)
      (ai.radii p' + aj.radii q') t' →
    Spec.WillOverlap (ai.circles p' - aj.circles q') (ai.velocity - aj.velocity)
      (ai.radii p' + aj.radii q') → t ≤ t'

/-- The forces `f` are those of the anticipation energy at time `t`, in some common direction
`G`. -/
def Spec.ReactsAt (ai aj : Agent) (t : ℝ) (G : Vec) (f : Vec × Vec) : Prop :=
  Spec.CappedTo 2000 ((ai.mass * deriv (Spec.anticipationEnergy ai.kSoc ai.tau0) t) • G) f.1 ∧
  Spec.CappedTo 2000 (-((aj.mass * deriv (Spec.anticipationEnergy aj.kSoc aj.tau0) t) • G)) f.2

/-- The anticipation energy of `ai` as a function of its position `y`, when the circles `p`
of `ai` and `q` of `aj` collide. -/
noncomputable def Spec.pairEnergy (ai aj : Agent) (p q : Fin 3) (y : Vec) : ℝ :=
  Spec.anticipationEnergy ai.kSoc ai.tau0
    (Spec.touchTime (y - (ai.position - ai.circles p + aj.circles q))
      (ai.velocity - aj.velocity) (ai.radii p + aj.radii q))

end CrowdDynamics
