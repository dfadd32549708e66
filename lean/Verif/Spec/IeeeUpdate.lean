import Verif.Spec.IeeeCrowd
import Verif.Spec.IeeeContact

/-!
# Ordinary crowds, for a whole update
-/

namespace CrowdDynamics.Spec

/-- The other attributes that an update uses are of ordinary size. -/
structure ModerateWalk (a : Agent) : Prop where
  /-- mass -/
  mass : (2 : ℝ) ^ (-10 : ℤ) ≤ |a.mass|
  /-- `tau_adj` -/
  tauAdj : (2 : ℝ) ^ (-10 : ℤ) ≤ |a.tauAdj| ∧ |a.tauAdj| ≤ 2 ^ (10 : ℤ)
  /-- target velocity -/
  targetVelocity : |a.targetVelocity| ≤ 2 ^ (10 : ℤ)
  /-- force of the last update -/
  forcePrev : |a.forcePrev.1| ≤ 2 ^ (400 : ℤ) ∧ |a.forcePrev.2| ≤ 2 ^ (400 : ℤ)

/-- The input of an update with finite random forces and directions. -/
def finiteInput {n : ℕ} (xi direction : Fin n → Vec) (pairs : List (Fin n × Fin n)) :
    StepInput n :=
  ⟨fun i => (.num (xi i).1, .num (xi i).2), fun i => (.num (direction i).1, .num (direction i).2),
    pairs⟩

end CrowdDynamics.Spec
