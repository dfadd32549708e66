import Verif.Spec.Ieee
import Verif.Model.IeeeContact

/-!
# Agents and walls of moderate size, and finite forces
-/

namespace CrowdDynamics.Spec

/-- The constants of the contact force are at most a million (in their units). -/
def ModerateContact (a : Agent) : Prop :=
  |a.mu| ≤ 2 ^ (20 : ℤ) ∧ |a.kappa| ≤ 2 ^ (20 : ℤ) ∧ |a.damping| ≤ 2 ^ (20 : ℤ)

/-- The same bounds for constants that are any `float64`. -/
def SmallContact (a : Agent) : Prop :=
  SmallFloat 20 a.mu ∧ SmallFloat 20 a.kappa ∧ SmallFloat 20 a.damping

/-- A wall between two distinct points with coordinates of at most a million metres, which are
multiples of `2 ^ -60`. -/
structure ModerateWall (w : Wall) : Prop where
  /-- the first end -/
  p0 : ModerateNumber 20 w.p0.1 ∧ ModerateNumber 20 w.p0.2
  /-- the second end -/
  p1 : ModerateNumber 20 w.p1.1 ∧ ModerateNumber 20 w.p1.2
  /-- it is not a point -/
  ne : w.p0 ≠ w.p1

/-- A wall between two distinct points whose coordinates are any `float64` of at most a million
metres. -/
structure SmallWall (w : Wall) : Prop where
  /-- the first end -/
  p0 : SmallFloat 20 w.p0.1 ∧ SmallFloat 20 w.p0.2
  /-- the second end -/
  p1 : SmallFloat 20 w.p1.1 ∧ SmallFloat 20 w.p1.2
  /-- it is not a point -/
  ne : w.p0 ≠ w.p1

/-- A column of forces with finite components. -/
def FiniteForces {n : ℕ} (force : Fin n → F64 × F64) : Prop :=
  ∀ i, ∃ p q : ℝ, force i = (.num p, .num q)

/-- Forces of at most a million newtons in each coordinate. -/
def ModerateForces {n : ℕ} (f : Fin n → Vec) : Prop :=
  ∀ i, |(f i).1| ≤ 2 ^ (20 : ℤ) ∧ |(f i).2| ≤ 2 ^ (20 : ℤ)

end CrowdDynamics.Spec
