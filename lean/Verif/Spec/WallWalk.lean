import Verif.Spec.Contact
import Verif.Spec.LongRun

/-!
# Walking against a wall
-/

namespace CrowdDynamics.Spec

open CrowdDynamics

noncomputable section

/-- The point `x` lies beside the wall from `p` to `q`: straight across from one of its points. -/
def Beside (p q x : ℝ × ℝ) : Prop :=
  0 ≤ inner (x - p) (q - p) ∧ inner (x - p) (q - p) ≤ inner (q - p) (q - p)

/-- `ν` is a unit vector that stands upright on the wall from `p` to `q`. -/
def IsNormal (p q ν : ℝ × ℝ) : Prop := len ν = 1 ∧ inner ν (q - p) = 0

/-- How far `x` lies from the line through `p`, in the direction of the upright vector `ν` (negative on
the other side). -/
def offWall (p ν x : ℝ × ℝ) : ℝ := inner (x - p) ν

/-- An agent who is driven towards a wall with at most the speed `V` has a contact force that stops it
before it has sunk in by `D`, and before its speed exceeds `P`. At the depth `D₁` the push of the wall takes
off more than `κ` of the speed per update, even though the damping term and the adjusting force
together pull the agent on with up to `b` per unit of mass. -/
def StopsWithin (a : Agent) (V P D : ℝ) : Prop :=
  1 / 30 ≤ a.tauAdj ∧ a.mass ≤ a.damping * a.tauAdj ∧ 0 ≤ P ∧ D < a.radius ∧ ∃ D₁ κ, 0 ≤ D₁ ∧ 0 < κ ∧
    let b := (a.damping / a.mass - 1 / a.tauAdj) * P + V / a.tauAdj
    0.0001 * b / a.tauAdj ≤ V * (1 - 0.02 / a.tauAdj) ∧
    V ^ 2 + 2 * b * (D₁ + 0.01 * P) ≤ P ^ 2 ∧
    0.01 * b ≤ P ∧
    κ ≤ 0.01 * (a.mu / a.mass * D₁ - b) ∧
    D₁ + 0.01 * P + 0.01 * P ^ 2 / (2 * κ) ≤ D

/-- Agent `i` is out of reach of all other agents (a gap of at least 3) and touches no wall of the field
except possibly `w`. -/
def TouchesOnly {n : ℕ} (env : SimEnv n) (crowd : Crowd n) (i : Fin n) (w : Vec × Vec) : Prop :=
  (∀ j, j ≠ i → 3 + ((crowd i).radius + (crowd j).radius) ≤
    dist (crowd i).position (crowd j).position) ∧
  ∃ before after, fieldWalls env.field.obstacles = before ++ w :: after ∧
    ∀ w' ∈ before ++ after, ∀ z ∈ segment ℝ w'.1 w'.2, (crowd i).radius ≤ dist (crowd i).position z

end

end CrowdDynamics.Spec
