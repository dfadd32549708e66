import Verif.Spec.Following

/-!
# Crowds that walk one way

Only the data types `Wall` and `Agent` of the model are used (through `Spec.Following`).
-/

namespace CrowdDynamics.Spec

open CrowdDynamics

noncomputable section

/-- The vector `v` points in the direction of the unit vector `u`, up to the angle with cosine `c`
(zero points everywhere). -/
def Onward (u : ℝ × ℝ) (c : ℝ) (v : ℝ × ℝ) : Prop := c * len v ≤ inner v u

open Classical in
/-- `h` is the direction that the agent `i` with the listed neighbours takes over from those of them whom
it may follow: nothing if there are none, otherwise the mixture of the direction to their mean position
(with the given weight) and the direction of their total velocity. -/
def HerdDirection {n : ℕ} (a : Fin n → Agent) (phi weight : ℝ) (i : Fin n)
    (neighbours : List (Option (Fin n))) (h : ℝ × ℝ) : Prop :=
  let F := neighbours.reduceOption.filter fun j =>
    MayFollow (a i).position (a i).velocity (a j).position (a j).velocity phi
  (F = [] ∧ h = 0) ∨
  (F ≠ [] ∧ h = dir (weight • dir ((F.length : ℝ)⁻¹ • (F.map fun j => (a j).position).sum -
    (a i).position) + (1 - weight) • dir (F.map fun j => (a j).velocity).sum))

end

end CrowdDynamics.Spec
