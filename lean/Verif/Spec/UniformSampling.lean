import Verif.Spec.Sampling

/-!
# Uniform distribution of sampled points
-/

namespace CrowdDynamics.Spec

open MeasureTheory

noncomputable section

/-- The probability that three independent numbers drawn uniformly from `[0, 1)` have property
`P`. -/
def prob3 (P : ℝ → ℝ → ℝ → Prop) : ENNReal :=
  volume {r : ℝ × ℝ × ℝ | r.1 ∈ Set.Ico (0 : ℝ) 1 ∧ r.2.1 ∈ Set.Ico (0 : ℝ) 1 ∧
    r.2.2 ∈ Set.Ico (0 : ℝ) 1 ∧ P r.1 r.2.1 r.2.2}

/-- The filled triangle with the given corners. -/
def filled (t : (ℝ × ℝ) × (ℝ × ℝ) × (ℝ × ℝ)) : Set (ℝ × ℝ) := convexHull ℝ {t.1, t.2.1, t.2.2}

/-- The triangles cover the region exactly, and any two of them (by position in the list) have
at most an area of zero in common. -/
def Tiles (mesh : List ((ℝ × ℝ) × (ℝ × ℝ) × (ℝ × ℝ))) (region : Set (ℝ × ℝ)) : Prop :=
  (∀ p, p ∈ region ↔ ∃ t ∈ mesh, p ∈ filled t) ∧
    mesh.Pairwise fun s t => volume (filled s ∩ filled t) = 0

end

end CrowdDynamics.Spec
