import Verif.Spec.Plane
import Mathlib.MeasureTheory.Measure.Lebesgue.Basic
import Mathlib.Analysis.Convex.Combination

/-!
# Sampling: probabilities and regions
-/

namespace CrowdDynamics.Spec

open MeasureTheory

noncomputable section

/-- The probability that a number drawn uniformly from `[0, 1)` has property `P`. -/
def prob (P : ℝ → Prop) : ENNReal := volume {x | x ∈ Set.Ico (0 : ℝ) 1 ∧ P x}

/-- The probability that two independent numbers drawn uniformly from `[0, 1)` have property
`P`. -/
def prob2 (P : ℝ → ℝ → Prop) : ENNReal :=
  volume {r : ℝ × ℝ | r.1 ∈ Set.Ico (0 : ℝ) 1 ∧ r.2 ∈ Set.Ico (0 : ℝ) 1 ∧ P r.1 r.2}

/-- Area of the triangle with the given vertices. -/
def triArea (a b c : ℝ × ℝ) : ℝ :=
  |(b.1 - a.1) * (c.2 - a.2) - (b.2 - a.2) * (c.1 - a.1)| / 2

/-- The point lies on the line string through the vertices. -/
def OnLineString (vertices : List (ℝ × ℝ)) (p : ℝ × ℝ) : Prop :=
  ∃ (i : ℕ) (u v : ℝ × ℝ), vertices[i]? = some u ∧ vertices[i + 1]? = some v ∧ p ∈ segment ℝ u v

/-- Length of the segment number `i` of the line string. -/
def segLen (vertices : List (ℝ × ℝ)) (i : ℕ) : ℝ :=
  dist (vertices.getD i 0) (vertices.getD (i + 1) 0)

/-- Length of the line string. -/
def lineLen (vertices : List (ℝ × ℝ)) : ℝ :=
  ((List.range (vertices.length - 1)).map (segLen vertices)).sum

end

end CrowdDynamics.Spec
