import Verif.Spec.Sampling
import Mathlib.Analysis.SpecialFunctions.Trigonometric.Basic

/-!
# Directions without preference
-/

namespace CrowdDynamics.Spec

noncomputable section

/-- The vector turned by the angle `a` against the clock. -/
def rotatedBy (a : ℝ) (v : ℝ × ℝ) : ℝ × ℝ :=
  (Real.cos a * v.1 - Real.sin a * v.2, Real.sin a * v.1 + Real.cos a * v.2)

/-- The vector is computed from a random number in `[0, 1)` such that its distribution does not
change if the vector is turned by any angle. -/
def Isotropic (v : ℝ → ℝ × ℝ) : Prop :=
  ∀ (a : ℝ) (S : Set (ℝ × ℝ)), MeasurableSet S →
    prob (fun u => rotatedBy a (v u) ∈ S) = prob (fun u => v u ∈ S)

end

end CrowdDynamics.Spec
