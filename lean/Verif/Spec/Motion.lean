import Verif.Spec.Plane
import Mathlib.Analysis.SpecialFunctions.Trigonometric.Basic

/-!
# Uniformly accelerated motion

Nothing here refers to the model of the Python code.
-/

namespace CrowdDynamics.Spec

noncomputable section

/-- Position after time `t` of a point that starts at `x` with velocity `v` and has the
constant acceleration `a`. -/
def ballisticPosition (x v a : ℝ × ℝ) (t : ℝ) : ℝ × ℝ :=
  (x.1 + v.1 * t + a.1 * t ^ 2 / 2, x.2 + v.2 * t + a.2 * t ^ 2 / 2)

/-- Velocity after time `t` under constant acceleration. -/
def ballisticVelocity (v a : ℝ × ℝ) (t : ℝ) : ℝ × ℝ := (v.1 + a.1 * t, v.2 + a.2 * t)

/-- Acceleration of a mass under a force (Newton's second law `m a = f`). -/
def IsAcceleration (m : ℝ) (f a : ℝ × ℝ) : Prop := (m * a.1, m * a.2) = f

/-- The value `m` is the maximum of the (nonempty) family. -/
def IsMaxOf {ι : Type} (m : ℝ) (f : ι → ℝ) : Prop := (∃ i, f i = m) ∧ ∀ i, f i ≤ m

/-- `d` is the turn that leads from orientation `phi` to `phi0` through the smallest angle. -/
def ShortestTurn (phi phi0 d : ℝ) : Prop :=
  (∃ k : ℤ, phi + d = phi0 + k * (2 * Real.pi)) ∧
    ∀ e : ℝ, (∃ k : ℤ, phi + e = phi0 + k * (2 * Real.pi)) → |d| ≤ |e|

end

end CrowdDynamics.Spec
