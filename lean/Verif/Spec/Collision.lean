import Verif.Spec.Plane
import Mathlib.Analysis.SpecialFunctions.Exp
import Mathlib.Analysis.Calculus.FDeriv.Basic
import Mathlib.Analysis.Calculus.FDeriv.Prod

/-!
# Collisions of two discs in uniform motion and the anticipation energy

`x` is the position of the first centre relative to the second, `v` the relative velocity
and `r` the sum of the radii. Nothing here refers to the model of the Python code.
-/

namespace CrowdDynamics.Spec

noncomputable section

/-- `t` is the first time at which the discs touch: the centres are `r` apart at time `t`
and farther apart at all earlier times `≥ 0`. -/
def FirstTouch (x v : ℝ × ℝ) (r t : ℝ) : Prop :=
  0 ≤ t ∧ len (x + t • v) = r ∧ ∀ s : ℝ, 0 ≤ s → s < t → r < len (x + s • v)

/-- At some later time the discs properly overlap. -/
def WillOverlap (x v : ℝ × ℝ) (r : ℝ) : Prop := ∃ s : ℝ, 0 < s ∧ len (x + s • v) < r

/-- The first time at which the centres are at most `r` apart. -/
def touchTime (x v : ℝ × ℝ) (r : ℝ) : ℝ := sInf {t : ℝ | 0 ≤ t ∧ len (x + t • v) ≤ r}

/-- The interaction energy per unit mass as a function of the time to collision:
`E(τ) = k τ⁻² exp(-τ/τ₀)`. -/
def anticipationEnergy (k tau0 t : ℝ) : ℝ := k / t ^ 2 * Real.exp (-t / tau0)

/-- `g` is the vector `f` cut back to length `L`. -/
def CappedTo (L : ℝ) (f g : ℝ × ℝ) : Prop :=
  (len f ≤ L → g = f) ∧ (L < len f → SameDirection g f ∧ len g = L)

/-- `g` is the gradient of `E` at `p`. -/
def IsGradientAt (E : ℝ × ℝ → ℝ) (g p : ℝ × ℝ) : Prop :=
  ∃ L : ℝ × ℝ →L[ℝ] ℝ, HasFDerivAt E L p ∧ ∀ u, L u = inner g u

end

end CrowdDynamics.Spec
