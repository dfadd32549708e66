import Verif.Model.Strategies
import Verif.Spec.Sampling

/-!
# What the tests expect of their random inputs
-/

namespace CrowdDynamics.Spec

open Real

/-- A number within the bounds, as far as they are given, that is not zero if zero is excluded, and
larger than `10 ^ -9` in magnitude if the neighbourhood of zero is. -/
def FitsBounds (min max : Option ℝ) (ez : ExcludeZero) (x : ℝ) : Prop :=
  (∀ lo, min = some lo → lo ≤ x) ∧ (∀ hi, max = some hi → x ≤ hi) ∧
  (ez = .exact → x ≠ 0) ∧ (ez = .near → 1 / 10 ^ 9 < |x|)

/-- The largest relative error of rounding to a type of floating point numbers, the largest error near zero,
and a bound below which nothing overflows. -/
noncomputable def precision : FloatDtype → ℝ × ℝ × ℝ
  | .float16 => (1 / 2 ^ 11, 1 / 2 ^ 25, 2 ^ 15)
  | .float32 => (1 / 2 ^ 24, 1 / 2 ^ 150, 2 ^ 127)
  | .float64 => (1 / 2 ^ 53, 1 / 2 ^ 1075, 2 ^ 1023)

/-- A library function whose error is at most `2 ^ -52`. -/
def AccurateTrig (f exact : ℝ → ℝ) : Prop := ∀ x, |f x - exact x| ≤ 2 ^ (-52 : ℤ)

/-- The corners of the triangles are vertices of the polygon, and the triangles have an area. -/
def ProperMesh (vertices : List Vec) (mesh : List (Vec × Vec × Vec)) : Prop :=
  (∀ t ∈ mesh, t.1 ∈ vertices ∧ t.2.1 ∈ vertices ∧ t.2.2 ∈ vertices) ∧
  0 < (mesh.map fun t => triArea t.1 t.2.1 t.2.2).sum

end CrowdDynamics.Spec
