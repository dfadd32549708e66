import Mathlib.Data.Real.Basic

/-!
# Signed area of a closed polygonal path

Nothing here refers to the model of the Python code.
-/

namespace CrowdDynamics.Spec

noncomputable section

/-- Twice the oriented area of the triangle `0, p, q`. -/
def orientedArea (p q : ℝ × ℝ) : ℝ := p.1 * q.2 - q.1 * p.2

/-- Twice the oriented area swept by the radius vector along an open path. -/
def pathArea : List (ℝ × ℝ) → ℝ
  | [] => 0
  | [_] => 0
  | p :: q :: rest => orientedArea p q + pathArea (q :: rest)

/-- Signed area of the closed polygon with the given vertices: sweep along the
path and back to the first vertex. -/
def signedArea : List (ℝ × ℝ) → ℝ
  | [] => 0
  | p :: rest => pathArea (p :: rest ++ [p]) / 2

/-- An affine map of the plane given by its matrix and translation. -/
def affine (a b c d e f : ℝ) (p : ℝ × ℝ) : ℝ × ℝ :=
  (a * p.1 + b * p.2 + e, c * p.1 + d * p.2 + f)

end

end CrowdDynamics.Spec
