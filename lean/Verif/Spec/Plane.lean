import Mathlib.Analysis.SpecialFunctions.Sqrt
import Mathlib.Analysis.Convex.Segment

/-!
# Elementary plane geometry used in specifications

Nothing here refers to the model of the Python code.
-/

namespace CrowdDynamics.Spec

noncomputable section

/-- Euclidean length of a vector. -/
def len (v : ℝ × ℝ) : ℝ := Real.sqrt (v.1 ^ 2 + v.2 ^ 2)

/-- Euclidean distance of two points. -/
def dist (p q : ℝ × ℝ) : ℝ := len (p - q)

/-- Euclidean inner product. -/
def inner (u v : ℝ × ℝ) : ℝ := u.1 * v.1 + u.2 * v.2

/-- Two vectors point in the same direction (the zero vector is parallel to
everything). -/
def SameDirection (u v : ℝ × ℝ) : Prop := ∃ a b : ℝ, 0 < a ∧ 0 < b ∧ a • u = b • v

/-- The value `m` is the minimum of the (nonempty) list `l`. -/
def IsMinOf (m : ℝ) (l : List ℝ) : Prop := m ∈ l ∧ ∀ x ∈ l, m ≤ x

end

end CrowdDynamics.Spec
