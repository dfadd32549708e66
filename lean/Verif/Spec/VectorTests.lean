import Verif.Model.Rounded

/-!
# What is required of `hypot`
-/

namespace CrowdDynamics.Spec

/-- A `hypot` that errs by at most two units in the last place (libraries guarantee one). -/
structure AccurateHypot (hypot : ℝ → ℝ → ℝ) : Prop where
  /-- a length is not negative -/
  nonneg : ∀ x y, 0 ≤ hypot x y
  /-- the zero vector has the length zero -/
  zero : hypot 0 0 = 0
  /-- the error is small -/
  near : ∀ x y, |hypot x y - √(x ^ 2 + y ^ 2)| ≤ √(x ^ 2 + y ^ 2) * 2 ^ (-52 : ℤ) + 2 ^ (-1074 : ℤ)

end CrowdDynamics.Spec
