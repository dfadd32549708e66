import Mathlib.Algebra.Order.Archimedean.Real.Basic
import Mathlib.Data.Int.Log

/-!
# Floating point numbers, seen from outside
-/

namespace CrowdDynamics.Spec

/-- The finite numbers of the format binary64 (the bound for large exponents is left out):
whole multiples of a power of two with at most 53 binary digits, no power being below
`2 ^ -1074`. -/
def Binary64 (x : ℝ) : Prop :=
  ∃ m e : ℤ, |m| < 2 ^ 53 ∧ -1074 ≤ e ∧ x = m * (2 : ℝ) ^ e

/-- `y` is a closest binary64 number to `x`. -/
def Nearest64 (x y : ℝ) : Prop :=
  Binary64 y ∧ ∀ z, Binary64 z → |y - x| ≤ |z - x|

/-- What the theorems on symmetry and order need from rounding: it keeps the order and the
sign symmetry and does not change what is already rounded. -/
structure FairRounding (rnd : ℝ → ℝ) : Prop where
  /-- order is kept -/
  mono : Monotone rnd
  /-- rounding is symmetric -/
  neg : ∀ x, rnd (-x) = -rnd x
  /-- rounded numbers are not changed -/
  idem : ∀ x, rnd (rnd x) = rnd x

/-- A point whose coordinates are floats and which is less than about `10 ^ 14` cells of side
`c` away from the origin. -/
def OnMap (c : ℝ) (p : List ℝ) : Prop := ∀ a ∈ p, Binary64 a ∧ |a / c| ≤ 2 ^ 49

end CrowdDynamics.Spec
