import Verif.Model.Navigation
import Verif.Spec.Outline
import Verif.Spec.Motion

/-!
# What a direction map has to say

Only the data types `Grid`, `Geom` and `DrawLib` of the model are used.
-/

namespace CrowdDynamics.Spec

open CrowdDynamics

/-- `d` is the unit vector with the direction of `g`. -/
def UnitAlong (g d : ℝ × ℝ) : Prop := (∃ c : ℝ, 0 < c ∧ d = c • g) ∧ len d = 1

/-- `e` is the unit vector along the central differences of the values around the cell in row `i`
and column `j`, which is not at the border; first component along the columns. -/
def Uphill (f : Grid (Option ℝ)) (i j : ℕ) (e : ℝ × ℝ) : Prop :=
  0 < i ∧ i + 1 < f.rows ∧ 0 < j ∧ j + 1 < f.cols ∧
    ∃ east west north south, f.val i (j + 1) = some east ∧ f.val i (j - 1) = some west ∧
      f.val (i + 1) j = some north ∧ f.val (i - 1) j = some south ∧
      UnitAlong ((east - west) / 2, (north - south) / 2) e

/-- The cell in row `i` and column `j` of a grid of the given shape is drawn for the geometry. -/
def Marked (lib : DrawLib) (index : ℝ × ℝ → ℤ × ℤ) (shape : ℕ × ℕ) (g : Geom) (i j : ℕ) : Prop :=
  ∃ p ∈ pixels lib index g, PixelAt shape.1 shape.2 p i j

/-- `contour` is 1 on the drawn cells and −1 elsewhere. -/
def IsContour (lib : DrawLib) (index : ℝ × ℝ → ℤ × ℤ) (shape : ℕ × ℕ) (g : Geom)
    (contour : Grid ℝ) : Prop :=
  contour.rows = shape.1 ∧ contour.cols = shape.2 ∧
    ∀ i j, (Marked lib index shape g i j → contour.val i j = 1) ∧
      (¬ Marked lib index shape g i j → contour.val i j = -1)

/-- `mask` is true exactly on the drawn cells. -/
def IsMask (lib : DrawLib) (index : ℝ × ℝ → ℤ × ℤ) (shape : ℕ × ℕ) (g : Geom)
    (mask : Grid Bool) : Prop :=
  mask.rows = shape.1 ∧ mask.cols = shape.2 ∧
    ∀ i j, mask.val i j = true ↔ Marked lib index shape g i j

end CrowdDynamics.Spec
