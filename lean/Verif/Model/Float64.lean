import Mathlib.Data.Int.Log
import Mathlib.Algebra.Order.Archimedean.Real.Basic
import Mathlib.Algebra.Order.Round
import Mathlib.Algebra.Group.Int.Even

/-!
# The arithmetic of `float64`

The other files of the model calculate with exact reals. This file describes what the
machine really does: the result of each operation is rounded to the nearest `float64`.
The models in `Verif.Model.Rounded` round after each operation with a function `rnd`; it is
`fl64` for the machine and the identity for exact arithmetic.

Simplification: numbers are reals, so there are no infinities (results beyond `2 ^ 1024` are
not modelled; the theorems bound the numbers where it matters), no NaN and no signed zeros.
Gradual underflow is modelled.
-/

namespace CrowdDynamics

noncomputable section

open Classical

/-- Rounding to the nearest integer; halfway cases go to the even neighbour.
Source: the rounding mode of all operations on `f8` such as
crowddynamics/core/vector2D.py:28, 130, 148 (IEEE 754, round to nearest, ties to even). -/
def halfEven (x : ℝ) : ℤ :=
  if x - ⌊x⌋ < 1 / 2 then ⌊x⌋
  else if 1 / 2 < x - ⌊x⌋ then ⌊x⌋ + 1
  else if Even ⌊x⌋ then ⌊x⌋
  else ⌊x⌋ + 1

/-- Exponent of the last binary digit that a `float64` near `x` has: 53 significant digits,
but no digit below `2 ^ -1074`.
Source: the type `f8` of crowddynamics/core/vector2D.py:4, 8 (`float64`, IEEE 754 binary64). -/
def fl64Exp (x : ℝ) : ℤ := max (Int.log 2 |x| - 52) (-1074)

/-- The `float64` nearest to a real number.
Source: the type `f8` of crowddynamics/core/vector2D.py:4, 8. Simplification: no overflow. -/
def fl64 (x : ℝ) : ℝ := halfEven (x / 2 ^ fl64Exp x) * 2 ^ fl64Exp x

end

end CrowdDynamics
