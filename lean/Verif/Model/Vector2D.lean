import Mathlib.Analysis.SpecialFunctions.Trigonometric.Basic
import Mathlib.Analysis.SpecialFunctions.Complex.Arg
import Mathlib.Algebra.Order.Floor.Ring

/-!
# Model of `crowddynamics/core/vector2D.py`

`float64` is modelled by exact reals (see DESIGN.md), a vector of shape `(2,)`
by a pair.
-/

open Real

namespace CrowdDynamics

noncomputable section

/-- A numpy array of shape `(2,)` and dtype `f8`.
Source: parameter convention of crowddynamics/core/vector2D.py:39-226. -/
abbrev Vec : Type := ℝ × ℝ

/-- Python's `%` on floats, sign of the divisor.
Source: the operator used at crowddynamics/core/vector2D.py:28.
Simplification: exact arithmetic. -/
def pyMod (a b : ℝ) : ℝ := a - b * ⌊a / b⌋

/-- Source: crowddynamics/core/vector2D.py:8-36 (`wrap_to_pi`). -/
def wrapToPi (rad : ℝ) : ℝ :=
  let rad_ := pyMod rad (2 * π)
  if rad < 0 ∧ rad_ = π then -π
  else if rad_ > π then rad_ - 2 * π
  else rad_

/-- Source: crowddynamics/core/vector2D.py:39-59 (`rotate90`). -/
def rotate90 (v : Vec) : Vec := (-v.2, v.1)

/-- Source: crowddynamics/core/vector2D.py:62-82 (`rotate270`). -/
def rotate270 (v : Vec) : Vec := (v.2, -v.1)

/-- Source: crowddynamics/core/vector2D.py:85-96 (`angle`).
`np.arctan2(y, x)` is the argument of `x + i y`; `arctan2(0, 0) = 0` agrees.
Simplification: no signed zeros, so `arctan2(-0.0, x<0) = -π` is not modelled. -/
def angle (v : Vec) : ℝ := Complex.arg ⟨v.1, v.2⟩

/-- Source: crowddynamics/core/vector2D.py:99-112 (`length`, `np.hypot`). -/
def length (v : Vec) : ℝ := √(v.1 ^ 2 + v.2 ^ 2)

/-- Source: crowddynamics/core/vector2D.py:115-130 (`dot`). -/
def dot (v0 v1 : Vec) : ℝ := v0.1 * v1.1 + v0.2 * v1.2

/-- Source: crowddynamics/core/vector2D.py:133-148 (`cross`). -/
def cross (v0 v1 : Vec) : ℝ := v0.1 * v1.2 - v0.2 * v1.1

open Classical in
/-- Source: crowddynamics/core/vector2D.py:151-163 (`normalize`):
`v / l if l else v`. -/
def normalize (v : Vec) : Vec :=
  let l := length v
  if l ≠ 0 then (v.1 / l, v.2 / l) else v

open Classical in
/-- Source: crowddynamics/core/vector2D.py:166-187 (`truncate`). The in-place
update of `v` is modelled by returning the new value. -/
def truncate (v : Vec) (l : ℝ) : Vec :=
  let vlen := length v
  if vlen > l then (v.1 * (l / vlen), v.2 * (l / vlen)) else v

/-- Source: crowddynamics/core/vector2D.py:190-200 (`unit_vector`, scalar case). -/
def unitVector (orientation : ℝ) : Vec := (cos orientation, sin orientation)

/-- Source: crowddynamics/core/vector2D.py:203-226 (`weighted_average`). -/
def weightedAverage (e0 e1 : Vec) (weight : ℝ) : Vec := weight • e0 + (1 - weight) • e1

end

end CrowdDynamics
