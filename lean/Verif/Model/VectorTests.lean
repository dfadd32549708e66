import Verif.Model.Rounded

/-!
# Models of the unit tests of vectors, distances and capacities

The tests of `crowddynamics/core/tests` are written with hypothesis: the decorators describe the
arguments, the bodies hold assumptions and assertions. Each test is modelled as a proposition
about one choice of arguments: if the arguments fit the decorators and the assumptions, the
assertions hold. Assertions on types (`isinstance`, `ndim`) are left out; the types of the models
fix them. The arguments are floats; numbers so large that operations overflow are left out, as in
`Verif.Model.Float64`.
-/

namespace CrowdDynamics

noncomputable section

open Classical Real

/-- `np.isclose(a, b)` with the default tolerances, `abs(a - b) <= atol + rtol * abs(b)`.
Source: used at crowddynamics/core/tests/test_vector2D.py:82-84, 94 and
crowddynamics/testing.py:43. -/
def isCloseF (rnd : ℝ → ℝ) (a b : ℝ) : Prop :=
  |rnd (a - b)| ≤ rnd (rnd (1 / 10 ^ 8) + rnd (rnd (1 / 10 ^ 5) * |b|))

/-- The numbers of `reals(min_value, max_value, exclude_zero='near')`.
Source: crowddynamics/testing.py:15-49 (`reals`). -/
def RealsNear (rnd : ℝ → ℝ) (lo hi x : ℝ) : Prop :=
  rnd x = x ∧ lo ≤ x ∧ x ≤ hi ∧ ¬ isCloseF rnd x 0

/-- The numbers of `reals(min_value, max_value)`.
Source: crowddynamics/testing.py:15-49 (`reals`). -/
def RealsBetween (rnd : ℝ → ℝ) (lo hi x : ℝ) : Prop := rnd x = x ∧ lo ≤ x ∧ x ≤ hi

/-- Source: crowddynamics/core/vector2D.py:151-162 (`normalize`), with rounding. -/
def normalizeF (A : Arith) (v : Vec) : Vec :=
  let l := lengthF A v
  if l ≠ 0 then (A.rnd (v.1 / l), A.rnd (v.2 / l)) else v

/-- Source: crowddynamics/core/tests/test_vector2D.py:9-18 (`test_wrap_to_pi`). -/
def testWrapToPi (rnd : ℝ → ℝ) (phi : ℝ) : Prop :=
  rnd phi = phi →
    let npPi := rnd π
    let ans := wrapToPiF rnd phi
    (-npPi ≤ ans ∧ ans ≤ npPi) ∧
    (pyModF rnd (rnd (phi + npPi)) (rnd (2 * npPi)) = 0 →
      if phi > 0 then ans = npPi else ans = -npPi)

/-- Source: crowddynamics/core/tests/test_vector2D.py:47-51 (`test_length`). -/
def testLength (A : Arith) (a : Vec) : Prop :=
  A.rnd a.1 = a.1 → A.rnd a.2 = a.2 → lengthF A a ≥ 0

/-- Source: crowddynamics/core/tests/test_vector2D.py:73-84 (`test_normalize`). -/
def testNormalize (A : Arith) (a : Vec) : Prop :=
  A.rnd a.1 = a.1 → A.rnd a.2 = a.2 →
  (¬ (isCloseF A.rnd a.1 0 ∧ isCloseF A.rnd a.2 0) ∨ (a.1 = 0 ∧ a.2 = 0)) →
  ¬ lengthF A a > 10 ^ 8 →
    let l := lengthF A (normalizeF A a)
    if a.1 = 0 ∧ a.2 = 0 then isCloseF A.rnd l 0 else isCloseF A.rnd l 1

/-- Source: crowddynamics/core/tests/test_vector2D.py:87-96 (`test_truncate`). -/
def testTruncate (A : Arith) (v : Vec) (l : ℝ) : Prop :=
  RealsNear A.rnd (-1) 1 v.1 → RealsNear A.rnd (-1) 1 v.2 → RealsNear A.rnd 0 1 l →
    if lengthF A v > l then isCloseF A.rnd (lengthF A (truncateF A v l)) l
    else lengthF A (truncateF A v l) ≤ l

/-- Source: crowddynamics/core/tests/test_distance.py:10-23 (`test_distance_circle_circle`). -/
def testDistanceCircleCircle (A : Arith) (x0 : Vec) (r0 : ℝ) (x1 : Vec) (r1 : ℝ) : Prop :=
  RealsBetween A.rnd (-10) 10 x0.1 → RealsBetween A.rnd (-10) 10 x0.2 → RealsBetween A.rnd 0 1 r0 →
  RealsBetween A.rnd (-10) 10 x1.1 → RealsBetween A.rnd (-10) 10 x1.2 → RealsBetween A.rnd 0 1 r1 →
    (distanceCirclesF A x0 r0 x1 r1).1 ≥ -A.rnd (r0 + r1)

/-- Source: crowddynamics/core/tests/test_evacuation.py:18-26 (`test_narrow_exit_capacity`). -/
def testNarrowExitCapacity (rnd : ℝ → ℝ) (dDoor dAgent : ℝ) (dLayer : Option ℝ) (coeff : ℝ) :
    Prop :=
  RealsNear rnd 0 3 dDoor → RealsNear rnd 0 3 dAgent → (∀ l, dLayer = some l → RealsNear rnd 0 1 l) →
  RealsNear rnd 0 3 coeff → dDoor ≥ dAgent →
    narrowExitCapacityF rnd dDoor dAgent dLayer coeff ≥ 0

end

end CrowdDynamics
