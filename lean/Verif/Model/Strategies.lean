import Verif.Model.Ieee
import Verif.Model.VectorTests
import Verif.Model.Sampling

/-!
# Model of the random inputs of the tests, `crowddynamics/testing.py`

A strategy of hypothesis is the set of the values that it can draw. Failing assertions are the error
`.other`. The strategy `agents` is in `Verif.Model.InteractionTests`.
-/

namespace CrowdDynamics

noncomputable section

open Classical Real

/-- The choices of `exclude_zero`. Source: crowddynamics/testing.py:25-26. -/
inductive ExcludeZero where
  /-- `None` -/
  | no
  /-- `'exact'` -/
  | exact
  /-- `'near'` -/
  | near

/-- The set of numbers that `reals` draws for `shape=None`. `AssertionError` if the bounds are in the
wrong order.
Source: crowddynamics/testing.py:15-47 (`reals`). -/
def realsStrategy (min max : Option ℝ) (ez : ExcludeZero) : Except PyErr (Set ℝ) :=
  if ∃ lo ∈ min, ∃ hi ∈ max, ¬ hi > lo then .error .other
  else .ok {x | (fl64 x = x ∧ |x| < 2 ^ (1024 : ℤ)) ∧ (∀ lo ∈ min, lo ≤ x) ∧ (∀ hi ∈ max, x ≤ hi) ∧
    match ez with
    | .no => True
    | .exact => x ≠ 0
    | .near => ¬ isCloseF fl64 x 0}

/-- The types of floating point numbers that `dtype` may be.
Source: crowddynamics/testing.py:32, crowddynamics/tests/test_testing.py:13 (`floating_dtypes`). -/
inductive FloatDtype where
  /-- `np.float16` -/
  | float16
  /-- `np.float32` -/
  | float32
  /-- `np.float64` -/
  | float64

/-- The nearest number with `digits` binary digits after the first and none below `2 ^ low`.
Source: the conversion to `dtype` in crowddynamics/testing.py:49 (numpy). -/
def roundTo (digits low : ℤ) (x : ℝ) : ℝ :=
  let e := max (Int.log 2 |x| - digits) low
  halfEven (x / 2 ^ e) * 2 ^ e

/-- The numbers of digits, the last exponent and the first exponent that is too large.
Source: the conversion to `dtype` in crowddynamics/testing.py:49 (numpy). -/
def FloatDtype.format : FloatDtype → ℤ × ℤ × ℤ
  | .float16 => (10, -24, 16)
  | .float32 => (23, -149, 128)
  | .float64 => (52, -1074, 1024)

/-- Storing a number in an array. Source: crowddynamics/testing.py:49 (`arrays`). -/
def castTo (dt : FloatDtype) (x : ℝ) : F64 :=
  let y := roundTo dt.format.1 dt.format.2.1 x
  if |y| < 2 ^ dt.format.2.2 then .num y else .inf (decide (y < 0))

/-- The arrays of `n` numbers that `reals` draws for `shape=n`: the elements are drawn and then
stored. Source: crowddynamics/testing.py:15-49 (`reals`). -/
def realsArray (min max : Option ℝ) (ez : ExcludeZero) (dt : FloatDtype) (n : ℕ) :
    Except PyErr (Set (List F64)) :=
  match realsStrategy min max ez with
  | .ok s => .ok {l | l.length = n ∧ ∀ v ∈ l, ∃ x ∈ s, v = castTo dt x}
  | .error e => .error e

/-- The arrays for `shape=(n, 2)` and the default dtype, which keeps the numbers as they are.
Source: crowddynamics/testing.py:15-49 (`reals`). -/
def realsVecs (min max : Option ℝ) (ez : ExcludeZero) (n : ℕ) : Except PyErr (Set (List Vec)) :=
  match realsStrategy min max ez with
  | .ok s => .ok {l | l.length = n ∧ ∀ v ∈ l, v.1 ∈ s ∧ v.2 ∈ s}
  | .error e => .error e

/-- `unit_vectors`, for the angle `phi`; `cos` and `sin` are those of the library.
Source: crowddynamics/testing.py:52-55. -/
def unitVectorDraw (cos sin : ℝ → ℝ) (phi : ℝ) : Vec := (cos phi, sin phi)

/-- Source: crowddynamics/tests/test_testing.py:27-29 (`test_unit_vectors`); the angle is drawn
between 0 and `2 * np.pi`. -/
def testUnitVectors (A : Arith) (cos sin : ℝ → ℝ) (phi : ℝ) : Prop :=
  RealsBetween A.rnd 0 (A.rnd (2 * A.rnd π)) phi →
    isCloseF A.rnd (lengthF A (unitVectorDraw cos sin phi)) 1

/-- `points`: the coordinates of the point. Source: crowddynamics/testing.py:58-62. -/
def pointsStrategy (min max : Option ℝ) (ez : ExcludeZero) : Except PyErr (Set Vec) :=
  match realsVecs min max ez 1 with
  | .ok s => .ok {p | [p] ∈ s}
  | .error e => .error e

/-- `linestrings`: the coordinates of the line string. Source: crowddynamics/testing.py:65-75. -/
def linestringsStrategy (min max : Option ℝ) (ez : ExcludeZero) (numVerts : ℕ) (closed : Bool) :
    Except PyErr (Set (List Vec)) :=
  if ¬ numVerts ≥ 2 then .error .other
  else match realsVecs min max ez numVerts with
    | .ok s => .ok {g | ∃ array ∈ s, g = if closed then array ++ array.take 1 else array}
    | .error e => .error e

/-- The random numbers of one point of `polygon_sample` lie in `[0, 1)`.
Source: crowddynamics/core/sampling.py:152-156. -/
def RandomTriple (r : ℝ × ℝ × ℝ) : Prop :=
  (0 ≤ r.1 ∧ r.1 < 1) ∧ (0 ≤ r.2.1 ∧ r.2.1 < 1) ∧ (0 ≤ r.2.2 ∧ r.2.2 < 1)

/-- `polygons`: the shell and the hole. `delaunay` is the triangulation by scipy, `none` if it raises
`QhullError`. Source: crowddynamics/testing.py:78-94. -/
def polygonsStrategy (delaunay : List Vec → Option (List (Vec × Vec × Vec))) (min max : Option ℝ)
    (ez : ExcludeZero) (numVerts : ℕ) (hasHoles : Bool) :
    Except PyErr (Set (List Vec × Option (List Vec))) :=
  if ¬ numVerts ≥ 3 then .error .other
  else match realsVecs min max ez numVerts with
    | .error e => .error e
    | .ok s => .ok {g | g.1 ∈ s ∧
        if hasHoles then
          match delaunay g.1 with
          | none => g.2 = none
          | some mesh => ∃ rs : List (ℝ × ℝ × ℝ), (3 ≤ rs.length ∧ rs.length ≤ 5) ∧
              (∀ r ∈ rs, RandomTriple r) ∧
              ∃ hole, rs.mapM (fun r => polygonSample (fun _ => mesh) g.1 r.1 r.2.1 r.2.2) = some hole ∧
                g.2 = some hole
        else g.2 = none}

end

end CrowdDynamics
