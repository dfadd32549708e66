import Verif.Model.VectorTests
import Verif.Model.Sampling
import Verif.Model.Integrator
import Verif.Model.Motion
import Mathlib.Analysis.Convex.Hull
import Mathlib.Topology.Instances.Real.Lemmas

/-!
# Models of the unit tests of cells, segments, clocks, time steps and samples

As in `Verif.Model.VectorTests`, a test is the statement that its assertions hold for one choice
of arguments and random numbers. What shapely computes (`intersects`, `contains`, `distance`) is
taken to be exact.
-/

namespace CrowdDynamics

noncomputable section

open Classical Real

/-! ## `test_block_list.py` -/

/-- `random.uniform(a, b)` of the standard library, `a + (b - a) * random()`.
Source: used at crowddynamics/core/tests/test_block_list.py:2, 12. -/
def uniformF (rnd : ℝ → ℝ) (a b u : ℝ) : ℝ := rnd (a + rnd (rnd (b - a) * u))

/-- A point of the generator `points(dimensions, (-1.0, 2.0))`; `u j` are the numbers of
`random()`.
Source: crowddynamics/core/tests/test_block_list.py:10-12 (`points`). -/
def testPoint (rnd : ℝ → ℝ) (dimensions : ℕ) (u : ℕ → ℝ) : List ℝ :=
  (List.range dimensions).map fun j => uniformF rnd (-1) 2 (u j)

/-- Source: crowddynamics/core/tests/test_block_list.py:15-25 (`test_mutable_block_list`) with
`default_list=list`. The list is the model with exact floor division; by C164 floats give the
same keys. The assertion compares sets. -/
def testMutableBlockList (rnd : ℝ → ℝ) (dimensions size : ℕ) (u : ℕ → ℕ → ℝ) : Prop :=
  match BlockList.init (α := ℝ) (V := ℕ) 1 with
  | none => False
  | some s =>
    let s := (List.range size).foldl
      (fun s i => s.setItem (testPoint rnd dimensions (u i)) i) s
    {i | i ∈ (s.nearest (List.replicate dimensions 0) 1).1} = {i | i ∈ List.range size}

/-! ## `test_geom2D.py` -/

/-- Source: crowddynamics/core/tests/test_geom2D.py:19-30 (`test_line_intersect`). -/
def testLineIntersect (A : Arith) (x0 x1 y0 y1 : Vec) : Prop :=
  RealsNear A.rnd 0 1 x0.1 → RealsNear A.rnd 0 1 x0.2 →
  RealsNear A.rnd 0 1 x1.1 → RealsNear A.rnd 0 1 x1.2 →
  RealsNear A.rnd 0 1 y0.1 → RealsNear A.rnd 0 1 y0.2 →
  RealsNear A.rnd 0 1 y1.1 → RealsNear A.rnd 0 1 y1.2 →
  ¬ isCloseF A.rnd (lengthF A (vecSubF A.rnd x1 x0)) 0 →
  ¬ isCloseF A.rnd (lengthF A (vecSubF A.rnd y1 y0)) 0 →
    (lineIntersectF A.rnd x0 x1 y0 y1 = true ↔ ∃ z, z ∈ segment ℝ x0 x1 ∧ z ∈ segment ℝ y0 y1)

/-! ## `test_rand.py` -/

/-- The loop of `test_poisson_clock` over the yielded times.
Source: crowddynamics/core/tests/test_rand.py:15-19. -/
def checkTimes (dt : ℝ) : ℝ → List ℝ → Prop
  | _, [] => True
  | timePrev, time :: times => (timePrev < time ∧ time < dt) ∧ checkTimes dt time times

/-- Source: crowddynamics/core/tests/test_rand.py:10-19 (`test_poisson_clock`). `draws` are the
results of `np.random.exponential`, which depend on `interval`; runs that do not end are left
out. -/
def testPoissonClock (rnd : ℝ → ℝ) (draws : ℕ → ℝ) (interval dt : ℝ) (fuel : ℕ) : Prop :=
  RealsBetween rnd (rnd (1 / 1000)) (rnd (1 / 100)) interval →
  RealsBetween rnd (rnd (1 / 1000)) (rnd (1 / 100)) dt →
  rnd (1 / 100) < rnd (interval / dt) ∧ rnd (interval / dt) < 100 →
    match poissonClockF rnd draws dt fuel 0 with
    | none => True
    | some (ts, _) => checkTimes dt 0 ts

/-- Source: crowddynamics/core/tests/test_rand.py:22-32 (`test_poisson_timings`). The times of
the clocks do not matter for the assertion, they are those of the exact model; the array
`players` is the shuffled one. -/
def testPoissonTimings (shuffle : List ℤ → List ℤ) (argsort : List ℝ → List ℕ) (draws : ℕ → ℝ)
    (dt : ℝ) (fuel : ℕ) (players : List ℤ) : Prop :=
  match poissonTimings shuffle argsort draws dt fuel 0 players with
  | none => True
  | some (ys, players) => ∀ index ∈ ys, index ∈ players

/-! ## `test_integrator.py` -/

/-- The loop that determines `v_max`, with rounding.
Source: crowddynamics/core/integrator.py:81-85. -/
def vMaxLoopF {n : ℕ} (A : Arith) (agents : Crowd n) : ℝ :=
  (List.finRange n).foldl (fun vMax i =>
    let l := lengthF A (agents i).velocity
    if l > vMax then l else vMax) 0

/-- Source: crowddynamics/core/integrator.py:32-97 (`adaptive_timestep`), with rounding. -/
def adaptiveTimestepF {n : ℕ} (A : Arith) (agents : Crowd n) (dtMin dtMax : ℝ) : ℝ :=
  let vMax := vMaxLoopF A agents
  if vMax = 0 then dtMax
  else
    let c := A.rnd 1.1
    let dxMax := A.rnd (A.rnd
      (c * (npMax (List.ofFn fun i => (agents i).targetVelocity)).getD 0) * dtMax)
    let dt := A.rnd (dxMax / vMax)
    if dt > dtMax then dtMax
    else if dt < dtMin then dtMin
    else dt

/-- Source: crowddynamics/core/tests/test_integrator.py:8-14, 17-23
(`test_adaptive_timestep1`, `test_adaptive_timestep2`). The integrators of the other tests of
this file return the same number (crowddynamics/core/integrator.py:124-161, 209-256). -/
def testAdaptiveTimestep {n : ℕ} (A : Arith) (agents : Crowd n) (dtMin dtMax : ℝ) : Prop :=
  RealsNear A.rnd 0 10 dtMin → RealsNear A.rnd 0 10 dtMax → 0 < dtMin ∧ dtMin < dtMax →
    let dt := adaptiveTimestepF A agents dtMin dtMax
    0 < dtMin ∧ dtMin ≤ dt ∧ dt ≤ dtMax

/-! ## `test_sampling.py` -/

/-- Source: crowddynamics/core/sampling.py:10-17 (`linestring_length_cumsum`), with rounding. -/
def linestringLengthCumsumF (A : Arith) (vertices : List Vec) : List ℝ :=
  (List.range (vertices.length - 1)).map fun i =>
    lengthF A (vecSubF A.rnd (vertices.getD i 0) (vertices.getD (i + 1) 0))

/-- Source: crowddynamics/core/sampling.py:20-32 (`random_sample_line`), with rounding. -/
def randomSampleLineF (rnd : ℝ → ℝ) (x : ℝ) (p0 p1 : Vec) : Vec :=
  (rnd (rnd (x * rnd (p1.1 - p0.1)) + p0.1), rnd (rnd (x * rnd (p1.2 - p0.2)) + p0.2))

/-- `weights /= weights[-1]`, with rounding.
Source: crowddynamics/core/sampling.py:49-50. -/
def normalizedWeightsF (rnd : ℝ → ℝ) (w : List ℝ) : Option (List ℝ) :=
  w.getLast?.map fun last => w.map fun a => rnd (a / last)

/-- Source: crowddynamics/core/sampling.py:35-55 (`linestring_sample`), with rounding. -/
def linestringSampleF (A : Arith) (vertices : List Vec) (x y : ℝ) : Option Vec :=
  match normalizedWeightsF A.rnd (linestringLengthCumsumF A vertices) with
  | none => none
  | some weights =>
    let i := searchsorted weights x
    match vertices[i]?, vertices[i + 1]? with
    | some p0, some p1 => some (randomSampleLineF A.rnd y p0 p1)
    | _, _ => none

/-- The vertices of `triangle.exterior`, `square.exterior` and `tetragon.exterior`.
Source: crowddynamics/core/tests/test_sampling.py:16-18. -/
def testPolygons : List (List Vec) :=
  [[(1, 1), (0, 0), (2, 0), (1, 1)],
   [(1, 1), (0, 0), (2, 0), (3, 0.5), (1, 1)],
   [(1, 1), (0, 0), (2, 0), (3, 0.5), (2.5, 2), (1, 1)]]

/-- One iteration of `test_linestring_sample`; `x`, `y` are the numbers of
`np.random.random()`. The distance to the line string is close to zero if the distance to one of
its points is.
Source: crowddynamics/core/tests/test_sampling.py:21-26 (`test_linestring_sample`). -/
def testLinestringSample (A : Arith) (vertices : List Vec) (x y : ℝ) : Prop :=
  ∃ p, linestringSampleF A vertices x y = some p ∧
    ∃ (i : ℕ) (p0 p1 q : Vec), vertices[i]? = some p0 ∧ vertices[i + 1]? = some p1 ∧
      q ∈ segment ℝ p0 p1 ∧ isCloseF A.rnd (√((p.1 - q.1) ^ 2 + (p.2 - q.2) ^ 2)) 0

/-- Area of a triangle by `polygon_area`, with rounding; the loop is unrolled.
Source: crowddynamics/core/geom2D.py:4-33 (`polygon_area`). -/
def triangleAreaF (rnd : ℝ → ℝ) (t : Vec × Vec × Vec) : ℝ :=
  let area := rnd (0 + rnd (t.2.1.1 * rnd (t.2.2.2 - t.1.2)))
  let area := rnd (area + rnd (t.2.2.1 * rnd (t.1.2 - t.2.1.2)))
  let area := rnd (area + rnd (t.1.1 * rnd (t.2.1.2 - t.2.2.2)))
  rnd (0.5 * |area|)

/-- Source: crowddynamics/core/sampling.py:58-76 (`triangle_area_cumsum`), with rounding. -/
def triangleAreaCumsumF (rnd : ℝ → ℝ) (trimesh : List (Vec × Vec × Vec)) : List ℝ :=
  (trimesh.foldl (fun (s : ℝ × List ℝ) t =>
    let area := rnd (s.1 + triangleAreaF rnd t)
    (area, s.2 ++ [area])) (0, [])).2

/-- `np.all(np.sort(cumsum) == cumsum)`: the array is sorted.
Source: crowddynamics/core/tests/test_sampling.py:29-34 (`test_triangle_area_cumsum`). -/
def testTriangleAreaCumsum (rnd : ℝ → ℝ) (trimesh : List (Vec × Vec × Vec)) : Prop :=
  (triangleAreaCumsumF rnd trimesh).Pairwise (· ≤ ·)

/-- Source: crowddynamics/core/sampling.py:79-112 (`random_sample_triangle`), with rounding. -/
def randomSampleTriangleF (rnd : ℝ → ℝ) (r1 r2 : ℝ) (a b c : Vec) : Vec :=
  let s := rnd (√r1)
  let comp := fun a b c : ℝ =>
    rnd (rnd (rnd (rnd (1 - s) * a) + rnd (rnd (s * rnd (1 - r2)) * b)) + rnd (rnd (r2 * s) * c))
  (comp a.1 b.1 c.1, comp a.2 b.2 c.2)

/-- Source: crowddynamics/core/tests/test_sampling.py:37-52 (`test_random_sample_triangle`);
`r1`, `r2` are the numbers of `np.random.random()`. The distance to the triangle is close to zero
if the distance to one of its points is. -/
def testRandomSampleTriangle (rnd : ℝ → ℝ) (a b c : Vec) (r1 r2 : ℝ) : Prop :=
  RealsBetween rnd (-100) 100 a.1 → RealsBetween rnd (-100) 100 a.2 →
  RealsBetween rnd (-100) 100 b.1 → RealsBetween rnd (-100) 100 b.2 →
  RealsBetween rnd (-100) 100 c.1 → RealsBetween rnd (-100) 100 c.2 →
  ¬ isCloseF rnd (triangleAreaF rnd (a, b, c)) 0 →
    let p := randomSampleTriangleF rnd r1 r2 a b c
    p ∈ convexHull ℝ {a, b, c} ∨
      ∃ q ∈ convexHull ℝ {a, b, c}, isCloseF rnd (√((p.1 - q.1) ^ 2 + (p.2 - q.2) ^ 2)) 0

/-- One iteration of `test_polygon_sampling`, in exact arithmetic. `contains` of shapely holds
for points of the interior only.
Source: crowddynamics/core/tests/test_sampling.py:55-63 (`test_polygon_sampling`). -/
def testPolygonSampling (delaunay : List Vec → List (Vec × Vec × Vec)) (vertices : List Vec)
    (x r1 r2 : ℝ) : Prop :=
  ∃ p, polygonSample delaunay vertices x r1 r2 = some p ∧
    p ∈ interior (convexHull ℝ {v | v ∈ vertices})

end

end CrowdDynamics
