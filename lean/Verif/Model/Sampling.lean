import Verif.Model.Geom2D

/-!
# Model of `crowddynamics/core/sampling.py`

Random numbers of `np.random.random()` are arguments.
-/

namespace CrowdDynamics

noncomputable section

open Classical

/-- The binary search of `np.searchsorted(a, key)` (side left) between `lo` and `hi`. The
array need not be sorted.
Source: crowddynamics/core/sampling.py:54, 154. -/
def searchsortedGo (a : List ℝ) (key : ℝ) (lo hi : ℕ) : ℕ :=
  if lo < hi then
    let mid := lo + (hi - lo) / 2
    if a.getD mid 0 < key then searchsortedGo a key (mid + 1) hi
    else searchsortedGo a key lo mid
  else lo
termination_by hi - lo

/-- `np.searchsorted(a, key)`. Source: numpy, called in
crowddynamics/core/sampling.py:54, 154. -/
def searchsorted (a : List ℝ) (key : ℝ) : ℕ := searchsortedGo a key 0 a.length

/-- Source: crowddynamics/core/sampling.py:10-17 (`linestring_length_cumsum`). The list is
empty for fewer than two vertices. -/
def linestringLengthCumsum (vertices : List Vec) : List ℝ :=
  (List.range (vertices.length - 1)).map fun i =>
    let diff := vertices.getD i 0 - vertices.getD (i + 1) 0
    √(diff.1 ^ 2 + diff.2 ^ 2)

/-- Source: crowddynamics/core/sampling.py:20-32 (`random_sample_line`). -/
def randomSampleLine (x : ℝ) (p0 p1 : Vec) : Vec := x • (p1 - p0) + p0

/-- `weights /= weights[-1]`; `none` is the `IndexError` for an empty array. Division by
zero gives infinities and NaNs in numpy, theorems assume that the last entry is positive.
Source: crowddynamics/core/sampling.py:49-50, 149-150. -/
def normalizedWeights (w : List ℝ) : Option (List ℝ) :=
  w.getLast?.map fun last => w.map (· / last)

/-- The index chosen by `linestring_sample` for the random number `x`.
Source: crowddynamics/core/sampling.py:47-54. -/
def linestringChoice (vertices : List Vec) (x : ℝ) : Option ℕ :=
  (normalizedWeights (linestringLengthCumsum vertices)).map fun weights => searchsorted weights x

/-- One value yielded by `linestring_sample` for the random numbers `x` (choice of the
segment) and `y` (point on the segment); `none` is an `IndexError`.
Source: crowddynamics/core/sampling.py:35-55 (`linestring_sample`). -/
def linestringSample (vertices : List Vec) (x y : ℝ) : Option Vec :=
  match linestringChoice vertices x with
  | none => none
  | some i =>
    match vertices[i]?, vertices[i + 1]? with
    | some p0, some p1 => some (randomSampleLine y p0 p1)
    | _, _ => none

/-- Source: crowddynamics/core/sampling.py:58-76 (`triangle_area_cumsum`). The accumulator
`area` and the array `cumsum` are the state of the loop. -/
def triangleAreaCumsum (trimesh : List (Vec × Vec × Vec)) : List ℝ :=
  (trimesh.foldl (fun (s : ℝ × List ℝ) t =>
    let area := s.1 + polygonArea [t.1, t.2.1, t.2.2]
    (area, s.2 ++ [area])) (0, [])).2

/-- Source: crowddynamics/core/sampling.py:79-112 (`random_sample_triangle`). -/
def randomSampleTriangle (r1 r2 : ℝ) (a b c : Vec) : Vec :=
  (1 - √r1) • a + (√r1 * (1 - r2)) • b + (r2 * √r1) • c

/-- The index chosen by `polygon_sample` for the random number `x`; `mesh` is the triangle
mesh. Source: crowddynamics/core/sampling.py:149-154. -/
def triangleChoice (mesh : List (Vec × Vec × Vec)) (x : ℝ) : Option ℕ :=
  (normalizedWeights (triangleAreaCumsum mesh)).map fun weights => searchsorted weights x

/-- One value yielded by `polygon_sample` for the random numbers `x` (choice of the triangle)
and `r1, r2` (point in the triangle). `delaunay` is scipy's triangulation, given as triples
of vertices (`mesh = vertices[delaunay.simplices]`). `none` is an `IndexError`.
Source: crowddynamics/core/sampling.py:115-156 (`polygon_sample`). -/
def polygonSample (delaunay : List Vec → List (Vec × Vec × Vec)) (vertices : List Vec)
    (x r1 r2 : ℝ) : Option Vec :=
  let mesh := delaunay vertices
  match triangleChoice mesh x with
  | none => none
  | some i =>
    match mesh[i]? with
    | some (a, b, c) => some (randomSampleTriangle r1 r2 a b c)
    | none => none

end

end CrowdDynamics
