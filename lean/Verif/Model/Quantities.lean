import Verif.Model.Geom2D
import Verif.Model.Distance
import Verif.Model.Navigation
import Verif.Model.Errors

/-!
# Model of `crowddynamics/core/quantities.py`

`scipy.spatial.Voronoi` and the polygons of shapely are inputs. The size of the cells is not zero.
-/

namespace CrowdDynamics

noncomputable section

open Classical

/-- `min` of a list that is not empty, given its head. Source: crowddynamics/core/quantities.py:29,
51, 287. -/
def listMin {α : Type} [LinearOrder α] (a : α) (l : List α) : α := l.foldl min a

/-- `max` of a list that is not empty, given its head. Source: crowddynamics/core/quantities.py:30,
52, 288. -/
def listMax {α : Type} [LinearOrder α] (a : α) (l : List α) : α := l.foldl max a

/-- `grid[i, j] += v` with the index rules of numpy.
Source: crowddynamics/core/quantities.py:33, 229. -/
def gridAdd (g : Grid ℝ) (i j : ℤ) (v : ℝ) : Except PyErr (Grid ℝ) :=
  match npIndex g.rows i, npIndex g.cols j with
  | some a, some b =>
    .ok { g with val := fun a' b' => if a' = a ∧ b' = b then g.val a' b' + v else g.val a' b' }
  | _, _ => .error .index

/-- `np.zeros(shape)`; negative sizes raise.
Source: crowddynamics/core/quantities.py:31, 214, 289. -/
def gridZeros (rows cols : ℤ) : Except PyErr (Grid ℝ) :=
  if 0 ≤ rows ∧ 0 ≤ cols then .ok ⟨rows.toNat, cols.toNat, fun _ _ => 0⟩ else .error .value

/-! ## `density_classical` -/

/-- The loop of `density_classical`. Source: crowddynamics/core/quantities.py:32-33. -/
def classicalLoop (xMin yMin : ℤ) : List (ℤ × ℤ) → Grid ℝ → Except PyErr (Grid ℝ)
  | [], g => .ok g
  | (i, j) :: rest, g => do
    let g ← gridAdd g (i - xMin) (j - yMin) 1
    classicalLoop xMin yMin rest g

/-- `density_classical`. The indices are floating point numbers with integral values; here they are
integers. `floats` tells whether numpy accepts floating point numbers as shape and index (versions
before 1.12); otherwise `np.zeros` raises `TypeError`.
Source: crowddynamics/core/quantities.py:10-34. -/
def densityClassical (floats : Bool) (points : List Vec) (cellSize : ℝ) :
    Except PyErr (Grid ℝ) :=
  let indices := points.map fun p => (⌊p.1 / cellSize⌋, ⌊p.2 / cellSize⌋)
  match indices with
  | [] => .error .value
  | (x, y) :: rest =>
    let xMin := listMin x (rest.map Prod.fst)
    let yMin := listMin y (rest.map Prod.snd)
    let xMax := listMax x (rest.map Prod.fst)
    let yMax := listMax y (rest.map Prod.snd)
    if floats then do
      let count ← gridZeros (xMax - xMin) (yMax - yMin)
      let count ← classicalLoop xMin yMin indices count
      .ok { count with val := fun a b => count.val a b / cellSize ^ 2 }
    else .error .type

/-! ## `voronoi_finite_polygons_2d` -/

/-- The attributes of `scipy.spatial.Voronoi` that are used.
Source: crowddynamics/core/quantities.py:209-210, 260-266. -/
structure Voronoi where
  /-- `points` -/
  points : List Vec
  /-- `vertices` -/
  vertices : List Vec
  /-- `ridge_points` -/
  ridgePoints : List (ℕ × ℕ)
  /-- `ridge_vertices`; `-1` is a point at infinity -/
  ridgeVertices : List (ℤ × ℤ)
  /-- `point_region` -/
  pointRegion : List ℕ
  /-- `regions` -/
  regions : List (List ℤ)

/-- `all_ridges[p]`, or nothing. Source: crowddynamics/core/quantities.py:96-100. -/
def Voronoi.ridgesOf (vor : Voronoi) (p : ℕ) : List (ℕ × ℤ × ℤ) :=
  (vor.ridgePoints.zip vor.ridgeVertices).flatMap fun r =>
    (if r.1.1 = p then [(r.1.2, r.2.1, r.2.2)] else []) ++
    (if r.1.2 = p then [(r.1.1, r.2.1, r.2.2)] else [])

/-- The mean of points. Source: crowddynamics/core/quantities.py:92, 126. -/
def meanPoint (points : List Vec) : Vec := ((points.length : ℝ)⁻¹) • points.sum

/-- The missing end of an infinite ridge between `p1` and `p2`.
Source: crowddynamics/core/quantities.py:121-129. -/
def farPoint (points : List Vec) (radius : ℝ) (p1 p2 : ℕ) (vertex : Vec) : Vec :=
  let a := points.getD p1 0
  let b := points.getD p2 0
  let t := (length (b - a))⁻¹ • (b - a)
  let n : Vec := (-t.2, t.1)
  let midpoint := meanPoint [a, b]
  let m := midpoint - meanPoint points
  vertex + radius • (npSign (m.1 * n.1 + m.2 * n.2) • n)

/-- The loop over the ridges of one point; the state is the new region and the new vertices.
Source: crowddynamics/core/quantities.py:112-132. -/
def ridgeLoop (vor : Voronoi) (radius : ℝ) (p1 : ℕ) :
    List (ℕ × ℤ × ℤ) → List ℕ → List Vec → Except PyErr (List ℕ × List Vec)
  | [], region, vertices => .ok (region, vertices)
  | (p2, v1, v2) :: rest, region, vertices =>
    let (v1, v2) := if v2 < 0 then (v2, v1) else (v1, v2)
    if 0 ≤ v1 then ridgeLoop vor radius p1 rest region vertices
    else match npIndex vor.vertices.length v2 with
      | none => .error .index
      | some v => ridgeLoop vor radius p1 rest (region ++ [vertices.length])
        (vertices ++ [farPoint vor.points radius p1 p2 (vor.vertices.getD v 0)])

/-- The loop over the points. `order` is `np.argsort` of the angles of the vertices around their
mean. Source: crowddynamics/core/quantities.py:103-143. -/
def regionLoop (vor : Voronoi) (radius : ℝ) (order : List Vec → List ℕ) :
    ℕ → List ℕ → List (List ℕ) → List Vec → Except PyErr (List (List ℕ) × List Vec)
  | _, [], regions, vertices => .ok (regions, vertices)
  | p1, region :: rest, regions, vertices =>
    match vor.regions[region]? with
    | none => .error .index
    | some vs =>
      if ∀ v ∈ vs, 0 ≤ v then
        regionLoop vor radius order (p1 + 1) rest (regions ++ [vs.map Int.toNat]) vertices
      else if vor.ridgesOf p1 = [] then .error .key
      else
        match ridgeLoop vor radius p1 (vor.ridgesOf p1)
          ((vs.filter fun v => 0 ≤ v).map Int.toNat) vertices with
        | .error e => .error e
        | .ok (newRegion, vertices) =>
          if ∀ v ∈ newRegion, v < vertices.length then
            let corners := newRegion.map fun v => vertices.getD v 0
            let newRegion := (order corners).map fun k => newRegion.getD k 0
            regionLoop vor radius order (p1 + 1) rest (regions ++ [newRegion]) vertices
          else .error .index

/-- `voronoi_finite_polygons_2d` for points in the plane; `radius` is the given one or twice the
extent of the coordinates. Source: crowddynamics/core/quantities.py:63-145. -/
def voronoiFinite (vor : Voronoi) (radius : ℝ) (order : List Vec → List ℕ) :
    Except PyErr (List (List ℕ) × List Vec) :=
  regionLoop vor radius order 0 vor.pointRegion [] vor.vertices

/-! ## `density_voronoi_1` -/

/-- `range(a, b)`. Source: crowddynamics/core/quantities.py:224-225. -/
def intRange (a b : ℤ) : List ℤ := (List.range (b - a).toNat).map fun k : ℕ => a + k

/-- What is used of a Voronoi cell, cut with the observation area.
Source: crowddynamics/core/quantities.py:217-229. -/
structure VCell where
  /-- `bounds`: `none` for an empty polygon -/
  bounds : Option (ℝ × ℝ × ℝ × ℝ)
  /-- `area` -/
  area : ℝ
  /-- area of the intersection with the grid cell `i, j` -/
  inter : ℤ → ℤ → ℝ

/-- The two loops over the grid cells of one Voronoi cell, as one loop over the pairs in the same
order. Source: crowddynamics/core/quantities.py:224-229. -/
def cellLoop (c : VCell) (imin jmin : ℤ) : List (ℤ × ℤ) → Grid ℝ → Except PyErr (Grid ℝ)
  | [], g => .ok g
  | (i, j) :: rest, g =>
    if c.area = 0 then .error .other
    else do
      let g ← gridAdd g (i - imin) (j - jmin) (c.inter i j / c.area)
      cellLoop c imin jmin rest g

/-- The pairs `(i, j)` in the order of the loops. Source: crowddynamics/core/quantities.py:224-225. -/
def cellPairs (cellSize minx miny maxx maxy : ℝ) : List (ℤ × ℤ) :=
  (intRange (truncInt (minx / cellSize)) (truncInt (maxx / cellSize) + 1)).flatMap fun i =>
    (intRange (truncInt (miny / cellSize)) (truncInt (maxy / cellSize) + 1)).map fun j => (i, j)

/-- The loop over the regions. Source: crowddynamics/core/quantities.py:217-229. -/
def voronoiLoop (cellSize : ℝ) (imin jmin : ℤ) : List VCell → Grid ℝ → Except PyErr (Grid ℝ)
  | [], g => .ok g
  | c :: rest, g => match c.bounds with
    | none => .error .value
    | some (minx, miny, maxx, maxy) => do
      let g ← cellLoop c imin jmin (cellPairs cellSize minx miny maxx maxy) g
      voronoiLoop cellSize imin jmin rest g

/-- `density_voronoi_1`; `cells` are the Voronoi cells of the points cut with the bounding box. The
second size of the grid is `jmax - imin + 1`, as in the code.
Source: crowddynamics/core/quantities.py:148-231. -/
def densityVoronoi1 (points : List Vec) (cellSize : ℝ) (cells : List VCell) :
    Except PyErr (Grid ℝ) :=
  if points.length < 3 ∨ cellSize ≤ 0 then .error .other
  else match points with
    | [] => .error .value
    | p :: rest => do
      let imin := truncInt (listMin p.1 (rest.map Prod.fst) / cellSize)
      let imax := truncInt (listMax p.1 (rest.map Prod.fst) / cellSize)
      let jmin := truncInt (listMin p.2 (rest.map Prod.snd) / cellSize)
      let jmax := truncInt (listMax p.2 (rest.map Prod.snd) / cellSize)
      let density ← gridZeros (imax - imin + 1) (jmax - imin + 1)
      let density ← voronoiLoop cellSize imin jmin cells density
      .ok { density with val := fun a b => density.val a b / cellSize ^ 2 }

/-! ## `density_voronoi_2` -/

/-- One round of the first loop of `_core_2`; the indices are never negative and never too large,
so they are used as they are. Source: crowddynamics/core/quantities.py:292-295. -/
def coreStep (index : ℕ → ℤ × ℤ) (value : ℕ → ℝ) (s : (ℤ → ℤ → ℝ) × (ℤ → ℤ → ℝ)) (k : ℕ) :
    (ℤ → ℤ → ℝ) × (ℤ → ℤ → ℝ) :=
  (fun a b => if (a, b) = index k then s.1 a b + 1 else s.1 a b,
   fun a b => if (a, b) = index k then s.2 a b + value k else s.2 a b)

/-- `_core_2`: compiled code, so an index beyond the end of `area` reads some number `oob`.
Source: crowddynamics/core/quantities.py:269-303. -/
def core2 (oob : ℕ → ℝ) (points : List Vec) (cellSize : ℝ) (area : List ℝ)
    (pointRegion : List ℕ) : Except PyErr (Grid ℝ) :=
  let indices := points.map fun p => (truncInt (p.1 / cellSize), truncInt (p.2 / cellSize))
  match indices with
  | [] => .error .value
  | (x, y) :: rest =>
    let xMin := listMin x (rest.map Prod.fst)
    let yMin := listMin y (rest.map Prod.snd)
    let xMax := listMax x (rest.map Prod.fst)
    let yMax := listMax y (rest.map Prod.snd)
    let value := fun k => (area[pointRegion.getD k 0]?).getD (oob (pointRegion.getD k 0))
    let index := fun k => ((indices.getD k (0, 0)).1 - xMin, (indices.getD k (0, 0)).2 - yMin)
    let s := (List.range points.length).foldl (coreStep index value)
      (fun _ _ => 0, fun _ _ => 0)
    .ok ⟨(xMax - xMin + 1).toNat, (yMax - yMin + 1).toNat, fun a b =>
      if s.2 a b > 0 then s.1 a b / s.2 a b else s.1 a b⟩

/-- `density_voronoi_2`: the areas are those of the finite regions, in the order of the points.
Source: crowddynamics/core/quantities.py:234-266. -/
def densityVoronoi2 (oob : ℕ → ℝ) (vor : Voronoi) (radius : ℝ) (order : List Vec → List ℕ)
    (cellSize : ℝ) : Except PyErr (Grid ℝ) := do
  let (newRegions, newVertices) ← voronoiFinite vor radius order
  let area := newRegions.map fun r => polygonArea (r.map fun v => newVertices.getD v 0)
  core2 oob vor.points cellSize area vor.pointRegion

end

end CrowdDynamics
