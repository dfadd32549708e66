import Verif.Model.Geom2D
import Verif.Model.Errors

/-!
# Model of `crowddynamics/core/geometry.py`

Shapely geometries are modelled by their coordinates. Rings are closed coordinate lists: the
first point is repeated at the end, as shapely does. The functions of `skimage.draw` appear
as parameters that give the list of pixels.
-/

namespace CrowdDynamics

noncomputable section

open Classical

/-- Shapely geometries as far as `geometry.py` distinguishes them. `LinearRing` is a subclass of
`LineString`. `other` is an object of none of the tested classes.
Source: crowddynamics/core/geometry.py:15-16 and the tests at 32-47, 87-96, 110-130. -/
inductive Geom where
  /-- `Point` -/
  | point (p : Vec)
  /-- `LineString` (or `LinearRing`) -/
  | lineString (coords : List Vec)
  /-- `Polygon` -/
  | polygon (exterior : List Vec) (interiors : List (List Vec))
  /-- `BaseMultipartGeometry` -/
  | multi (parts : List Geom)
  /-- anything else -/
  | other

/-- The flags. Source: crowddynamics/core/geometry.py:24-28 (`GeomTypes`). -/
inductive GeomFlag where
  /-- `POINT` -/
  | point
  /-- `LINESTRING` -/
  | lineString
  /-- `POLYGON_HOLE` -/
  | polygonHole
  /-- `POLYGON_SHELL` -/
  | polygonShell
  deriving DecidableEq

/-- A row of the array of `geom_to_array`: `(nan, flag)` or a pair of finite coordinates.
Source: crowddynamics/core/geometry.py:33, 36, 40, 42. -/
inductive GeomRow where
  /-- `(np.nan, flag)` -/
  | flag (f : GeomFlag)
  /-- a coordinate pair -/
  | coord (p : Vec)

/-- The arrays yielded by the generator `_geom_to_array`. In a generator function `return value`
only ends the iteration, so nothing is yielded for multi-part geometries.
Source: crowddynamics/core/geometry.py:31-47 (`_geom_to_array`). -/
def geomToArrayParts : Geom → Except PyErr (List (List GeomRow))
  | .point p => .ok [[.flag .point], [.coord p]]
  | .lineString coords => .ok [[.flag .lineString], coords.map .coord]
  | .polygon exterior interiors =>
    .ok (interiors.flatMap (fun r => [[.flag .polygonHole], r.map .coord]) ++
      [[.flag .polygonShell], exterior.map .coord])
  | .multi _ => .ok []
  | .other => .error .type

/-- `np.concatenate`; raises `ValueError` for an empty list.
Source: the call at crowddynamics/core/geometry.py:60. -/
def npConcatenate {α : Type} : List (List α) → Except PyErr (List α)
  | [] => .error .value
  | parts => .ok parts.flatten

/-- Source: crowddynamics/core/geometry.py:50-60 (`geom_to_array`). -/
def geomToArray (g : Geom) : Except PyErr (List GeomRow) := do
  let parts ← geomToArrayParts g
  npConcatenate parts

/-- `zip(coords[:-1], coords[1:])`. Source: crowddynamics/core/geometry.py:90, 92. -/
def segmentsOf (coords : List Vec) : List (Vec × Vec) := coords.dropLast.zip coords.tail

mutual

/-- The line segments, with the iterator consumed to the end.
Source: crowddynamics/core/geometry.py:63-96 (`geom_to_linesegment`). -/
def geomToLinesegment : Geom → Except PyErr (List (Vec × Vec))
  | .point _ => .ok []
  | .lineString coords => .ok (segmentsOf coords)
  | .polygon exterior _ => .ok (segmentsOf exterior)
  | .multi parts => geomsToLinesegment parts
  | .other => .error .type

/-- `chain.from_iterable(map(geom_to_linesegment, geom))`.
Source: crowddynamics/core/geometry.py:94. -/
def geomsToLinesegment : List Geom → Except PyErr (List (Vec × Vec))
  | [] => .ok []
  | g :: gs => do
    let a ← geomToLinesegment g
    let b ← geomsToLinesegment gs
    .ok (a ++ b)

end

/-- Source: crowddynamics/core/geometry.py:99-102 (`geom_to_linear_obstacles`). -/
def geomToLinearObstacles : Option Geom → Except PyErr (List Wall)
  | none => .ok []
  | some g => do
    let segments ← geomToLinesegment g
    .ok (segments.map fun s => ⟨s.1, s.2⟩)

/-- A two-dimensional numpy array of the shape `(rows, cols)`; only the entries inside of the
shape mean anything.
Source: the arrays of crowddynamics/core/geometry.py:106 and
crowddynamics/core/steering/quickest_path.py:38-39. -/
structure Grid (α : Type) where
  /-- `shape[0]` -/
  rows : ℕ
  /-- `shape[1]` -/
  cols : ℕ
  /-- entries -/
  val : ℕ → ℕ → α

/-- An index of numpy: negative ones count from the end, `none` is an `IndexError`.
Source: the assignments at crowddynamics/core/geometry.py:116, 120, 122, 125. -/
def npIndex (size : ℕ) (k : ℤ) : Option ℕ :=
  if 0 ≤ k ∧ k < size then some k.toNat
  else if k < 0 ∧ 0 ≤ k + size then some (k + size).toNat
  else none

/-- `grid[y, x] = value` for arrays of indices; the pixels are pairs `(x, y)`. All indices are
checked before anything is written.
Source: crowddynamics/core/geometry.py:116, 120, 122, 125. -/
def paint {α : Type} (grid : Grid α) (pixels : List (ℤ × ℤ)) (value : α) :
    Except PyErr (Grid α) :=
  if ∀ p ∈ pixels, npIndex grid.rows p.2 ≠ none ∧ npIndex grid.cols p.1 ≠ none then
    .ok ⟨grid.rows, grid.cols, fun i j =>
      if ∃ p ∈ pixels, npIndex grid.rows p.2 = some i ∧ npIndex grid.cols p.1 = some j then value
      else grid.val i j⟩
  else .error .index

/-- The functions of `skimage.draw` that are used; pixels in the order `(x, y)` of the code.
Source: crowddynamics/core/geometry.py:115, 119, 121, 124. -/
structure DrawLib where
  /-- `skimage.draw.line` -/
  line : ℤ × ℤ → ℤ × ℤ → List (ℤ × ℤ)
  /-- `skimage.draw.polygon` -/
  polygon : List (ℤ × ℤ) → List (ℤ × ℤ)
  /-- `skimage.draw.polygon_perimeter` -/
  perimeter : List (ℤ × ℤ) → List (ℤ × ℤ)

mutual

/-- Source: crowddynamics/core/geometry.py:105-130 (`draw_geom`). -/
def drawGeom {α : Type} (lib : DrawLib) (zero : α) (indicer : Vec → ℤ × ℤ) (value : α) :
    Geom → Grid α → Except PyErr (Grid α)
  | .point _, grid => .ok grid
  | .lineString coords, grid =>
    (segmentsOf coords).foldlM (fun grid s =>
      paint grid (lib.line (indicer s.1) (indicer s.2)) value) grid
  | .polygon exterior interiors, grid => do
    let i := exterior.map indicer
    let grid ← paint grid (lib.polygon i) value
    let grid ← paint grid (lib.perimeter i) value
    interiors.foldlM (fun grid r => paint grid (lib.polygon (r.map indicer)) zero) grid
  | .multi parts, grid => drawGeoms lib zero indicer value parts grid
  | .other, _ => .error .type

/-- `for geo in geom: draw_geom(geo, …)`. Source: crowddynamics/core/geometry.py:127-128. -/
def drawGeoms {α : Type} (lib : DrawLib) (zero : α) (indicer : Vec → ℤ × ℤ) (value : α) :
    List Geom → Grid α → Except PyErr (Grid α)
  | [], grid => .ok grid
  | g :: gs, grid => do
    let grid ← drawGeom lib zero indicer value g grid
    drawGeoms lib zero indicer value gs grid

end

end

end CrowdDynamics
