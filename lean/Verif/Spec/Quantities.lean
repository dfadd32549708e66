import Mathlib.Algebra.BigOperators.Group.Finset.Basic
import Verif.Model.Quantities

/-!
# Specification vocabulary for densities
-/

namespace CrowdDynamics.Spec

noncomputable section

open Classical

/-- Sum of all entries of a grid. -/
def gridTotal (g : Grid ℝ) : ℝ := ∑ a ∈ Finset.range g.rows, ∑ b ∈ Finset.range g.cols, g.val a b

/-- The square cell of the plane that contains a point. -/
def cellOf (cellSize : ℝ) (p : Vec) : ℤ × ℤ := (⌊p.1 / cellSize⌋, ⌊p.2 / cellSize⌋)

/-- The points (by number) in a cell. -/
def pointsIn (cellSize : ℝ) (points : List Vec) (c : ℤ × ℤ) : Finset ℕ :=
  (Finset.range points.length).filter fun k => cellOf cellSize (points.getD k 0) = c

/-- The entries of the grid, whose corner is the cell `(x0, y0)`, are the numbers of points in the
cells divided by the sums of the areas that belong to these points. -/
def AveragesAreas (cellSize : ℝ) (points : List Vec) (area : ℕ → ℝ) (g : Grid ℝ) : Prop :=
  ∃ x0 y0 : ℤ, (∀ p ∈ points, x0 ≤ (cellOf cellSize p).1 ∧ y0 ≤ (cellOf cellSize p).2 ∧
      (cellOf cellSize p).1 < x0 + g.rows ∧ (cellOf cellSize p).2 < y0 + g.cols) ∧
    ∀ a b : ℕ, 0 < ∑ k ∈ pointsIn cellSize points (x0 + a, y0 + b), area k →
      g.val a b = (pointsIn cellSize points (x0 + a, y0 + b)).card /
        ∑ k ∈ pointsIn cellSize points (x0 + a, y0 + b), area k

/-- The cell is not empty, lies in the bounding box of the points, and the squares it touches divide
its area. -/
def GoodCell (cellSize : ℝ) (points : List Vec) (c : VCell) : Prop :=
  ∃ minx miny maxx maxy, c.bounds = some (minx, miny, maxx, maxy) ∧ minx ≤ maxx ∧ miny ≤ maxy ∧
    (∃ p ∈ points, p.1 ≤ minx) ∧ (∃ p ∈ points, maxx ≤ p.1) ∧
    (∃ p ∈ points, p.2 ≤ miny) ∧ (∃ p ∈ points, maxy ≤ p.2) ∧ 0 < c.area ∧
    ∑ i ∈ Finset.Icc ⌊minx / cellSize⌋ ⌊maxx / cellSize⌋,
      ∑ j ∈ Finset.Icc ⌊miny / cellSize⌋ ⌊maxy / cellSize⌋, c.inter i j = c.area

/-- The description of a Voronoi diagram is consistent: indices are in range. -/
structure ValidVoronoi (vor : Voronoi) : Prop where
  /-- every point has a region -/
  region : ∀ r ∈ vor.pointRegion, r < vor.regions.length
  /-- corners of regions are vertices or at infinity -/
  corner : ∀ vs ∈ vor.regions, ∀ v ∈ vs, v < vor.vertices.length
  /-- ends of ridges are vertices or at infinity -/
  ridge : ∀ r ∈ vor.ridgeVertices, -1 ≤ r.1 ∧ -1 ≤ r.2 ∧ r.1 < vor.vertices.length ∧
    r.2 < vor.vertices.length
  /-- ridges separate different points -/
  distinct : ∀ r ∈ vor.ridgePoints, r.1 ≠ r.2
  /-- there are vertices -/
  nonempty : 0 < vor.vertices.length
  /-- points with unbounded regions have ridges -/
  ridges : ∀ p r, vor.pointRegion[p]? = some r → ∀ vs, vor.regions[r]? = some vs →
    (∃ v ∈ vs, v < 0) → ∃ k, (∃ x, vor.ridgePoints[k]? = some x ∧ (x.1 = p ∨ x.2 = p)) ∧
      k < vor.ridgeVertices.length

/-- The ridges of a point that go to infinity. -/
def openRidges (vor : Voronoi) (p : ℕ) : List ((ℕ × ℕ) × (ℤ × ℤ)) :=
  (vor.ridgePoints.zip vor.ridgeVertices).filter fun r =>
    decide ((r.1.1 = p ∨ r.1.2 = p) ∧ (r.2.1 < 0 ∨ r.2.2 < 0))

/-- A finite region for point `p` whose original corners are `vs`: all corners are among the first
`count` vertices; a region that was finite is unchanged; otherwise its finite corners are kept and
there is one new vertex for every ridge that goes to infinity. -/
def FiniteRegion (vor : Voronoi) (p : ℕ) (vs : List ℤ) (count : ℕ) (region : List ℕ) : Prop :=
  (∀ v ∈ region, v < count) ∧
  ((∀ v ∈ vs, 0 ≤ v) → region.map (fun v : ℕ => (v : ℤ)) = vs) ∧
  ((∃ v ∈ vs, v < 0) → ∃ new : List ℕ, region.Perm
    ((vs.filter fun v => decide (0 ≤ v)).map Int.toNat ++ new) ∧
    new.length = (openRidges vor p).length ∧ ∀ v ∈ new, vor.vertices.length ≤ v)

end

end CrowdDynamics.Spec
