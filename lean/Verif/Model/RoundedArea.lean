import Verif.Model.VectorTests

/-!
# Areas of polygons with rounding
-/

namespace CrowdDynamics

noncomputable section

/-- Source: crowddynamics/core/geom2D.py:4-33 (`polygon_area`), with a rounding after each
operation. -/
def polygonAreaF (rnd : ℝ → ℝ) (vertices : List Vec) : ℝ :=
  let n := vertices.length
  if n < 3 then 0
  else
    let x := fun i => (vertices.getD i 0).1
    let y := fun i => (vertices.getD i 0).2
    let area := (List.range' 1 (n - 2)).foldl
      (fun area i => rnd (area + rnd (x i * rnd (y (i + 1) - y (i - 1))))) 0
    let area := rnd (area + rnd (x (n - 1) * rnd (y 0 - y (n - 2))))
    let area := rnd (area + rnd (x 0 * rnd (y 1 - y (n - 1))))
    rnd (0.5 * |area|)

/-- The assertion of the test. `exterior` are the coordinates of the exterior of the convex hull of
the drawn points (the first point is repeated at the end), `area` is what shapely computes as its
area. Source: crowddynamics/core/tests/test_geom2D.py:11-16 (`test_polygon_area`). -/
def testPolygonArea (rnd : ℝ → ℝ) (exterior : List Vec) (area : ℝ) : Prop :=
  area > 0 → isCloseF rnd (polygonAreaF rnd exterior) area

end

end CrowdDynamics
