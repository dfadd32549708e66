import Verif.Model.Vector2D

/-!
# Model of `crowddynamics/core/geom2D.py` and `crowddynamics/core/sensory_region.py`
-/

namespace CrowdDynamics

noncomputable section

open Classical

/-- Source: crowddynamics/core/geom2D.py:4-33 (`polygon_area`). The array of
vertices is a list; `x[i]`, `y[i]` are its coordinates (all indices used by the
code are in range). -/
def polygonArea (vertices : List Vec) : ℝ :=
  let n := vertices.length
  if n < 3 then 0
  else
    let x := fun i => (vertices.getD i 0).1
    let y := fun i => (vertices.getD i 0).2
    let area := (List.range' 1 (n - 2)).foldl
      (fun area i => area + x i * (y (i + 1) - y (i - 1))) 0
    let area := area + x (n - 1) * (y 0 - y (n - 2))
    let area := area + x 0 * (y 1 - y (n - 1))
    0.5 * |area|

/-- Source: crowddynamics/core/geom2D.py:36-59 (`line_intersect`). -/
def lineIntersect (x0 x1 y0 y1 : Vec) : Bool :=
  let u := x1 - x0
  let v := y1 - y0
  let b := y0 - x0
  let d := u.1 * v.2 - u.2 * v.1
  if d = 0 then false
  else
    let t0 := b.1 * v.2 - b.2 * v.1
    let t1 := b.1 * u.2 - b.2 * u.1
    decide ((0 ≤ t0 / d ∧ t0 / d ≤ 1) ∧ (0 ≤ t1 / d ∧ t1 / d ≤ 1))

/-- A linear obstacle.
Source: crowddynamics/core/structures.py:6-9 (`obstacle_type_linear`). -/
structure Wall where
  /-- start point -/
  p0 : Vec
  /-- end point -/
  p1 : Vec

/-- Source: crowddynamics/core/sensory_region.py:9-16
(`is_obstacle_between_points`). -/
def isObstacleBetweenPoints (p0 p1 : Vec) : List Wall → Bool
  | [] => false
  | obstacle :: rest =>
    if lineIntersect p0 p1 obstacle.p0 obstacle.p1 then true
    else isObstacleBetweenPoints p0 p1 rest

end

end CrowdDynamics
