import Verif.Model.Placement
import Verif.Model.Rounded

/-!
# Distances of bodies and walls, with rounding after each operation

The functions of this file are those of `Verif.Model.Distance` and `Verif.Model.Placement`, with the
result of each arithmetic operation rounded; see `Verif.Model.Rounded`.
-/

namespace CrowdDynamics

noncomputable section

open Classical

/-- `x[i] + s * r[i] * normal - x[0]`. Source: crowddynamics/core/distance.py:102-103, 178. -/
def momentF (rnd : ℝ → ℝ) (s : ℝ) (x : Vec) (r : ℝ) (n x0 : Vec) : Vec :=
  (rnd (rnd (x.1 + s * rnd (r * n.1)) - x0.1), rnd (rnd (x.2 + s * rnd (r * n.2)) - x0.2))

/-- Source: crowddynamics/core/distance.py:50-105 (`distance_three_circles`), with rounding. -/
def distanceThreeCirclesF (A : Arith) (x0 : Fin 3 → Vec) (r0 : Fin 3 → ℝ) (x1 : Fin 3 → Vec)
    (r1 : Fin 3 → ℝ) : ThreeDist :=
  let s := pairs33.foldl
    (minStep fun k => distanceCirclesF A (x0 k.1) (r0 k.1) (x1 k.2) (r1 k.2))
    ⟨none, (0, 0), (0, 0)⟩
  -- line 103 of the source: `x0[j_min]`, not `x1[j_min]`
  ⟨s.h.getD 0, s.n, momentF A.rnd 1 (x0 s.i.1) (r0 s.i.1) s.n (x0 0),
    momentF A.rnd (-1) (x0 s.i.2) (r1 s.i.2) s.n (x1 0)⟩

/-- Source: crowddynamics/simulation/agents.py:489-506 (`overlapping_circles`), with rounding. -/
def overlappingCirclesF (A : Arith) (x : Vec) (r : ℝ) : List Agent → Bool
  | [] => false
  | agent :: rest =>
    let h := (distanceCirclesF A agent.position agent.radius x r).1
    if h < 0 then true else overlappingCirclesF A x r rest

/-- Source: crowddynamics/simulation/agents.py:509-533 (`overlapping_three_circles`), with
rounding. -/
def overlappingThreeCirclesF (A : Arith) (x : Fin 3 → Vec) (r : Fin 3 → ℝ) : List Agent → Bool
  | [] => false
  | agent :: rest =>
    let h := (distanceThreeCirclesF A agent.circles agent.radii x r).h
    if h < 0 then true else overlappingThreeCirclesF A x r rest

/-- A vector divided by its computed length; `none` is a division of zero by zero (NaN).
Source: crowddynamics/core/distance.py:135, 138. Simplification: a vector that is not zero with the
computed length zero would give infinities; they are `none` too. -/
def unitF (rnd : ℝ → ℝ) (q : Vec) (d : ℝ) : Option Vec :=
  if d = 0 then none else some (rnd (q.1 / d), rnd (q.2 / d))

/-- Source: crowddynamics/core/distance.py:108-146 (`distance_circle_line`), with rounding. For a wall
of length zero everything is NaN: `none`. The normal is `none` if it is NaN. -/
def distanceCircleLineF (A : Arith) (x : Vec) (r : ℝ) (p0 p1 : Vec) : Option (ℝ × Option Vec) :=
  let d := vecSubF A.rnd p1 p0
  let lw := lengthF A d
  if lw = 0 then none
  else
    let tw : Vec := (A.rnd (d.1 / lw), A.rnd (d.2 / lw))
    let nw := rotate90 tw
    let q0 := vecSubF A.rnd x p0
    let q1 := vecSubF A.rnd x p1
    let lt := A.rnd (-dotF A.rnd tw q1 - dotF A.rnd tw q0)
    let (diw, niw) : ℝ × Option Vec :=
      if lt > lw then (lengthF A q0, unitF A.rnd q0 (lengthF A q0))
      else if lt < -lw then (lengthF A q1, unitF A.rnd q1 (lengthF A q1))
      else
        let ln := dotF A.rnd nw q0
        (|ln|, some (npSign ln • nw))
    some (A.rnd (diw - r), niw)

/-- Source: crowddynamics/simulation/agents.py:536-546 (`overlapping_circle_line`), for a single row,
with rounding. -/
def overlappingCircleLineF (A : Arith) (agent : Agent) : List Wall → Bool
  | [] => false
  | obstacle :: rest =>
    match distanceCircleLineF A agent.position agent.radius obstacle.p0 obstacle.p1 with
    | some (h, _) => if h < 0 then true else overlappingCircleLineF A agent rest
    | none => overlappingCircleLineF A agent rest

end

end CrowdDynamics
