import Verif.Model.Vector2D
import Verif.Model.Geom2D

/-!
# Model of `crowddynamics/core/distance.py`

A NaN result is modelled by `none`.
-/

namespace CrowdDynamics

noncomputable section

open Classical

/-- Source: crowddynamics/core/distance.py:16-47 (`distance_circles`). -/
def distanceCircles (x0 : Vec) (r0 : ℝ) (x1 : Vec) (r1 : ℝ) : ℝ × Vec :=
  let x := x0 - x1
  let d := length x
  let rTot := r0 + r1
  let h := d - rTot
  let n : Vec := if d = 0 then (0, 0) else (x.1 / d, x.2 / d)
  (h, n)

/-- The variables `h_min, normal` and the minimising indices of the search loops.
`h = none` is NaN.
Source: crowddynamics/core/distance.py:87-90 and 166-168. -/
structure MinState (ι : Type) where
  /-- `h_min` -/
  h : Option ℝ
  /-- `normal` -/
  n : Vec
  /-- `i_min` (and `j_min`) -/
  i : ι

/-- Body of the search loop for a distance that is not NaN:
`if h < h_min or np.isnan(h_min)`.
Source: crowddynamics/core/distance.py:94-99. -/
def minStep {ι : Type} (f : ι → ℝ × Vec) (s : MinState ι) (k : ι) : MinState ι :=
  let hn := f k
  match s.h with
  | none => ⟨some hn.1, hn.2, k⟩
  | some hm => if hn.1 < hm then ⟨some hn.1, hn.2, k⟩ else s

/-- The iteration order of the two nested loops.
Source: crowddynamics/core/distance.py:92-93. -/
def pairs33 : List (Fin 3 × Fin 3) :=
  (List.finRange 3).flatMap fun i => (List.finRange 3).map fun j => (i, j)

/-- Result of `distance_three_circles`.
Source: crowddynamics/core/distance.py:105. -/
structure ThreeDist where
  /-- skin-to-skin distance -/
  h : ℝ
  /-- normal -/
  n : Vec
  /-- `r_moment0` -/
  rm0 : Vec
  /-- `r_moment1` -/
  rm1 : Vec

/-- Source: crowddynamics/core/distance.py:50-105 (`distance_three_circles`).
Index 0 is the torso, 1 the left and 2 the right shoulder. `h_min` is never NaN
after the loop; the model returns 0 in that impossible case. -/
def distanceThreeCircles (x0 : Fin 3 → Vec) (r0 : Fin 3 → ℝ) (x1 : Fin 3 → Vec)
    (r1 : Fin 3 → ℝ) : ThreeDist :=
  let s := pairs33.foldl
    (minStep fun k => distanceCircles (x0 k.1) (r0 k.1) (x1 k.2) (r1 k.2))
    ⟨none, (0, 0), (0, 0)⟩
  let iMin := s.i.1
  let jMin := s.i.2
  let normal := s.n
  let rMoment0 := x0 iMin + r0 iMin • normal - x0 0
  -- line 103 of the source: `x0[j_min]`, not `x1[j_min]`
  let rMoment1 := x0 jMin - r1 jMin • normal - x1 0
  ⟨s.h.getD 0, normal, rMoment0, rMoment1⟩

/-- `np.sign` on a float. Source: used at crowddynamics/core/distance.py:142. -/
def npSign (x : ℝ) : ℝ := if x > 0 then 1 else if x < 0 then -1 else 0

/-- Source: crowddynamics/core/distance.py:108-146 (`distance_circle_line`).
For a wall of length zero `d / l_w` is NaN, all comparisons are false and the
results are NaN: `none`. -/
def distanceCircleLine (x : Vec) (r : ℝ) (p0 p1 : Vec) : Option (ℝ × Vec) :=
  let d := p1 - p0
  let lw := length d
  if lw = 0 then none
  else
    let tw : Vec := (d.1 / lw, d.2 / lw)
    let nw := rotate90 tw
    let q0 := x - p0
    let q1 := x - p1
    let lt := -dot tw q1 - dot tw q0
    let (diw, niw) : ℝ × Vec :=
      if lt > lw then (length q0, (q0.1 / length q0, q0.2 / length q0))
      else if lt < -lw then (length q1, (q1.1 / length q1, q1.2 / length q1))
      else
        let ln := dot nw q0
        (|ln|, npSign ln • nw)
    some (diw - r, niw)

/-- Body of the search loop of `distance_three_circle_line`, where the distance of
a circle may be NaN (`none`): a NaN `h` is stored only if `h_min` is NaN.
Source: crowddynamics/core/distance.py:172-176. -/
def minStepOpt {ι : Type} (f : ι → Option (ℝ × Vec)) (s : MinState ι) (k : ι) : MinState ι :=
  match f k with
  | some hn =>
    match s.h with
    | none => ⟨some hn.1, hn.2, k⟩
    | some hm => if hn.1 < hm then ⟨some hn.1, hn.2, k⟩ else s
  | none =>
    match s.h with
    | none => ⟨none, s.n, k⟩
    | some _ => s

/-- Source: crowddynamics/core/distance.py:149-180 (`distance_three_circle_line`).
Result: skin-to-skin distance, normal and moment arm; `none` if NaN. -/
def distanceThreeCircleLine (x : Fin 3 → Vec) (r : Fin 3 → ℝ) (p0 p1 : Vec) :
    Option (ℝ × Vec × Vec) :=
  let s := (List.finRange 3).foldl
    (minStepOpt fun i => distanceCircleLine (x i) (r i) p0 p1) ⟨none, (0, 0), 0⟩
  match s.h with
  | none => none
  | some h => some (h, s.n, x s.i - r s.i • s.n - x 0)

end

end CrowdDynamics
