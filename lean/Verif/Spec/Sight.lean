import Verif.Spec.Plane
import Verif.Model.Geom2D

/-!
# Seeing and choosing exits

Only the data type `Wall` of the model is used.
-/

namespace CrowdDynamics.Spec

open CrowdDynamics

/-- A wall hides `p1` from `p0`: it is not parallel to the line of sight and
shares a point with it. -/
def Hides (p0 p1 : ℝ × ℝ) (w : Wall) : Prop :=
  (p1.1 - p0.1) * (w.p1.2 - w.p0.2) ≠ (p1.2 - p0.2) * (w.p1.1 - w.p0.1) ∧
    ∃ z, z ∈ segment ℝ p0 p1 ∧ z ∈ segment ℝ w.p0 w.p1

/-- `d` is the centre (the mean) of the points of `t`. -/
def IsCentre (t : List (ℝ × ℝ)) (d : ℝ × ℝ) : Prop := t ≠ [] ∧ (t.length : ℝ) • d = t.sum

/-- Exit number `c` exists, is closer than `range` and not hidden from `p` by any wall. -/
def Detectable (doors : List (ℝ × ℝ)) (ws : List Wall) (range : ℝ) (p : ℝ × ℝ) (c : ℕ) : Prop :=
  ∃ door, doors[c]? = some door ∧ dist p door < range ∧ ∀ w ∈ ws, ¬ Hides p door w

/-- Exit `c` is a nearest detectable exit and the first of these. -/
def FirstNearest (doors : List (ℝ × ℝ)) (ws : List Wall) (range : ℝ) (p : ℝ × ℝ) (c : ℕ) : Prop :=
  Detectable doors ws range p c ∧
    ∀ c' (door door' : ℝ × ℝ), doors[c]? = some door → doors[c']? = some door' →
      Detectable doors ws range p c' →
      dist p door ≤ dist p door' ∧ (c' < c → dist p door < dist p door')

end CrowdDynamics.Spec
