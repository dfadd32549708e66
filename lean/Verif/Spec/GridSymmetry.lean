import Verif.Model.Agent
import Verif.Model.Geom2D
import Verif.Model.Rounded

/-!
# The eight symmetries of the axes
-/

namespace CrowdDynamics.Spec

open CrowdDynamics

/-- The turns by multiples of 90 degrees and the reflections that map the axes to axes: the coordinates are
swapped or not, and each of them changes its sign or not. -/
noncomputable def axisMap (swap flip₁ flip₂ : Bool) (v : Vec) : Vec :=
  let w : Vec := if swap then (v.2, v.1) else v
  (if flip₁ then -w.1 else w.1, if flip₂ then -w.2 else w.2)

/-- An agent whose vectors are mapped; everything else stays. -/
def mapAgent (g : Vec → Vec) (a : Agent) : Agent :=
  { a with
    position := g a.position
    velocity := g a.velocity
    targetDirection := g a.targetDirection
    force := g a.force
    forcePrev := g a.forcePrev }

/-- A wall whose ends are mapped. -/
def mapWall (g : Vec → Vec) (w : Wall) : Wall := ⟨g w.p0, g w.p1⟩

/-- Rounding does not depend on the sign, and `hypot` neither on signs nor on the order. -/
structure SignFree (A : Arith) : Prop where
  rnd : ∀ x, A.rnd (-x) = -A.rnd x
  hypot : ∀ x y, A.hypot (-x) y = A.hypot x y
  swap : ∀ x y, A.hypot x y = A.hypot y x

end CrowdDynamics.Spec
