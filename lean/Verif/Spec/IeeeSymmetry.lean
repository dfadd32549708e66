import Verif.Spec.GridSymmetry
import Verif.Model.IeeeCrowd

/-!
# The eight symmetries of the axes, for numbers that may be infinite or NaN
-/

namespace CrowdDynamics.Spec

open CrowdDynamics

/-- The coordinates are swapped or not, and each of them changes its sign or not. -/
def axisMapI (swap flip₁ flip₂ : Bool) (v : F64 × F64) : F64 × F64 :=
  let w : F64 × F64 := if swap then (v.2, v.1) else v
  (if flip₁ then w.1.neg else w.1, if flip₂ then w.2.neg else w.2)

/-- An agent whose vectors are mapped; everything else stays. -/
def mapAgentI (g : F64 × F64 → F64 × F64) (a : AgentI) : AgentI :=
  { a with
    position := g a.position
    velocity := g a.velocity
    force := g a.force
    forcePrev := g a.forcePrev }

/-- The input of an update with mapped random forces and directions. -/
def mapInput {n : ℕ} (g : F64 × F64 → F64 × F64) (inp : StepInput n) : StepInput n :=
  ⟨fun i => g (inp.fluctuation i), fun i => g (inp.direction i), inp.pairs⟩

end CrowdDynamics.Spec
