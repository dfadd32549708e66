import Verif.Proofs.Viewpoint
import Verif.Props.Dynamics

/-!
# Cases and helper lemmas for `Verif.Props.Viewpoint`
-/

namespace CrowdDynamics

open Spec

variable {n : ℕ}

theorem two_cells (pos : Fin 2 → Vec) (c : ℝ) : EnumeratesNeighbours pos c [(0, 1)] := by
  refine ⟨by simp, by simp, (0, 0), fun i j hij _ _ => ?_⟩
  have hi := i.isLt
  have hj := j.isLt
  simp only [List.mem_singleton, Prod.ext_iff, Fin.ext_iff, Fin.val_zero, Fin.val_one]
  have : (i : ℕ) ≠ j := fun h => hij (Fin.ext h)
  omega

end CrowdDynamics
