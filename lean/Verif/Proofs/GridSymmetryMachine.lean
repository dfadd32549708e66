import Verif.Proofs.GridSymmetry
import Verif.Proofs.VectorTests

/-!
# Rounding to the nearest float is the same for both signs
-/

namespace CrowdDynamics

open Spec

theorem machine_signFree : SignFree Arith.machine := by
  refine ⟨fun x => fl64_neg x, fun x y => ?_, fun x y => ?_⟩
  · simp [Arith.machine]
  · simp [Arith.machine, add_comm]

end CrowdDynamics
