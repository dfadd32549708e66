import Verif.Proofs.Guidance
import Verif.Props.Field

/-!
# Cases and helper lemmas for `Verif.Props.Guidance`
-/

namespace CrowdDynamics

open Spec

theorem properBox_three : ProperBox [((0 : ℝ), (0 : ℝ)), (3, 0), (3, 3), (0, 3), (0, 0)] :=
  ⟨⟨(0, 0), by simp, (3, 0), by simp, by norm_num⟩, (0, 0), by simp, (3, 3), by simp, by norm_num⟩

end CrowdDynamics
