import Verif.Proofs.SaveData
import Verif.Props.IO

/-!
# Cases and helper lemmas for `Verif.Props.SaveData`
-/

namespace CrowdDynamics

open Spec

theorem plain_run : Plain "run".toList :=
  ⟨by decide, by decide, ⟨by decide, by decide⟩⟩

theorem pair_exists {α β γ : Type} (x : α × β × γ) (a : α) (h : x.1 = a) : ∃ b c, x = (a, b, c) :=
  ⟨x.2.1, x.2.2, by rw [← h]⟩

end CrowdDynamics
