import Verif.Model.IeeeCrowd

/-!
# The same update with other numbers for the agents
-/

namespace CrowdDynamics.Spec

open CrowdDynamics

/-- The input of an update after the agent with the number `σ i` gets the number `i`. The pairs come in the same
order. -/
def renumberInput {n : ℕ} (σ : Equiv.Perm (Fin n)) (inp : StepInput n) : StepInput n :=
  ⟨fun i => inp.fluctuation (σ i), fun i => inp.direction (σ i),
    inp.pairs.map fun p => (σ.symm p.1, σ.symm p.2)⟩

end CrowdDynamics.Spec
