import Verif.Model.IeeeCrowd
import Verif.Spec.IeeeMotion

/-!
# A crowd without one of its agents
-/

namespace CrowdDynamics.Spec

/-- A pair of neighbours to which an agent does not belong. -/
def NotIn {n : ℕ} (k : Fin n) (p : Fin n × Fin n) : Prop := p.1 ≠ k ∧ p.2 ≠ k

open Classical in
/-- The same input without the pairs to which the agent `k` belongs. -/
noncomputable def avoiding {n : ℕ} (k : Fin n) (I : StepInput n) : StepInput n :=
  { I with pairs := I.pairs.filter (fun p => NotIn k p) }

open Classical in
/-- The input `J` for the crowd without the agent `k` is the part of the input `I` that concerns the
other agents. -/
def Without {n : ℕ} (k : Fin (n + 1)) (I : StepInput (n + 1)) (J : StepInput n) : Prop :=
  (∀ i, J.fluctuation i = I.fluctuation (k.succAbove i)) ∧
    (∀ i, J.direction i = I.direction (k.succAbove i)) ∧
    J.pairs.map (fun p => (k.succAbove p.1, k.succAbove p.2)) =
      I.pairs.filter (fun p => NotIn k p)

/-- An agent with finite attributes. -/
def finiteAgent (a : Agent) : AgentI :=
  ⟨finiteRow a, a.radius, a.tauAdj, a.kSoc, a.tau0, a.mu, a.kappa, a.damping⟩

end CrowdDynamics.Spec
