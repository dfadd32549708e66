import Verif.Model.IeeeCrowd

/-!
# The order in which each agent meets the others
-/

namespace CrowdDynamics.Spec

open CrowdDynamics

/-- The other agents that an agent meets in a list of pairs, in this order. -/
def partnersOf {n : ℕ} (k : Fin n) (ps : List (Fin n × Fin n)) : List (Fin n) :=
  ps.filterMap fun p => if p.1 = k then some p.2 else if p.2 = k then some p.1 else none

/-- In two lists of pairs of different agents, every agent meets the same agents in the same order. -/
def SamePartners {n : ℕ} (ps qs : List (Fin n × Fin n)) : Prop :=
  (∀ p ∈ ps, p.1 ≠ p.2) ∧ (∀ q ∈ qs, q.1 ≠ q.2) ∧ ∀ k, partnersOf k ps = partnersOf k qs

/-- Two inputs of an update differ only in the list of pairs, in such a way that every agent meets the same agents
in the same order. -/
def InputSamePartners {n : ℕ} (inp inp' : StepInput n) : Prop :=
  inp'.fluctuation = inp.fluctuation ∧ inp'.direction = inp.direction ∧ SamePartners inp.pairs inp'.pairs

end CrowdDynamics.Spec
