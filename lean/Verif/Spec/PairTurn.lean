import Verif.Model.IeeeCrowd

/-!
# The same pairs, named the other way round
-/

namespace CrowdDynamics.Spec

open CrowdDynamics

/-- Two lists name the same pairs of different agents in the same order; either agent of a pair may come first. -/
def PairsUpToTurn {n : ℕ} (ps qs : List (Fin n × Fin n)) : Prop :=
  List.Forall₂ (fun p q => p.1 ≠ p.2 ∧ (q = p ∨ q = (p.2, p.1))) ps qs

/-- Two inputs of an update differ only in which agent of a pair comes first. -/
def InputUpToTurn {n : ℕ} (inp inp' : StepInput n) : Prop :=
  inp'.fluctuation = inp.fluctuation ∧ inp'.direction = inp.direction ∧ PairsUpToTurn inp.pairs inp'.pairs

end CrowdDynamics.Spec
