import Verif.Model.Rounded

/-!
# The forces on one agent
-/

namespace CrowdDynamics.Spec

open CrowdDynamics

/-- The forces that agent `k` gets from the pairs that are in sight and to which it belongs, in the order of the
pairs. -/
noncomputable def forcesOn {n : ℕ} (A : Arith) (agents : Crowd n) (k : Fin n) (pairs : List (Fin n × Fin n)) :
    List Vec :=
  pairs.flatMap fun p => match pairForcesF A (agents p.1) (agents p.2) with
    | none => []
    | some f => if k = p.1 then [f.1] else if k = p.2 then [f.2] else []

end CrowdDynamics.Spec
