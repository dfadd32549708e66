import Verif.Spec.Isolation
import Verif.Spec.Turning

/-!
# A group of three-circle agents in two crowds
-/

namespace CrowdDynamics.Spec

open CrowdDynamics

variable {κ : Type} {n m : ℕ}

/-- The surroundings are the same, also as to the random torques on the members of the group. -/
structure SameBodySurroundings (ι : κ → Fin n) (ι' : κ → Fin m) (env : SimEnv n) (env' : SimEnv m) :
    Prop where
  surroundings : SameSurroundings ι ι' env env'
  torques : ∀ d i, env'.w d (ι' i) = env.w d (ι i)

/-- No circle of anybody else is nearer than 3 to a circle of a member of the group. -/
def BodiesApart (ι : κ → Fin n) (s : SimState n) : Prop :=
  ∀ i, ∀ k ∉ Set.range ι, ∀ p q,
    3 + ((s.agents.rows (ι i)).radii p + (s.agents.rows k).radii q) ≤
      dist ((s.agents.rows (ι i)).circles p) ((s.agents.rows k).circles q)

/-- Among the members of the group, the same pairs with the same first member are found in both crowds. -/
def SameRoles (ι : κ → Fin n) (ι' : κ → Fin m) (env : SimEnv n) (env' : SimEnv m) (s : SimState n)
    (s' : SimState m) : Prop :=
  ∀ i k, (ι i, ι k) ∈ env.cellPairs (fun l => (s.agents.rows l).position) (3.0 + 2 * 0.3) ↔
    (ι' i, ι' k) ∈ env'.cellPairs (fun l => (s'.agents.rows l).position) (3.0 + 2 * 0.3)

end CrowdDynamics.Spec
