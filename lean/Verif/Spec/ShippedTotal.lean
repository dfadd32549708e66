import Verif.Spec.Outline
import Verif.Model.Simulation

/-!
# When a shipped simulation has all it needs
-/

namespace CrowdDynamics.Spec

open CrowdDynamics

/-- A new simulation has all that the shipped nodes need: a domain, targets, obstacles made of
points, lines and polygons, targets that can be turned into arrays of coordinates, directions to
every target (the call with the default parameters returns), the counter of agents that left, and
caches with nothing in them. -/
structure ReadyToRun {n : ℕ} (env : SimEnv n) (s : SimState n) : Prop where
  domain : env.field.domain ≠ none
  targets : env.field.targets ≠ []
  obstacles : ∀ g, env.field.obstacles = some g → Supported g
  arrays : ∀ g ∈ env.field.targets, ∃ a, env.asarray g = .ok a
  directions : ∀ t < env.field.targets.length, ∃ r, (Field.navigationToTarget env.lib env.fields
    env.self (.int t) 0.1 0.5 0.3 ⟨[], [], [], []⟩).1 = .ok r
  counter : s.data.inactive ≠ none
  caches : s.caches = ⟨[], [], [], []⟩

end CrowdDynamics.Spec
