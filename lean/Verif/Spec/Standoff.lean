import Verif.Spec.LongRun
import Verif.Spec.ValidationTests

/-!
# The world of the interaction test
-/

namespace CrowdDynamics.Spec

open CrowdDynamics

/-- An open field with a domain, random numbers from their intervals, and a cell list library that
works. -/
structure OpenField {n : ℕ} (env : SimEnv n) : Prop where
  domain : env.field.domain ≠ none
  obstacles : env.field.obstacles = none
  draws : ∀ d k a b, a ≤ b → a ≤ env.z d k a b ∧ env.z d k a b ≤ b
  cells : ∀ pos c, 0 < c → EnumeratesNeighbours pos c (env.cellPairs pos c)

/-- The random forces push both agents along the first axis, equally strongly and towards opposite
sides. -/
structure OppositeDraws (env : SimEnv 2) : Prop where
  strength : ∀ d, env.z d 0 = env.z d 1
  line : ∀ d i, Real.sin (env.phi d i) = 0
  sides : ∀ d, Real.cos (env.phi d 1) = -Real.cos (env.phi d 0)

/-- A new simulation of the given kind with the given agents. -/
structure NewSimulation {n : ℕ} (kind : Kind) (rows : List Agent) (s : SimState n) : Prop where
  kind : s.agents.dtype.kind = kind
  rows : List.ofFn s.agents.rows = rows
  iterations : s.data.iterations = 0

end CrowdDynamics.Spec
