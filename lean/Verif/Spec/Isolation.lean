import Verif.Spec.LongRun

/-!
# A group of agents in two crowds

The same group of agents in two crowds of other agents, possibly with other numbers.
-/

namespace CrowdDynamics.Spec

open CrowdDynamics

variable {κ : Type} {n m : ℕ}

/-- The surroundings of the two crowds are the same, and the random numbers drawn for the members of the
group are the same. Member `i` has number `ι i` in the first crowd and `ι' i` in the second. -/
structure SameSurroundings (ι : κ → Fin n) (ι' : κ → Fin m) (env : SimEnv n) (env' : SimEnv m) : Prop where
  fields : env'.fields = env.fields
  self : env'.self = env.self
  lib : env'.lib = env.lib
  nan : env'.nan = env.nan
  contains : env'.contains = env.contains
  angles : ∀ d i, env'.phi d (ι' i) = env.phi d (ι i)
  magnitudes : ∀ d i, env'.z d (ι' i) = env.z d (ι i)

/-- The members of the group are in the same state in both crowds; as many random numbers have been
drawn and the same maps are in the caches. -/
structure SameMembers (ι : κ → Fin n) (ι' : κ → Fin m) (s : SimState n) (s' : SimState m) : Prop where
  rows : ∀ i, s'.agents.rows (ι' i) = s.agents.rows (ι i)
  draws : s'.draws = s.draws
  caches : s'.caches = s.caches

/-- Nobody else is nearer than 3 to a member of the group (gap between the bodies). -/
def KeptApart (ι : κ → Fin n) (s : SimState n) : Prop :=
  ∀ i, ∀ k ∉ Set.range ι, 3 + ((s.agents.rows (ι i)).radius + (s.agents.rows k).radius) ≤
    dist (s.agents.rows (ι i)).position (s.agents.rows k).position

/-- Simulations in which nobody looks for leaders or others: `Outdoor`, `Hallway`, `RoomWithOneExit`,
`FourExitsRandomPlacing` (all of `simulations.py`) and `TestAgentInteraction`. -/
def OwnWay (f : Field) (e : LogicExpr) : Prop := e = walkLogic ∨ e = navigationLogic f

end CrowdDynamics.Spec
