import Verif.Model.RoundedWalls
import Verif.Model.RoundedWalk
import Verif.Model.CoreTests

/-!
# One update of circular agents with rounding and without overflow
-/

namespace CrowdDynamics

noncomputable section

/-- One update with the order of nodes `Fluctuation, Adjusting, AgentAgentInteractions,
AgentObstacleInteractions, Integrator, Reset`; `xi` are the random forces, `direction` the target
directions that the nodes for navigation set, and `pairs` is what the cell lists yield. `none` if a
wall gives a force that is not a number.
Source: crowddynamics/examples/simulations.py:125-134 and
crowddynamics/simulation/logic.py:59-132. -/
def updateF {n : ℕ} (A : Arith) (walls : List Wall) (dtMin dtMax : ℝ) (xi direction : Fin n → Vec)
    (pairs : List (Fin n × Fin n)) (agents : Crowd n) : Option (Crowd n) :=
  let agents : Crowd n := fun i => { agents i with
    targetDirection := direction i
    force := (A.rnd ((agents i).force.1 + (xi i).1), A.rnd ((agents i).force.2 + (xi i).2)) }
  let agents : Crowd n := fun i => forceAdjustRowF A.rnd (agents i)
  let agents := agentAgentCircularF A agents pairs
  match agentCircularObstacleF A agents walls with
  | none => none
  | some agents =>
    let dt := adaptiveTimestepF A agents dtMin dtMax
    some fun i => { translationalVerletRowF A.rnd dt (agents i) with force := 0 }

end

end CrowdDynamics
