import Verif.Model.RoundedContact

/-!
# The interactions of circular agents with walls, with rounding and without overflow
-/

namespace CrowdDynamics

noncomputable section

/-- Source: crowddynamics/core/interactions.py:110-120 (`interaction_agent_circular_obstacle`), with
rounding; `none` if the force is NaN (the wall has the length zero, or the centre of an agent that
touches the wall is one of its ends). Simplification: a wall of length zero gives NaN for the
distance too, so nothing would be added; here it is `none`. -/
def interactionAgentCircularObstacleF {n : ℕ} (A : Arith) (i : Fin n) (w : Wall)
    (agents : Crowd n) : Option (Crowd n) :=
  match distanceCircleLineF A (agents i).position (agents i).radius w.p0 w.p1 with
  | none => none
  | some (h, normal) =>
    if h < 0 then
      match normal with
      | none => none
      | some n =>
        let t := rotate270 n
        some (addForceF A.rnd agents i (forceContactF A.rnd h n (agents i).velocity t (agents i).mu
          (agents i).kappa (agents i).damping))
    else some agents

/-- Source: crowddynamics/core/interactions.py:172-176 (`agent_circular_obstacle`), with rounding. -/
def agentCircularObstacleF {n : ℕ} (A : Arith) (agents : Crowd n) (obstacles : List Wall) :
    Option (Crowd n) :=
  (List.finRange n).foldlM (fun agents i =>
    obstacles.foldlM (fun agents w => interactionAgentCircularObstacleF A i w agents) agents) agents

end

end CrowdDynamics
