import Verif.Model.Integrator
import Verif.Model.PowerLaw

/-!
# Model of `crowddynamics/core/motion/contact.py` and `crowddynamics/core/interactions.py`

The functions of the library `cell_lists` (`add_to_cells`, `neighboring_cells`,
`iter_nearest_neighbors`) appear as one parameter, the list of pairs they enumerate for the
given positions and cell size.
-/

namespace CrowdDynamics

noncomputable section

open Classical

/-- Source: crowddynamics/core/motion/contact.py:14-48 (`force_contact`). -/
def forceContact (h : ℝ) (n v t : Vec) (mu kappa damping : ℝ) : Vec :=
  (-h) • (mu • n - (kappa * dot v t) • t) + (damping * dot v n) • n

/-- Source: crowddynamics/core/interactions.py:45. -/
def sigthSoc : ℝ := 3

/-- `agents[i]['force'][:] += f`.
Source: crowddynamics/core/interactions.py:69-70, 100-101, 120, 140. -/
def addForce {n : ℕ} (agents : Crowd n) (i : Fin n) (f : Vec) : Crowd n :=
  Function.update agents i { agents i with force := (agents i).force + f }

/-- `agents[i]['torque'] += m`.
Source: crowddynamics/core/interactions.py:103-104, 141. -/
def addTorque {n : ℕ} (agents : Crowd n) (i : Fin n) (m : ℝ) : Crowd n :=
  Function.update agents i { agents i with torque := (agents i).torque + m }

/-- Source: crowddynamics/core/interactions.py:53-70
(`interaction_agent_agent_circular`). -/
def interactionAgentAgentCircular {n : ℕ} (i j : Fin n) (agents : Crowd n) : Crowd n :=
  let hn := distanceCircles (agents i).position (agents i).radius
    (agents j).position (agents j).radius
  let h := hn.1
  let n := hn.2
  if h < sigthSoc then
    let f := forceSocialCircular (agents i) (agents j)
    let f : Vec × Vec :=
      if h < 0 then
        let t := rotate270 n
        let v := (agents i).velocity - (agents j).velocity
        (f.1 + forceContact h n v t (agents i).mu (agents i).kappa (agents i).damping,
         f.2 - forceContact h n v t (agents j).mu (agents j).kappa (agents j).damping)
      else f
    let agents := addForce agents i f.1
    addForce agents j f.2
  else agents

/-- Source: crowddynamics/core/interactions.py:75-104
(`interaction_agent_agent_three_circle`). -/
def interactionAgentAgentThreeCircle {n : ℕ} (i j : Fin n) (agents : Crowd n) : Crowd n :=
  let d := distanceThreeCircles (agents i).circles (agents i).radii
    (agents j).circles (agents j).radii
  if d.h < sigthSoc then
    let f := forceSocialThreeCircle (agents i) (agents j)
    let f : Vec × Vec :=
      if d.h < 0 then
        let t := rotate270 d.n
        let v := (agents i).velocity - (agents j).velocity
        (f.1 + forceContact d.h d.n v t (agents i).mu (agents i).kappa (agents i).damping,
         f.2 - forceContact d.h d.n v t (agents j).mu (agents j).kappa (agents j).damping)
      else f
    let agents := addForce agents i f.1
    let agents := addForce agents j f.2
    let agents := addTorque agents i (cross d.rm0 f.1)
    addTorque agents j (cross d.rm1 f.2)
  else agents

/-- Source: crowddynamics/core/interactions.py:110-120
(`interaction_agent_circular_obstacle`). If the distance is NaN the comparison `h < 0` is
false. -/
def interactionAgentCircularObstacle {n : ℕ} (i : Fin n) (w : Wall) (agents : Crowd n) :
    Crowd n :=
  match distanceCircleLine (agents i).position (agents i).radius w.p0 w.p1 with
  | none => agents
  | some (h, n) =>
    if h < 0 then
      let t := rotate270 n
      let v := (agents i).velocity
      let force := forceContact h n v t (agents i).mu (agents i).kappa (agents i).damping
      addForce agents i force
    else agents

/-- Source: crowddynamics/core/interactions.py:126-141
(`interaction_agent_three_circle_obstacle`). -/
def interactionAgentThreeCircleObstacle {n : ℕ} (i : Fin n) (w : Wall) (agents : Crowd n) :
    Crowd n :=
  match distanceThreeCircleLine (agents i).circles (agents i).radii w.p0 w.p1 with
  | none => agents
  | some (h, n, rMoment) =>
    if h < 0 then
      let t := rotate270 n
      let v := (agents i).velocity
      let force := forceContact h n v t (agents i).mu (agents i).kappa (agents i).damping
      let agents := addForce agents i force
      addTorque agents i (cross rMoment force)
    else agents

/-- Source: crowddynamics/core/interactions.py:150-155 (`agent_agent_circular`); `pairs` is
what `iter_nearest_neighbors` yields. -/
def agentAgentCircular {n : ℕ} (agents : Crowd n) (pairs : List (Fin n × Fin n)) : Crowd n :=
  pairs.foldl (fun agents p => interactionAgentAgentCircular p.1 p.2 agents) agents

/-- Source: crowddynamics/core/interactions.py:161-166 (`agent_agent_three_circle`). -/
def agentAgentThreeCircle {n : ℕ} (agents : Crowd n) (pairs : List (Fin n × Fin n)) : Crowd n :=
  pairs.foldl (fun agents p => interactionAgentAgentThreeCircle p.1 p.2 agents) agents

/-- Source: crowddynamics/core/interactions.py:172-176 (`agent_circular_obstacle`). -/
def agentCircularObstacle {n : ℕ} (agents : Crowd n) (obstacles : List Wall) : Crowd n :=
  (List.finRange n).foldl (fun agents i =>
    obstacles.foldl (fun agents w => interactionAgentCircularObstacle i w agents) agents) agents

/-- Source: crowddynamics/core/interactions.py:182-186 (`agent_three_circle_obstacle`). -/
def agentThreeCircleObstacle {n : ℕ} (agents : Crowd n) (obstacles : List Wall) : Crowd n :=
  (List.finRange n).foldl (fun agents i =>
    obstacles.foldl (fun agents w => interactionAgentThreeCircleObstacle i w agents) agents) agents

/-- Source: crowddynamics/core/interactions.py:191-205 (`agent_agent_block_list`). `cellPairs`
stands for the library `cell_lists`. `none` is the exception `InvalidType`. -/
def agentAgentBlockList {n : ℕ} (cellPairs : (Fin n → Vec) → ℝ → List (Fin n × Fin n))
    (agents : AgentArray n) (cellSize : ℝ) : Option (AgentArray n) :=
  let pairs := cellPairs (fun i => (agents.rows i).position) cellSize
  if isModel agents .circular then
    some { agents with rows := agentAgentCircular agents.rows pairs }
  else if isModel agents .threeCircle then
    some { agents with rows := agentAgentThreeCircle agents.rows pairs }
  else none

/-- Source: crowddynamics/core/interactions.py:208-214 (`agent_obstacle`). -/
def agentObstacle {n : ℕ} (agents : AgentArray n) (obstacles : List Wall) :
    Option (AgentArray n) :=
  if isModel agents .circular then
    some { agents with rows := agentCircularObstacle agents.rows obstacles }
  else if isModel agents .threeCircle then
    some { agents with rows := agentThreeCircleObstacle agents.rows obstacles }
  else none

end

end CrowdDynamics
