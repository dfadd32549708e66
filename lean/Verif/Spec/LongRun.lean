import Verif.Spec.Dynamics
import Verif.Spec.Simulation

/-!
# Long runs of circular agents

What disturbs an agent that wants to walk, and when nothing does.
-/

namespace CrowdDynamics.Spec

open CrowdDynamics

noncomputable section

open Classical in
/-- `d` is a possible value of everything but the adjusting force that acts on agent `i` in the update
from `s` to `t`: a random force, the forces of the other agents and, if `order` contains the node for
obstacles, the forces of the walls. -/
def Disturbs {n : ℕ} (env : SimEnv n) (order : List Node) (s t : SimState n) (i : Fin n)
    (d : ℝ × ℝ) : Prop :=
  ∃ fluctuation pairs walls,
    Contributes env (aiming s t) i .fluctuation fluctuation ∧
    Contributes env (aiming s t) i (.agentAgent (3.0 + 2 * 0.3)) pairs ∧
    (if .agentObstacle ∈ order then Contributes env (aiming s t) i .agentObstacle walls
      else walls = 0) ∧
    d = fluctuation + pairs + walls

/-- Agent `i` is out of reach of all other agents (a gap of at least 3) and touches no wall. -/
def OutOfReach {n : ℕ} (env : SimEnv n) (crowd : Crowd n) (i : Fin n) : Prop :=
  (∀ j, j ≠ i → 3 + ((crowd i).radius + (crowd j).radius) ≤
    dist (crowd i).position (crowd j).position) ∧
  ∀ w ∈ fieldWalls env.field.obstacles, ∀ z ∈ segment ℝ w.1 w.2,
    (crowd i).radius ≤ dist (crowd i).position z

/-- The cell list library works for the positions of the agents of `s`. -/
def CellsWork {n : ℕ} (env : SimEnv n) (s : SimState n) : Prop :=
  EnumeratesNeighbours (fun i => (s.agents.rows i).position) (3.0 + 2 * 0.3)
    (env.cellPairs (fun i => (s.agents.rows i).position) (3.0 + 2 * 0.3))

/-- `S 0, …, S N` are the states of a run of the shipped simulation with logic `e`, other than
`TestMovement` (number 11), with circular agents as assumed by `Regular`, that starts from `s` without
forces; `order` is the order in which the nodes are updated. -/
structure ShippedRun {n : ℕ} (env : SimEnv n) (e : LogicExpr) (order : List Node) (s : SimState n)
    (N : ℕ) (S : ℕ → SimState n) : Prop where
  shipped : ∃ (ratioObs width : ℝ) (k : ℕ), 1 ≤ (1 - ratioObs) * width ∧ k ≠ 11 ∧
    (shippedLogic ratioObs width env.field)[k]? = some e
  order : e.order = .ok order
  domain : env.field.domain ≠ none
  regular : Regular env [.agentAgent (3.0 + 2 * 0.3)] s
  start : ∀ i, (s.agents.rows i).force = 0 ∧ (s.agents.rows i).forcePrev = 0
  completed : Completed (e.update env) none s N S
  cells : ∀ j < N, CellsWork env (S j)

end

end CrowdDynamics.Spec
