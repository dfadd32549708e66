import Verif.Spec.BodyDynamics
import Verif.Spec.LongRun
import Verif.Spec.Body

/-!
# Long runs of three-circle agents
-/

namespace CrowdDynamics.Spec

open CrowdDynamics

noncomputable section

/-- Agent `i` is out of reach of all other agents (between any two circles there is a gap of at least
3) and touches no wall. -/
def BodyOutOfReach {n : ℕ} (env : SimEnv n) (crowd : Crowd n) (i : Fin n) : Prop :=
  (∀ j, j ≠ i → ∀ p q, 3 + ((crowd i).radii p + (crowd j).radii q) ≤
    dist ((crowd i).circles p) ((crowd j).circles q)) ∧
  ∀ w ∈ fieldWalls env.field.obstacles, ClearOfSegment .threeCircle (crowd i) w.1 w.2

open Classical in
/-- `d` is a possible value of everything but the adjusting force and torque that acts on the
three-circle agent `i` in the update from `s` to `t`: random force and torque, the effects of the other
agents (with the arms of the code, see C123) and, if `order` contains the node for obstacles, of the
walls. -/
def DisturbsBody {n : ℕ} (env : SimEnv n) (order : List Node) (s t : SimState n) (i : Fin n)
    (d : (ℝ × ℝ) × ℝ) : Prop :=
  ∃ fluctuation pairs walls,
    ContributesBody CodeArm env (aimingBody s t) i .fluctuation fluctuation ∧
    ContributesBody CodeArm env (aimingBody s t) i (.agentAgent (3.0 + 2 * 0.3)) pairs ∧
    (if .agentObstacle ∈ order then ContributesBody CodeArm env (aimingBody s t) i .agentObstacle walls
      else walls = 0) ∧
    d = fluctuation + pairs + walls

/-- `S 0, …, S N` are the states of a run of the shipped simulation with logic `e`, other than
`TestMovement` (number 11), with three-circle agents as assumed by `RegularBody`, that starts from `s`
without forces and torques; `order` is the order in which the nodes are updated. -/
structure ShippedBodyRun {n : ℕ} (env : SimEnv n) (e : LogicExpr) (order : List Node) (s : SimState n)
    (N : ℕ) (S : ℕ → SimState n) : Prop where
  shipped : ∃ (ratioObs width : ℝ) (k : ℕ), 1 ≤ (1 - ratioObs) * width ∧ k ≠ 11 ∧
    (shippedLogic ratioObs width env.field)[k]? = some e
  order : e.order = .ok order
  domain : env.field.domain ≠ none
  regular : RegularBody env [.agentAgent (3.0 + 2 * 0.3)] s
  start : ∀ i, (s.agents.rows i).force = 0 ∧ (s.agents.rows i).torque = 0
  completed : Completed (e.update env) none s N S
  cells : ∀ j < N, CellsWork env (S j)

/-- In the first `N` steps from `s` on, agent `i` is left alone: it stands still as to rotation in the
beginning, no random torque acts on it, and nobody and no wall comes near it. -/
structure LeftAlone {n : ℕ} (env : SimEnv n) (s : SimState n) (N : ℕ) (S : ℕ → SimState n)
    (i : Fin n) : Prop where
  still : (s.agents.rows i).angularVelocity = 0 ∧ (s.agents.rows i).torquePrev = 0
  calm : (s.agents.rows i).stdRandTorque = 0
  apart : ∀ j < N, BodyOutOfReach env (S j).agents.rows i

/-- The agent has the body of a shipped body type. -/
def HasShippedBody (a : Agent) : Prop :=
  ∃ z name, InTruncRange z ∧ name ∈ shippedNames ∧
    StoresBody a (construct bodyTypesCfg z [.bodyType name]).obj ∧
    a.targetAngularVelocity =
      (construct bodyTypesCfg z [.bodyType name]).obj.val .targetAngularVelocity

end

end CrowdDynamics.Spec
