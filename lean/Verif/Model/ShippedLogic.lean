import Verif.Model.Simulation

/-!
# Model of the logic trees of the shipped simulations

`crowddynamics/examples/simulations.py`, `collective_motion.py` and `validation.py` write the logic
as an expression made of constructor calls and the operator `<<`. The expressions are data here and
`LogicExpr.eval` evaluates them like Python does: left operand first, then the right operand, then
`LogicNodeBase.__lshift__`. New nodes get the next number.
-/

namespace CrowdDynamics

noncomputable section

/-- A call of the constructor of a node. Source: for example
crowddynamics/examples/simulations.py:125-134 (`Reset(self)`, `InsideDomain(self)`) and
crowddynamics/examples/collective_motion.py:236-237 (`ExitDetection(self, detection_range=…)`). -/
inductive NodeCall where
  /-- a constructor that only stores the simulation -/
  | plain (node : Node)
  /-- `InsideDomain(self)` for a simulation with this field -/
  | insideDomain (f : Field)
  /-- `ExitDetection(self, detection_range=range)` -/
  | exitDetection (range : ℝ)

open Classical in
/-- Running a constructor. `detection_range` is a float with minimum 1, a smaller value raises
`TraitError`. Source: crowddynamics/simulation/logic.py:49-51, 237-241, 343-348. -/
def NodeCall.run : NodeCall → SimData → Except PyErr Node × SimData
  | .plain node, data => (.ok node, data)
  | .insideDomain f, data => insideDomainInit f data
  | .exitDetection range, data =>
    if range < 1 then (.error .other, data) else (.ok (.exitDetection range), data)

/-- An expression for a logic tree: a new node, or `left << (right, …)`.
Source: the expressions in the methods `_default_logic` of
crowddynamics/examples/simulations.py, collective_motion.py and validation.py.
Source: crowddynamics/examples/simulations.py:48-281, crowddynamics/examples/collective_motion.py:66-511 and crowddynamics/examples/validation.py:42-100. -/
inductive LogicExpr where
  /-- a call of a constructor -/
  | new (call : NodeCall)
  /-- `left << right` for a tuple `right` (a single node is a tuple of one) -/
  | shift (left : LogicExpr) (right : List LogicExpr)

/-- What the evaluation of an expression changes: the nodes made so far (the number of a node is its
index), the forest they form, and the data of the simulation.
Source: crowddynamics/simulation/base.py:26-73. -/
structure BuildState where
  /-- all nodes -/
  nodes : List Node
  /-- the trees -/
  forest : List LTree
  /-- `simulation.data` -/
  data : SimData

mutual

/-- Evaluation; the value is the number of a node (`__lshift__` returns `self`).
Source: crowddynamics/simulation/base.py:52-73. -/
def LogicExpr.eval : LogicExpr → BuildState → Except PyErr ℕ × BuildState
  | .new call, s =>
    match call.run s.data with
    | (.error e, data) => (.error e, { s with data := data })
    | (.ok node, data) =>
      (.ok s.nodes.length, ⟨s.nodes ++ [node], s.forest ++ [.node s.nodes.length []], data⟩)
  | .shift left right, s =>
    match left.eval s with
    | (.error e, s) => (.error e, s)
    | (.ok self, s) =>
      match evalAll right s with
      | (.error e, s) => (.error e, s)
      | (.ok others, s) =>
        match lshift self others s.forest with
        | (.error e, forest) => (.error e, { s with forest := forest })
        | (.ok _, forest) => (.ok self, { s with forest := forest })

/-- Evaluation of a tuple. Source: crowddynamics/simulation/base.py:52-73. -/
def evalAll : List LogicExpr → BuildState → Except PyErr (List ℕ) × BuildState
  | [], s => (.ok [], s)
  | e :: rest, s =>
    match e.eval s with
    | (.error err, s) => (.error err, s)
    | (.ok k, s) =>
      match evalAll rest s with
      | (.error err, s) => (.error err, s)
      | (.ok ks, s) => (.ok (k :: ks), s)

end

/-- The data of a new simulation. Source: crowddynamics/simulation/multiagent.py:44-48. -/
def newData : SimData := ⟨0, 0, 0, none⟩

/-- Evaluation of the expression in `_default_logic` in a new simulation: the root of the tree of the
result, and the state. Source: crowddynamics/simulation/multiagent.py:34-37, 53. -/
def LogicExpr.build (e : LogicExpr) : Except PyErr (Option LTree) × BuildState :=
  match e.eval ⟨[], [], newData⟩ with
  | (.error err, s) => (.error err, s)
  | (.ok k, s) => (.ok (rootOf k s.forest), s)

/-- The nodes in the order in which an update runs them.
Source: crowddynamics/simulation/multiagent.py:53-54. -/
def LogicExpr.order (e : LogicExpr) : Except PyErr (List Node) :=
  match e.build with
  | (.error err, _) => .error err
  | (.ok none, _) => .error .attribute
  | (.ok (some root), s) => .ok (root.postorder.map fun i => s.nodes.getD i .abstract)

/-- `MultiAgentSimulation.update` of a simulation with this logic.
Source: crowddynamics/simulation/multiagent.py:51-55. -/
def LogicExpr.update {n : ℕ} (e : LogicExpr) (env : SimEnv n) (s : SimState n) : Step n :=
  match e.build with
  | (.error err, _) => (.error err, s)
  | (.ok none, _) => (.error .attribute, s)
  | (.ok (some root), b) => simUpdate env (fun i => b.nodes.getD i .abstract) root s

/-! ## Constructor calls with the default parameters -/

/-- `Reset(self)`. Source: crowddynamics/simulation/logic.py:59. -/
def callReset : LogicExpr := .new (.plain .reset)

/-- `Integrator(self)`. Source: crowddynamics/simulation/logic.py:67-69. -/
def callIntegrator : LogicExpr := .new (.plain (.integrator 0.01 0.01))

/-- `Fluctuation(self)`. Source: crowddynamics/simulation/logic.py:78. -/
def callFluctuation : LogicExpr := .new (.plain .fluctuation)

/-- `Adjusting(self)`. Source: crowddynamics/simulation/logic.py:89. -/
def callAdjusting : LogicExpr := .new (.plain .adjusting)

/-- `AgentAgentInteractions(self)`. Source: crowddynamics/simulation/logic.py:97-116. -/
def callAgentAgent : LogicExpr := .new (.plain (.agentAgent (3.0 + 2 * 0.3)))

/-- `AgentObstacleInteractions(self)`. Source: crowddynamics/simulation/logic.py:122. -/
def callAgentObstacle : LogicExpr := .new (.plain .agentObstacle)

/-- `Navigation(self)`. Source: crowddynamics/simulation/logic.py:135-147. -/
def callNavigation : LogicExpr := .new (.plain (.navigation 0.1 0.5 0.3))

/-- `LeaderFollower(self)`. Source: crowddynamics/simulation/logic.py:168-173. -/
def callLeaderFollower : LogicExpr := .new (.plain (.leaderFollower 20.0))

/-- `LeaderFollowerWithHerding(self)`. Source: crowddynamics/simulation/logic.py:185-195. -/
def callHerding : LogicExpr := .new (.plain (.herding 10.0 5))

/-- `ExitDetection(self)`. Source: crowddynamics/simulation/logic.py:237-241. -/
def callExitDetection : LogicExpr := .new (.exitDetection 20.0)

/-- `Orientation(self)`. Source: crowddynamics/simulation/logic.py:258. -/
def callOrientation : LogicExpr := .new (.plain .orientation)

/-- `InsideDomain(self)`. Source: crowddynamics/simulation/logic.py:341-348. -/
def callInsideDomain (f : Field) : LogicExpr := .new (.insideDomain f)

/-! ## The expressions -/

/-- `Outdoor` and `TestAgentInteraction`. Source: crowddynamics/examples/simulations.py:49-53 and
crowddynamics/examples/validation.py:93-99. -/
def walkLogic : LogicExpr :=
  .shift callReset [.shift callIntegrator [callFluctuation,
    .shift callAdjusting [callOrientation], callAgentAgent]]

/-- `Hallway`, `RoomWithOneExit` and `FourExitsRandomPlacing`. The operator associates to the left.
Source: crowddynamics/examples/simulations.py:125-136, 203-214, 272-280. -/
def navigationLogic (f : Field) : LogicExpr :=
  .shift (.shift callReset [callInsideDomain f]) [.shift callIntegrator [callFluctuation,
    .shift callAdjusting [callNavigation, callOrientation], callAgentAgent, callAgentObstacle]]

/-- `Outdoor` with leaders. Source: crowddynamics/examples/collective_motion.py:67-73. -/
def herdingLogic : LogicExpr :=
  .shift callReset [.shift callIntegrator [callFluctuation,
    .shift callAdjusting [callHerding, callOrientation], callAgentAgent]]

/-- `Rounding`. Source: crowddynamics/examples/collective_motion.py:146-154. -/
def roundingLogic (f : Field) : LogicExpr :=
  .shift (.shift callReset [callInsideDomain f]) [.shift callIntegrator [callFluctuation,
    .shift callAdjusting [.shift callNavigation [callHerding], callOrientation],
    callAgentAgent, callAgentObstacle]]

/-- `AvoidObstacle`. Source: crowddynamics/examples/collective_motion.py:231-240. -/
def avoidObstacleLogic (ratioObs width : ℝ) (f : Field) : LogicExpr :=
  .shift (.shift callReset [callInsideDomain f]) [.shift callIntegrator [callFluctuation,
    .shift callAdjusting [.shift (.shift callNavigation
      [.new (.exitDetection ((1 - ratioObs) * width))]) [callHerding], callOrientation],
    callAgentAgent, callAgentObstacle]]

/-- `ClosedRoom` and `AroundCircle`. Source: crowddynamics/examples/collective_motion.py:311-318 and
363-370. -/
def closedRoomLogic : LogicExpr :=
  .shift callReset [.shift callIntegrator [callFluctuation,
    .shift callAdjusting [callHerding, callOrientation], callAgentAgent, callAgentObstacle]]

/-- `FourExitsRandomPlacing` and `FourExitsFixedPlacing` with leaders.
Source: crowddynamics/examples/collective_motion.py:427-435, 502-510. -/
def fourExitsLogic (f : Field) : LogicExpr :=
  .shift (.shift callReset [callInsideDomain f]) [.shift callIntegrator [callFluctuation,
    .shift callAdjusting [.shift (.shift callNavigation [callExitDetection])
      [callLeaderFollower], callOrientation],
    callAgentAgent, callAgentObstacle]]

/-- `TestMovement`. Source: crowddynamics/examples/validation.py:43-44. -/
def testMovementLogic : LogicExpr :=
  .shift (.shift (.shift callReset [callIntegrator]) [callAdjusting]) [callOrientation]

/-- The shipped simulations with a logic, by number: those of `simulations.py` (0 to 3), of
`collective_motion.py` (4 to 10; `AvoidPillar` has no logic) and of `validation.py` (11, 12).
Source: crowddynamics/examples/simulations.py:18, 74, 166, 239,
crowddynamics/examples/collective_motion.py:18, 104, 183, 271, 347, 387, 464 and
crowddynamics/examples/validation.py:17, 66. -/
def shippedLogic (ratioObs width : ℝ) (f : Field) : List LogicExpr :=
  [walkLogic, navigationLogic f, navigationLogic f, navigationLogic f,
    herdingLogic, roundingLogic f, avoidObstacleLogic ratioObs width f, closedRoomLogic,
    closedRoomLogic, fourExitsLogic f, fourExitsLogic f, testMovementLogic, walkLogic]

/-! ## Simulations without agents or logic -/

/-- `node.update()` in a simulation whose `agents` is `None`: every node reads
`self.simulation.agents.array` before anything that can raise or change something.
Source: crowddynamics/simulation/logic.py:54-55, 61, 72, 80, 91, 119, 128, 150, 176, 211, 252, 260,
351; `AgentObstacleInteractions` and `ExitDetection` read the field first, `SaveSimulationData` and
`TargetReached` are not used by a shipped simulation. -/
def Node.updateWithoutAgents : Node → Except PyErr Unit
  | .abstract => .error .notImplemented
  | .save outcome => match outcome 0 with
    | none => .ok ()
    | some e => .error e
  | _ => .error .attribute

/-- `for node in …: node.update()` without agents. Source: crowddynamics/simulation/multiagent.py:53-54. -/
def updateNodesWithoutAgents : List Node → Except PyErr Unit
  | [] => .ok ()
  | node :: rest =>
    match node.updateWithoutAgents with
    | .error e => .error e
    | .ok () => updateNodesWithoutAgents rest

/-- The first `update` of a simulation whose `agents` is `None`. `none` for the logic is `None`, which
has no attribute `root`. Source: crowddynamics/simulation/multiagent.py:51-55. -/
def updateWithoutAgents : Option LogicExpr → Except PyErr Unit
  | none => .error .attribute
  | some e =>
    match e.order with
    | .error err => .error err
    | .ok nodes => updateNodesWithoutAgents nodes

/-- The logic of the simulations whose `agents` is `None`: `AroundCircle` (its `_default_agents`
returns nothing) and `AvoidPillar` (which defines nothing, so all traits have the default `None`).
Source: crowddynamics/examples/collective_motion.py:347-384. -/
def agentlessLogic : List (Option LogicExpr) := [some closedRoomLogic, none]

end

end CrowdDynamics
