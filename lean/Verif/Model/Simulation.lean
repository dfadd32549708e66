import Verif.Model.Interactions
import Verif.Model.Motion
import Verif.Model.CollectiveMotion
import Verif.Model.Evacuation
import Verif.Model.Field
import Verif.Model.Logic

/-!
# Model of `crowddynamics/simulation/logic.py`, `crowddynamics/simulation/multiagent.py` and
`SimulationBase`

An action on the state of a simulation returns the outcome (`ok` or the exception) together with
the new state, because what was written before an exception stays written.
-/

namespace CrowdDynamics

noncomputable section

open Classical

/-- The dictionary `data` of a simulation, as far as the shipped nodes use it.
Source: crowddynamics/simulation/multiagent.py:44-48 and crowddynamics/simulation/logic.py:74-75,
347, 357. -/
structure SimData where
  /-- `data['iterations']` -/
  iterations : ℕ
  /-- `data['time_tot']` -/
  timeTot : ℝ
  /-- `data['dt']` -/
  dt : ℝ
  /-- `data['inactive']`; `none` if the key does not exist -/
  inactive : Option ℕ

/-- What the nodes of a running simulation change: the agents, the data, the caches of the field
and the number of calls of random generators.
Source: crowddynamics/simulation/multiagent.py:30-48. -/
structure SimState (n : ℕ) where
  /-- `agents.array` -/
  agents : AgentArray n
  /-- `data` -/
  data : SimData
  /-- the caches of the methods of `Field` -/
  caches : Caches
  /-- number of updates of `Fluctuation` so far (selects the random numbers) -/
  draws : ℕ

/-- The fixed surroundings of a simulation: its field, the libraries and the random numbers.
Source: the imports at crowddynamics/simulation/logic.py:1-29. -/
structure SimEnv (n : ℕ) where
  /-- all fields in the program (they share the caches) -/
  fields : ℕ → Field
  /-- the identity of `simulation.field` -/
  self : ℕ
  /-- libraries behind `navigation_to_target` -/
  lib : FieldLib
  /-- value of an undefined direction -/
  nan : Vec
  /-- the library `cell_lists` -/
  cellPairs : (Fin n → Vec) → ℝ → List (Fin n × Fin n)
  /-- `np.argsort` -/
  argsort : List ℝ → List ℕ
  /-- content of the memory outside of an array -/
  oob : ℤ → ℤ
  /-- `np.asarray(target)` -/
  asarray : Geom → Except PyErr (List Vec)
  /-- `Path(ring).contains_points` of matplotlib -/
  contains : List Vec → Vec → Bool
  /-- the numbers drawn by the `k`-th call of `force_fluctuation`: angles -/
  phi : ℕ → Fin n → ℝ
  /-- the numbers drawn by the `k`-th call of `force_fluctuation`: magnitudes, for the
  bounds given -/
  z : ℕ → Fin n → ℝ → ℝ → ℝ
  /-- the numbers drawn by the `k`-th call of `torque_fluctuation`, for the bounds given -/
  w : ℕ → Fin n → ℝ → ℝ → ℝ

/-- The field of the simulation. Source: crowddynamics/simulation/multiagent.py:30-33. -/
def SimEnv.field {n : ℕ} (env : SimEnv n) : Field := env.fields env.self

/-- A node of the logic tree with its parameters. `SaveSimulationData` only reads the simulation;
what it writes is modelled elsewhere, here only the exception it ends with, if any.
Source: crowddynamics/simulation/logic.py:59-387. -/
inductive Node where
  /-- `LogicNode` itself, whose `update` is not implemented -/
  | abstract
  /-- `Reset` -/
  | reset
  /-- `Integrator` -/
  | integrator (dtMin dtMax : ℝ)
  /-- `Fluctuation` -/
  | fluctuation
  /-- `Adjusting` -/
  | adjusting
  /-- `AgentAgentInteractions` -/
  | agentAgent (cellSize : ℝ)
  /-- `AgentObstacleInteractions` -/
  | agentObstacle
  /-- `Navigation` -/
  | navigation (step radius strength : ℝ)
  /-- `LeaderFollower` -/
  | leaderFollower (sight : ℝ)
  /-- `LeaderFollowerWithHerding` -/
  | herding (sightFollower : ℝ) (sizeNearestOther : ℕ)
  /-- `ExitDetection` -/
  | exitDetection (detectionRange : ℝ)
  /-- `Orientation` -/
  | orientation
  /-- `SaveSimulationData` -/
  | save (outcome : ℕ → Option PyErr)
  /-- `InsideDomain`, with the ring `domain_path` -/
  | insideDomain (path : List Vec)
  /-- `TargetReached` with the rings of its `paths` -/
  | targetReached (paths : List (List Vec))

/-- Outcome of an action together with the new state.
Source: `raise` and in-place changes in crowddynamics/simulation/logic.py:59-387. -/
abbrev Step (n : ℕ) : Type := Except PyErr Unit × SimState n

/-- The state with other agents. Source: the in-place changes of `agents` in
crowddynamics/simulation/logic.py:59-261. -/
def SimState.withRows {n : ℕ} (s : SimState n) (rows : Crowd n) : SimState n :=
  ⟨⟨s.agents.dtype, rows⟩, s.data, s.caches, s.draws⟩

/-- Source: crowddynamics/simulation/logic.py:59-64 (`Reset.update`). -/
def resetUpdate {n : ℕ} (agents : AgentArray n) : AgentArray n :=
  let rows : Crowd n := fun i => { agents.rows i with force := (0, 0) }
  if isModel agents .threeCircle then
    { agents with rows := fun i => { rows i with torque := 0 } }
  else { agents with rows := rows }

/-- Source: crowddynamics/simulation/logic.py:71-75 (`Integrator.update`). -/
def integratorUpdate {n : ℕ} (dtMin dtMax : ℝ) (s : SimState n) : SimState n :=
  let r := velocityVerletIntegrator s.agents dtMin dtMax
  { s with agents := r.2, data := { s.data with dt := r.1, timeTot := s.data.timeTot + r.1 } }

/-- The obstacles as line segments: `AgentObstacleInteractions` makes the test for `None` itself,
the other nodes leave it to `geom_to_linear_obstacles`, with the same result.
Source: crowddynamics/simulation/logic.py:125-129, 179, 217, 249. -/
def obstaclesOf {n : ℕ} (env : SimEnv n) : Except PyErr (List Wall) :=
  match env.field.obstacles with
  | none => .ok []
  | some g => geomToLinearObstacles (some g)

/-- The loop of `Navigation.update` over the targets, with the caches.
Source: crowddynamics/simulation/logic.py:153-165. -/
def navigationLoop {n : ℕ} (env : SimEnv n) (step radius strength : ℝ) :
    List ℕ → SimState n → Step n
  | [], s => (.ok (), s)
  | target :: rest, s =>
    if n = 0 then navigationLoop env step radius strength rest s -- `not has_target.size`
    else
      match Field.navigationToTarget env.lib env.fields env.self (.int target) step radius strength
        s.caches with
      | (.error e, c) => (.error e, { s with caches := c })
      | (.ok r, c) =>
        let rows : Crowd n := fun k =>
          if (s.agents.rows k).target = (target : ℤ) then
            let index := r.1.index (s.agents.rows k).position
            { s.agents.rows k with
              targetDirection := getdefaultRow env.nan (index.2, index.1) r.2.2
                (s.agents.rows k).targetDirection }
          else s.agents.rows k
        navigationLoop env step radius strength rest ({ s with caches := c }.withRows rows)

/-- `np.asarray(target)` for all targets. Source: crowddynamics/simulation/logic.py:247-248. -/
def targetArrays {n : ℕ} (env : SimEnv n) : List Geom → Except PyErr (List (List Vec))
  | [] => .ok []
  | g :: gs => do
    let a ← env.asarray g
    let b ← targetArrays env gs
    .ok (a :: b)

/-- Source: crowddynamics/simulation/logic.py:350-357 (`InsideDomain.update`). -/
def insideDomainUpdate {n : ℕ} (contains : Vec → Bool) (s : SimState n) : Step n :=
  let newState : Fin n → Bool := fun i => contains (s.agents.rows i).position
  let change : Fin n → Bool := fun i => xor (s.agents.rows i).active (newState i)
  let s' := s.withRows fun i => { s.agents.rows i with active := newState i }
  match s.data.inactive with
  | none => (.error .key, s')
  | some k => (.ok (), { s' with data := { s.data with
      inactive := some (k + ((List.finRange n).filter change).length) } })

/-- The method `update` of a node.
Source: crowddynamics/simulation/logic.py:54-55, 59-64, 71-75, 79-86, 90-94, 118-119, 123-130,
149-165, 175-182, 210-221, 243-255, 259-261, 329-337, 350-357, 382-387. -/
def Node.update {n : ℕ} (env : SimEnv n) : Node → SimState n → Step n
  | .abstract, s => (.error .notImplemented, s)
  | .reset, s => (.ok (), { s with agents := resetUpdate s.agents })
  | .integrator dtMin dtMax, s => (.ok (), integratorUpdate dtMin dtMax s)
  | .fluctuation, s => (.ok (), { s with
      agents := CrowdDynamics.fluctuation (env.phi s.draws) (env.z s.draws) (env.w s.draws) s.agents
      draws := s.draws + 1 })
  | .adjusting, s => (.ok (), { s with agents := CrowdDynamics.adjusting s.agents })
  | .agentAgent cellSize, s =>
    match agentAgentBlockList env.cellPairs s.agents cellSize with
    | none => (.error .invalidType, s)
    | some a => (.ok (), { s with agents := a })
  | .agentObstacle, s =>
    match obstaclesOf env with
    | .error e => (.error e, s)
    | .ok obstacles =>
      match CrowdDynamics.agentObstacle s.agents obstacles with
      | none => (.error .invalidType, s)
      | some a => (.ok (), { s with agents := a })
  | .navigation step radius strength, s =>
    navigationLoop env step radius strength (List.range env.field.targets.length) s
  | .leaderFollower sight, s =>
    match obstaclesOf env with
    | .error e => (.error e, s)
    | .ok obstacles =>
      (.ok (), s.withRows (leaderFollowerUpdate env.oob env.argsort obstacles sight s.agents.rows))
  | .herding sight size, s =>
    match obstaclesOf env with
    | .error e => (.error e, s)
    | .ok obstacles =>
      match leaderFollowerWithHerdingUpdate env.oob env.argsort env.cellPairs obstacles sight size
        s.agents.rows with
      | none => (.error .value, s)
      | some rows => (.ok (), s.withRows rows)
  | .exitDetection range, s =>
    match targetArrays env env.field.targets with
    | .error e => (.error e, s)
    | .ok arrays =>
      if arrays = [] then (.error .value, s)
      else match obstaclesOf env with
        | .error e => (.error e, s)
        | .ok obstacles =>
          match exitDetectionUpdate arrays obstacles range s.agents.rows with
          | none => (.error .value, s)
          | some rows => (.ok (), s.withRows rows)
  | .orientation, s => (.ok (), { s with agents := orientationUpdate s.agents })
  | .save outcome, s =>
    match outcome s.data.iterations with
    | none => (.ok (), s)
    | some e => (.error e, s)
  | .insideDomain path, s => insideDomainUpdate (env.contains path) s
  | .targetReached paths, s =>
    -- `contains_points` of a structured array
    if paths = [] then (.ok (), s) else (.error .type, s)

/-- `for node in …: node.update()`. Source: crowddynamics/simulation/multiagent.py:53-54. -/
def updateNodes {n : ℕ} (env : SimEnv n) : List Node → SimState n → Step n
  | [], s => (.ok (), s)
  | node :: rest, s =>
    match node.update env s with
    | (.error e, s) => (.error e, s)
    | (.ok (), s) => updateNodes env rest s

/-- Source: crowddynamics/simulation/multiagent.py:51-55 (`MultiAgentSimulation.update`). `kind`
gives the node with a number, `root` is the tree that contains `simulation.logic`. -/
def simUpdate {n : ℕ} (env : SimEnv n) (kind : ℕ → Node) (root : LTree) (s : SimState n) : Step n :=
  match updateNodes env (root.postorder.map kind) s with
  | (.error e, s) => (.error e, s)
  | (.ok (), s) => (.ok (), { s with data := { s.data with iterations := s.data.iterations + 1 } })

/-- `SimulationBase.run`: the exit condition may depend on the simulation and on the time, so it
also gets the number of its call; it is assumed not to change the simulation and not to raise.
`none` means that `fuel` updates did not suffice.
Source: crowddynamics/simulation/base.py:123-126 (`run`). -/
def simRun {σ : Type} (update : σ → Except PyErr Unit × σ) (exit : Option (ℕ → σ → Bool)) :
    ℕ → ℕ → σ → Option (Except PyErr Unit × σ)
  | 0, _, _ => none
  | fuel + 1, call, s =>
    if exit.elim false (fun c => c call s) then some (.ok (), s)
    else
      match update s with
      | (.error e, s) => some (.error e, s)
      | (.ok (), s) => simRun update exit fuel (call + 1) s

/-- An element of the queue: something put there by a node, or the marker `EndProcess`.
Source: crowddynamics/simulation/multiagent.py:62-63, 95. -/
inductive QueueItem (α : Type) where
  /-- something else -/
  | item (x : α)
  /-- `EndProcess` -/
  | endProcess
  deriving DecidableEq

/-- `MultiAgentProcess.run`: the state is the simulation with the queue and the event `exit`. The
event is set by other processes at the times given by `stopped`. The answer is the outcome of
`run`, the event and the queue; `none` if the simulation does not end within `fuel` updates.
Source: crowddynamics/simulation/multiagent.py:83-100 (`run`, `stop`). -/
def processRun {σ α : Type} (update : σ × List (QueueItem α) →
    Except PyErr Unit × (σ × List (QueueItem α))) (stopped : ℕ → Bool) (fuel : ℕ)
    (s : σ × List (QueueItem α)) : Option (Except PyErr Unit × Bool × σ × List (QueueItem α)) :=
  match simRun update (some fun call _ => stopped call) fuel 0 s with
  | none => none
  | some (.ok (), s) => some (.ok (), true, s.1, s.2 ++ [.endProcess])
  | some (.error e, s) =>
    if e.isCrowdDynamics then some (.ok (), true, s.1, s.2 ++ [.endProcess])
    else some (.error e, false, s.1, s.2)

/-- Source: crowddynamics/simulation/logic.py:343-348 (`InsideDomain.__init__`): the ring of the
domain and the new data. -/
def insideDomainInit (f : Field) (data : SimData) : Except PyErr Node × SimData :=
  let data := { data with inactive := some 0 }
  match f.domain with
  | none => (.error .attribute, data)
  | some d => (.ok (.insideDomain d.1), data)

/-- A piece of a template of `str.format`.
Source: crowddynamics/simulation/logic.py:364. -/
inductive Piece where
  /-- literal text -/
  | text (s : String)
  /-- `{name}` -/
  | named (name : String)

/-- `template.format(i)`: there is one positional and no named argument, so every named field
raises `KeyError`. Source: crowddynamics/simulation/logic.py:377. -/
def formatPositional (_i : ℕ) : List Piece → Except PyErr String
  | [] => .ok ""
  | .text s :: rest => do
    let r ← formatPositional _i rest
    .ok (s ++ r)
  | .named _ :: _ => .error .key

/-- `prefix = 'target_{index}'`. Source: crowddynamics/simulation/logic.py:364. -/
def targetPrefix : List Piece := [.text "target_", .named "index"]

/-- The loop of `TargetReached.__init__`: the counters added to `data` are pairs `(name, 0)`.
Source: crowddynamics/simulation/logic.py:375-381. -/
def targetReachedLoop : ℕ → List Geom → List (List Vec) → List (String × ℕ) →
    Except PyErr (Node × List (String × ℕ))
  | _, [], paths, data => .ok (.targetReached paths, data)
  | i, .polygon exterior _ :: rest, paths, data => do
    let name ← formatPositional i targetPrefix
    targetReachedLoop (i + 1) rest (paths ++ [exterior]) (data ++ [(name, 0)])
  | i, _ :: rest, paths, data => targetReachedLoop (i + 1) rest paths data

/-- Source: crowddynamics/simulation/logic.py:366-381 (`TargetReached.__init__`): the node and the
counters added to `data`. -/
def targetReachedInit (f : Field) : Except PyErr (Node × List (String × ℕ)) :=
  targetReachedLoop 0 f.targets [] []

end

end CrowdDynamics
