import Verif.Model.Placement
import Verif.Model.BodyType
import Verif.Model.ExampleFields

/-!
# Model of the agents of the two simulations `Outdoor`
-/

namespace CrowdDynamics

noncomputable section

/-- What is drawn for one agent: the numbers from the truncated normal distribution and the number from
`np.random.uniform(-np.pi, np.pi)`. Source: crowddynamics/examples/simulations.py:37,
crowddynamics/examples/collective_motion.py:52 and crowddynamics/simulation/agents.py:132-134. -/
structure OutdoorDraw where
  /-- the numbers drawn by `truncnorm` -/
  z : ℕ → ℝ → ℝ → ℝ
  /-- the number drawn by `np.random.uniform` -/
  uniform : ℝ

/-- `agent_type(**attributes())` with the attributes that the functions `attributes` of the two
simulations return. Circular agents do not have the attributes `orientation`, `angular_velocity` and
`target_orientation`; the constructor of `HasTraits` ignores them (with a warning).
Source: crowddynamics/examples/simulations.py:36-45, crowddynamics/examples/collective_motion.py:47-64
and crowddynamics/simulation/agents.py:600. -/
def outdoorMember (kind : Kind) (bodyType : String) (isLeader isFollower : Bool)
    (z : ℕ → ℝ → ℝ → ℝ) (orientation : ℝ) : Member :=
  let b := (construct bodyTypesCfg z [.bodyType bodyType]).obj
  let agent := { Agent.default with
    isLeader := isLeader
    isFollower := isFollower
    radius := b.val .radius
    rT := b.val .rT
    rS := b.val .rS
    rTs := b.val .rTs
    mass := b.val .mass
    inertiaRot := b.val .inertiaRot
    targetVelocity := b.val .targetVelocity
    targetAngularVelocity := b.val .targetAngularVelocity
    velocity := (1.0 : ℝ) • unitVector orientation
    targetDirection := unitVector orientation }
  match kind with
  | .circular => ⟨agent, none, none⟩
  | .threeCircle => ⟨{ agent with
      orientation := orientation
      angularVelocity := 0.0
      targetOrientation := orientation }, none, none⟩

/-- The agents of `Outdoor` of `simulations.py`; `gen` are the positions drawn by the generator.
Source: crowddynamics/examples/simulations.py:36-45, 59-71 (`attributes`, `_default_agents`). -/
def outdoorAgents (kind : Kind) (bodyType : String) (draws : List OutdoorDraw) (gen : List Vec) :
    Option AgentsState :=
  (AgentsState.init kind defaultPlacementCell).map fun st =>
    addGroups st [(⟨kind, draws.length, draws.map fun d =>
      outdoorMember kind bodyType false false d.z d.uniform⟩, gen, none)]

/-- The orientation of an agent of `Outdoor` with a leader.
Source: crowddynamics/examples/collective_motion.py:49-52. -/
def outdoorOrientation (isLeader : Bool) (d : OutdoorDraw) : ℝ :=
  if isLeader then 0.0 else d.uniform

/-- A group of `Outdoor` with a leader.
Source: crowddynamics/examples/collective_motion.py:47-64, 83-86, 93-96. -/
def outdoorGroup (kind : Kind) (bodyType : String) (isLeader : Bool) (draws : List OutdoorDraw) :
    Group :=
  ⟨kind, draws.length, draws.map fun d =>
    outdoorMember kind bodyType isLeader (!isLeader) d.z (outdoorOrientation isLeader d)⟩

/-- The agents of `Outdoor` of `collective_motion.py`. The position of the leaders is constant; eleven
positions for each of them are more than the call can ask for (C17).
Source: crowddynamics/examples/collective_motion.py:79-101 (`_default_agents`). -/
def outdoorLedAgents (kind : Kind) (bodyType : String) (width height horizontalRatio verticalRatio : ℝ)
    (leaders herding : List OutdoorDraw) (gen : List Vec) : Option AgentsState :=
  (AgentsState.init kind defaultPlacementCell).map fun st =>
    addGroups st [
      (outdoorGroup kind bodyType true leaders, List.replicate (11 * leaders.length)
        (horizontalRatio * width, verticalRatio * height), none),
      (outdoorGroup kind bodyType false herding, gen, none)]

end

end CrowdDynamics
