import Verif.Model.Placement
import Verif.Model.BodyType
import Verif.Model.ShippedLogic

/-!
# Model of the agents of `crowddynamics/examples/validation.py`
-/

namespace CrowdDynamics

noncomputable section

/-- The attributes of the body that both test simulations pass to their agents.
Source: crowddynamics/examples/validation.py:26-34, 75-83 (`attributes`). -/
def validationBody : List BodyKw :=
  [.attr .ratioRt 0.5882, .attr .ratioRs 0.3725, .attr .ratioTs 0.6275, .attr .radius 0.255,
    .attr .targetVelocity 1.0, .attr .mass 73.5]

/-- `self.agent_type(**self.attributes(orientation))`: the body is constructed with its observers (no
random number is drawn, `z` is not used), the other attributes have no observers. Circular agents do not
have the attributes `orientation`, `angular_velocity` and `target_orientation`; the constructor of
`HasTraits` ignores them (with a warning).
Source: crowddynamics/examples/validation.py:26-39, 75-88 (`attributes`) and
crowddynamics/simulation/agents.py:600. -/
def validationMember (z : ℕ → ℝ → ℝ → ℝ) (kind : Kind) (orientation : ℝ) : Member :=
  let b := (construct bodyTypesCfg z validationBody).obj
  let agent := { Agent.default with
    radius := b.val .radius
    rT := b.val .rT
    rS := b.val .rS
    rTs := b.val .rTs
    mass := b.val .mass
    inertiaRot := b.val .inertiaRot
    targetVelocity := b.val .targetVelocity
    targetAngularVelocity := b.val .targetAngularVelocity
    velocity := (1.0 : ℝ) • unitVector orientation
    targetDirection := unitVector orientation }
  match kind with
  | .circular => ⟨agent, none, none⟩
  | .threeCircle => ⟨{ agent with
      orientation := orientation
      angularVelocity := 0.0
      targetOrientation := orientation }, none, none⟩

/-- A group of one agent. Source: crowddynamics/examples/validation.py:55-58, 110-113, 118-121. -/
def validationGroup (z : ℕ → ℝ → ℝ → ℝ) (kind : Kind) (orientation : ℝ) : Group :=
  ⟨kind, 1, [validationMember z kind orientation]⟩

/-- The agents of `TestMovement`. `lambda: np.array((0, 0))` always returns the same position; a group
of one asks for at most ten. Source: crowddynamics/examples/validation.py:19-24, 50-63
(`_observe_agents`). -/
def movementAgents (z : ℕ → ℝ → ℝ → ℝ) (kind : Kind) : Option AgentsState :=
  (AgentsState.init kind defaultPlacementCell).map fun st =>
    addGroups st [(validationGroup z kind 0.0, List.replicate 10 (0, 0), none)]

/-- The agents of `TestAgentInteraction`.
Source: crowddynamics/examples/validation.py:67-69, 105-126 (`_observe_agents`). -/
def interactionAgents (z : ℕ → ℝ → ℝ → ℝ) (kind : Kind) : Option AgentsState :=
  (AgentsState.init kind defaultPlacementCell).map fun st =>
    addGroups st [(validationGroup z kind 0.0, List.replicate 10 (0, 0), none),
      (validationGroup z kind Real.pi, List.replicate 10 (5, 0), none)]

end

end CrowdDynamics
