import Verif.Model.Interactions
import Verif.Model.ValidationTests

/-!
# Model of `crowddynamics/core/tests/test_interactions.py`
-/

namespace CrowdDynamics

noncomputable section

/-- What the strategy `testing.agents` draws for one agent of these tests.
Source: crowddynamics/core/tests/test_interactions.py:15-21 (`agent_attributes`). -/
structure InteractionDraw where
  /-- `radius` -/
  radius : ℝ
  /-- `mass` -/
  mass : ℝ
  /-- `positions`; there is no attribute of this name, that of agents is `position` -/
  positions : Vec
  /-- `velocity` -/
  velocity : Vec

/-- `np.array(agent_type(**attributes))` in the strategy `agents`. The body is constructed with its
observers, in the order of the attributes. The constructor of `HasTraits` (traitlets 4.3.2) passes
keywords that are not names of traits (`positions`) on to `object`, and turns the `TypeError` of
`object` into a `DeprecationWarning`; so the position keeps its default.
Source: crowddynamics/testing.py:121-123 (`agents`), crowddynamics/core/tests/test_interactions.py:15-21
and crowddynamics/simulation/agents.py:309-319 (`__array__`). -/
def interactionTestAgent (z : ℕ → ℝ → ℝ → ℝ) (kind : Kind) (d : InteractionDraw) : Agent :=
  let b := (construct bodyTypesCfg z
    [.attr .radius d.radius, .attr .mass d.mass, .bodyType "adult"]).obj
  let agent := { Agent.default with
    radius := b.val .radius
    rT := b.val .rT
    rS := b.val .rS
    rTs := b.val .rTs
    mass := b.val .mass
    inertiaRot := b.val .inertiaRot
    targetVelocity := b.val .targetVelocity
    targetAngularVelocity := b.val .targetAngularVelocity
    velocity := d.velocity }
  ((⟨agent, none, none⟩ : Member).touch kind).row

/-- The array that the strategy `agents` returns.
Source: crowddynamics/testing.py:116-125. -/
def interactionTestArray {n : ℕ} (z : Fin n → ℕ → ℝ → ℝ → ℝ) (kind : Kind)
    (d : Fin n → InteractionDraw) : Crowd n :=
  fun i => interactionTestAgent (z i) kind (d i)

/-- The array after the call of the tested function in `test_agent_interactions_circular` and
`test_agent_interactions_three_circle`.
Source: crowddynamics/core/tests/test_interactions.py:26-39. -/
def testAgentInteractions : Kind → Crowd 2 → Crowd 2
  | .circular => interactionAgentAgentCircular 0 1
  | .threeCircle => interactionAgentAgentThreeCircle 0 1

/-- Source: crowddynamics/core/tests/test_interactions.py:14. -/
def testCellSize : ℝ := 3.6

/-- The array after the call of the tested function in `test_agent_block_list_circular` and
`test_agent_block_list_three_circle`. Source: crowddynamics/core/tests/test_interactions.py:42-55. -/
def testAgentBlockList {n : ℕ} (cellPairs : (Fin n → Vec) → ℝ → List (Fin n × Fin n)) (kind : Kind)
    (agents : Crowd n) : Option (AgentArray n) :=
  agentAgentBlockList cellPairs ⟨.const kind, agents⟩ testCellSize

/-- The wall that is drawn: the elements are pairs of numbers, and numpy fills both coordinates of an
end with the same number.
Source: crowddynamics/core/tests/test_interactions.py:63-65, 74-76 (`elements`) and
crowddynamics/core/structures.py:6-9 (`obstacle_type_linear`). -/
def testWall (p : ℝ × ℝ) : Wall := ⟨(p.1, p.1), (p.2, p.2)⟩

/-- The array after the call of the tested function in `test_agent_circular_obstacle` and
`test_agent_three_circle_obstacle`. Source: crowddynamics/core/tests/test_interactions.py:60-79. -/
def testAgentObstacle (kind : Kind) (agents : Crowd 1) (p : ℝ × ℝ) : Crowd 1 :=
  match kind with
  | .circular => agentCircularObstacle agents [testWall p]
  | .threeCircle => agentThreeCircleObstacle agents [testWall p]

end

end CrowdDynamics
