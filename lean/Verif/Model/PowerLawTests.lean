import Verif.Model.PowerLaw
import Verif.Model.ValidationTests

/-!
# Model of `crowddynamics/core/motion/tests/test_power_law_benchmark.py`
-/

namespace CrowdDynamics

noncomputable section

/-- The attributes that the tests set on an agent.
Source: crowddynamics/core/motion/tests/test_power_law_benchmark.py:14-22, 23-31, 42-50, 51-59. -/
structure TestAttributes where
  /-- `body_type` -/
  bodyType : String
  /-- `position` -/
  position : Vec
  /-- `orientation` and `target_orientation` -/
  orientation : ℝ
  /-- `velocity` and `target_direction` -/
  velocity : Vec

/-- `np.array(agent_type(**attributes))`: the body is constructed with its observers, the other
attributes have no observers. The attributes of the orientation are ignored by circular agents.
`angular_velocity` is 0, which is the default.
Source: crowddynamics/core/motion/tests/test_power_law_benchmark.py:14-32 (`agent_type(**{...})`,
`np.array`) and crowddynamics/simulation/agents.py:309-319 (`__array__`). -/
def testAgentByKeyword (z : ℕ → ℝ → ℝ → ℝ) (kind : Kind) (t : TestAttributes) : Agent :=
  let b := (construct bodyTypesCfg z [.bodyType t.bodyType]).obj
  let agent := { Agent.default with
    radius := b.val .radius
    rT := b.val .rT
    rS := b.val .rS
    rTs := b.val .rTs
    mass := b.val .mass
    inertiaRot := b.val .inertiaRot
    targetVelocity := b.val .targetVelocity
    targetAngularVelocity := b.val .targetAngularVelocity
    position := t.position
    velocity := t.velocity
    targetDirection := t.velocity }
  let member : Member := match kind with
    | .circular => ⟨agent, none, none⟩
    | .threeCircle =>
      ⟨{ agent with orientation := t.orientation, targetOrientation := t.orientation }, none, none⟩
  (member.touch kind).row

/-- `np.array(agent_type({...}))`: the dictionary is a positional argument. The constructor of
`HasTraits` (traitlets 4.3.2) sets attributes from keyword arguments only; it passes positional
arguments on to `object`, and turns the `TypeError` of `object` into a `DeprecationWarning`. So the
agent keeps its defaults.
Source: crowddynamics/core/motion/tests/test_power_law_benchmark.py:42, 51 (`agent_type({`). -/
def testAgentByPosition (kind : Kind) (_ : TestAttributes) : Agent :=
  ((⟨Agent.default, none, none⟩ : Member).touch kind).row

/-- The function that is tested with a type of agent.
Source: crowddynamics/core/motion/tests/test_power_law_benchmark.py:10-12, 38-40 (`parametrize`). -/
def testedForce : Kind → Agent → Agent → Vec × Vec
  | .circular => forceSocialCircular
  | .threeCircle => forceSocialThreeCircle

/-- Source: crowddynamics/core/motion/tests/test_power_law_benchmark.py:14-22, 42-50. -/
def testFirst : TestAttributes := ⟨"adult", (0.0, 0.0), 0.0, (1.0, 0.0)⟩

/-- Source: crowddynamics/core/motion/tests/test_power_law_benchmark.py:23-31. -/
def testSecondAlike : TestAttributes := ⟨"adult", (2.0, 0.0), 0.0, (1.0, 0.0)⟩

/-- Source: crowddynamics/core/motion/tests/test_power_law_benchmark.py:51-59. -/
def testSecondOpposite : TestAttributes := ⟨"adult", (2.0, 0.0), Real.pi, (-1.0, 0.0)⟩

/-- The assertions of `test_not_colliding`; each agent draws its own random numbers.
Source: crowddynamics/core/motion/tests/test_power_law_benchmark.py:13-35. -/
def testNotColliding (z z' : ℕ → ℝ → ℝ → ℝ) (kind : Kind) : Prop :=
  let f := testedForce kind (testAgentByKeyword z kind testFirst)
    (testAgentByKeyword z' kind testSecondAlike)
  length f.1 = 0 ∧ length f.2 = 0

/-- The assertions of `test_colliding`.
Source: crowddynamics/core/motion/tests/test_power_law_benchmark.py:41-63. -/
def testColliding (kind : Kind) : Prop :=
  let f := testedForce kind (testAgentByPosition kind testFirst)
    (testAgentByPosition kind testSecondOpposite)
  length f.1 > 0 ∧ length f.2 > 0

end

end CrowdDynamics
