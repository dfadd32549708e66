import Verif.Model.ValidationTests
import Verif.Model.Traits

/-!
# Model of `crowddynamics/examples/tests/test_validation.py`
-/

namespace CrowdDynamics

noncomputable section

/-- The assertion of both tests.
Source: crowddynamics/examples/tests/test_validation.py:22-24, 36-38. -/
def farEnough (expected : ℝ) (start stop : Vec) : Prop :=
  length (stop - start) ≥ expected ∨ npIsclose (length (stop - start)) expected

/-- `lambda s: s.data['iterations'] == 1000`.
Source: crowddynamics/examples/tests/test_validation.py:18, 32. -/
def thousandIterations {n : ℕ} : ℕ → SimState n → Bool := fun _ s => s.data.iterations == 1000

/-- The body of both tests: the simulation runs until the exit condition holds, without an exception,
and then the assertion about the first agent holds. `expected` is 10 in `test_movement` and 8 in
`test_agent_interaction`. `np.copy` protects the positions at the start from being overwritten.
Source: crowddynamics/examples/tests/test_validation.py:14-24, 28-38. -/
def runTest {n : ℕ} (update : SimState (n + 1) → Step (n + 1)) (expected : ℝ) (s : SimState (n + 1)) :
    Prop :=
  ∃ fuel t, simRun update (some thousandIterations) fuel 0 s = some (.ok (), t) ∧
    farEnough expected (s.agents.rows 0).position (t.agents.rows 0).position

end

end CrowdDynamics
