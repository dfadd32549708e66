import Verif.Model.Simulation

/-!
# Exit conditions
-/

namespace CrowdDynamics.Spec

open CrowdDynamics

open Classical in
/-- The exit condition `time_tot >= T`, which a user may set.
Source: crowddynamics/simulation/base.py:101-106 (`exit_condition`). -/
noncomputable def timeLimit {n : ℕ} (T : ℝ) : ℕ → SimState n → Bool := fun _ s => decide (T ≤ s.data.timeTot)

/-- The exit condition `iterations == K`, as set by the tests of the examples.
Source: crowddynamics/examples/tests/test_simulations.py:18,
crowddynamics/examples/tests/test_validation.py:18, 32. -/
def iterationLimit {n : ℕ} (K : ℕ) : ℕ → SimState n → Bool := fun _ s => s.data.iterations == K

end CrowdDynamics.Spec
