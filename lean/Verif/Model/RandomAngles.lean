import Verif.Model.Motion

/-!
# Model of the angles drawn by `fluctuation.py` and `rand.py`

The other model files take drawn angles as arguments. Here they are computed from the numbers
in `[0, 1)` that the generator of numpy returns.
-/

namespace CrowdDynamics

noncomputable section

/-- `np.random.uniform(low, high)`, which is `low + (high - low) * u` for a number `u` of the
generator. Source: numpy, called in crowddynamics/core/motion/fluctuation.py:39,
crowddynamics/core/rand.py:36. -/
def uniformDraw (low high u : ℝ) : ℝ := low + (high - low) * u

/-- The angle `phi` of `force_fluctuation`.
Source: crowddynamics/core/motion/fluctuation.py:39. -/
def fluctuationAngle (u : ℝ) : ℝ := uniformDraw 0.0 (2.0 * Real.pi) u

/-- The default of the parameter `orient` of `random_vector`.
Source: crowddynamics/core/rand.py:35. -/
def randomVectorOrient : ℝ × ℝ := (0.0, 2.0 * Real.pi)

/-- `random_vector(size, orient, mag)`; `u` are the numbers of the generator, `size` of them.
Source: crowddynamics/core/rand.py:35-37 (`random_vector`). -/
def randomVectorDrawn (u : List ℝ) (orient : ℝ × ℝ) (mag : ℝ) : List Vec :=
  randomVector (u.map (uniformDraw orient.1 orient.2)) mag

/-- The node `Fluctuation` with the angles computed from the numbers `u` of the generator.
Source: crowddynamics/simulation/logic.py:78-86,
crowddynamics/core/motion/fluctuation.py:14-42. -/
def fluctuationDrawn {n : ℕ} (u : Fin n → ℝ) (z w : Fin n → ℝ → ℝ → ℝ)
    (agents : AgentArray n) : AgentArray n :=
  fluctuation (fun i => fluctuationAngle (u i)) z w agents

end

end CrowdDynamics
