import Verif.Model.Motion

/-!
# Model of the exponential draws of `poisson_clock` and `poisson_timings`

`Verif/Model/Motion.lean` takes the drawn intervals as arguments. Here they are computed from
the standard exponential numbers that the generator of numpy returns.
-/

namespace CrowdDynamics

noncomputable section

/-- `np.random.exponential(scale)`, which is `scale` times a standard exponential number `e` of
the generator. Source: numpy, called in crowddynamics/core/rand.py:93, 96. -/
def exponentialDraw (scale e : ℝ) : ℝ := scale * e

/-- `poisson_clock(interval, dt)`; `std` are the standard exponential numbers of successive
calls of the generator.
Source: crowddynamics/core/rand.py:41-96 (`poisson_clock`). -/
def poissonClockDrawn (std : ℕ → ℝ) (interval dt : ℝ) (fuel pos : ℕ) : Option (List ℝ × ℕ) :=
  poissonClock (fun i => exponentialDraw interval (std i)) dt fuel pos

/-- `poisson_timings(players, interval, dt)`.
Source: crowddynamics/core/rand.py:99-127 (`poisson_timings`). -/
def poissonTimingsDrawn (shuffle : List ℤ → List ℤ) (argsort : List ℝ → List ℕ) (std : ℕ → ℝ)
    (interval dt : ℝ) (fuel pos : ℕ) (players : List ℤ) : Option (List ℤ × List ℤ) :=
  poissonTimings shuffle argsort (fun i => exponentialDraw interval (std i)) dt fuel pos players

end

end CrowdDynamics
