import Verif.Model.CoreTests
import Verif.Model.Navigation
import Verif.Model.Simulation

/-!
# Time, grid and motion, with rounding after each operation

The functions of this file are those of `Verif.Model.Simulation`, `Verif.Model.Navigation` and
`Verif.Model.Integrator`, with the result of each arithmetic operation rounded by `rnd`; see
`Verif.Model.Rounded`.
-/

namespace CrowdDynamics

noncomputable section

open Classical Real

/-! ## The simulation time -/

/-- One update of a simulation, as far as `data['time_tot']` is concerned: `time_tot += dt`.
Source: crowddynamics/simulation/logic.py:75. -/
def timeUpdateF (rnd : ℝ → ℝ) (dt : ℝ) (timeTot : ℝ) : Except PyErr Unit × ℝ :=
  (.ok (), rnd (timeTot + dt))

/-- The time after `k` updates with the step `dt`, starting with `0.0`.
Source: crowddynamics/simulation/multiagent.py:47 and crowddynamics/simulation/logic.py:75. -/
def timeAfterF (rnd : ℝ → ℝ) (dt : ℝ) : ℕ → ℝ
  | 0 => 0
  | k + 1 => (timeUpdateF rnd dt (timeAfterF rnd dt k)).2

/-- `simulation.run(exit_condition=lambda s: s.data['time_tot'] >= limit)` of a simulation with the
constant step `dt`; only the time is recorded.
Source: crowddynamics/simulation/base.py:123-126 (`run`). -/
def runUntilF (rnd : ℝ → ℝ) (dt limit : ℝ) (fuel : ℕ) : Option (Except PyErr Unit × ℝ) :=
  simRun (timeUpdateF rnd dt) (some fun _ t => decide (limit ≤ t)) fuel 0 0

/-! ## The grid of the navigation -/

/-- `np.arange(start, stop, step)` for floats: the number of values is the rounded quotient, rounded up;
the first two values are `start` and `start + step`, and the others are computed from their
difference.
Source: the calls at crowddynamics/core/steering/quickest_path.py:36-37. -/
def arangeF (rnd : ℝ → ℝ) (start stop step : ℝ) : List ℝ :=
  let next := rnd (start + step)
  let delta := rnd (next - start)
  (List.range ⌈rnd (rnd (stop - start) / step)⌉.toNat).map fun k : ℕ =>
    if k = 0 then start else if k = 1 then next else rnd (start + rnd (k * delta))

/-- Source: crowddynamics/core/steering/quickest_path.py:22-49 (`meshgrid`), with rounding. -/
def meshgridF (rnd : ℝ → ℝ) (step minx miny maxx maxy : ℝ) : MeshGrid :=
  let x := arangeF rnd minx (rnd (maxx + step)) step
  let y := arangeF rnd miny (rnd (maxy + step)) step
  let vx : Grid ℝ := ⟨y.length, x.length, fun _ j => x.getD j 0⟩
  let vy : Grid ℝ := ⟨y.length, x.length, fun i _ => y.getD i 0⟩
  { x := vx
    y := vy
    shape := (vx.rows, vx.cols)
    step := step
    bounds := (minx, miny, maxx, maxy)
    index := fun position =>
      (truncInt (rnd (rnd (position.1 - minx) / step)),
        truncInt (rnd (rnd (position.2 - miny) / step))) }

/-! ## Motion -/

/-- `a / 2 * dt ** 2` for one component. Source: crowddynamics/core/integrator.py:107-108,
175-176. -/
def halfSquareF (rnd : ℝ → ℝ) (dt a : ℝ) : ℝ := rnd (rnd (a / 2) * rnd (dt * dt))

/-- Body of the loop in `translational_euler`, with rounding.
Source: crowddynamics/core/integrator.py:105-109. -/
def translationalEulerRowF (rnd : ℝ → ℝ) (dt : ℝ) (agent : Agent) : Agent :=
  let a : Vec := (rnd (agent.force.1 / agent.mass), rnd (agent.force.2 / agent.mass))
  let move := fun x v a : ℝ => rnd (x + rnd (rnd (v * dt) + halfSquareF rnd dt a))
  { agent with
    position := (move agent.position.1 agent.velocity.1 a.1,
      move agent.position.2 agent.velocity.2 a.2)
    velocity := (rnd (agent.velocity.1 + rnd (a.1 * dt)),
      rnd (agent.velocity.2 + rnd (a.2 * dt))) }

/-- Body of the loop in `translational_verlet`, with rounding.
Source: crowddynamics/core/integrator.py:169-176. -/
def translationalVerletRowF (rnd : ℝ → ℝ) (dt : ℝ) (agent : Agent) : Agent :=
  let old : Vec := (rnd (agent.forcePrev.1 / agent.mass), rnd (agent.forcePrev.2 / agent.mass))
  let new : Vec := (rnd (agent.force.1 / agent.mass), rnd (agent.force.2 / agent.mass))
  let speed := fun v o w : ℝ => rnd (v + rnd (rnd (rnd (o + w) / 2) * dt))
  let velocity : Vec := (speed agent.velocity.1 old.1 new.1, speed agent.velocity.2 old.2 new.2)
  let move := fun x v a : ℝ => rnd (x + rnd (rnd (v * dt) + halfSquareF rnd dt a))
  { agent with
    forcePrev := agent.force
    velocity := velocity
    position := (move agent.position.1 velocity.1 new.1, move agent.position.2 velocity.2 new.2) }

/-- Body of the loop in `rotational_euler`, with rounding.
Source: crowddynamics/core/integrator.py:116-121. -/
def rotationalEulerRowF (rnd : ℝ → ℝ) (dt : ℝ) (agent : Agent) : Agent :=
  let a := rnd (agent.torque / agent.inertiaRot)
  let orientation :=
    rnd (agent.orientation + rnd (rnd (agent.angularVelocity * dt) + halfSquareF rnd dt a))
  { agent with
    orientation := wrapToPiF rnd orientation
    angularVelocity := rnd (agent.angularVelocity + rnd (a * dt)) }

/-- Body of the loop in `rotational_verlet`, with rounding.
Source: crowddynamics/core/integrator.py:183-193. -/
def rotationalVerletRowF (rnd : ℝ → ℝ) (dt : ℝ) (agent : Agent) : Agent :=
  let old := rnd (agent.torquePrev / agent.inertiaRot)
  let new := rnd (agent.torque / agent.inertiaRot)
  let angularVelocity := rnd (agent.angularVelocity + rnd (rnd (rnd (old + new) / 2) * dt))
  let orientation :=
    rnd (agent.orientation + rnd (rnd (angularVelocity * dt) + halfSquareF rnd dt new))
  { agent with
    torquePrev := agent.torque
    angularVelocity := angularVelocity
    orientation := wrapToPiF rnd orientation }

end

end CrowdDynamics
