import Verif.Model.IeeeContact
import Verif.Model.Integrator

/-!
# The integrators with infinities and NaN

The translational part of crowddynamics/core/integrator.py in the arithmetic of `Verif.Model.Ieee`.
-/

namespace CrowdDynamics

noncomputable section

open Classical

/-- The attributes of an agent that the translational integrators use. Simplification: mass and
target velocity are finite numbers, because nothing in a simulation computes them.
Source: crowddynamics/core/integrator.py:81-90, 105-109, 170-176. -/
structure RowI where
  /-- `position` -/
  position : F64 × F64
  /-- `velocity` -/
  velocity : F64 × F64
  /-- `force` -/
  force : F64 × F64
  /-- `force_prev` -/
  forcePrev : F64 × F64
  /-- `mass` -/
  mass : ℝ
  /-- `target_velocity` -/
  targetVelocity : ℝ

/-- A vector times a number, as arrays.
Source: the operator used at crowddynamics/core/integrator.py:107-109, 174-176. -/
def mulI (rnd : ℝ → ℝ) (v : F64 × F64) (s : F64) : F64 × F64 := (v.1.mul rnd s, v.2.mul rnd s)

/-- The loop that determines `v_max`. Source: crowddynamics/core/integrator.py:81-85. -/
def vMaxLoopI {n : ℕ} (A : Arith) (rows : Fin n → RowI) : F64 :=
  (List.finRange n).foldl (fun vMax i =>
    let l := (rows i).velocity.1.hypot A (rows i).velocity.2
    if l.gt vMax then l else vMax) (.num 0)

/-- Source: crowddynamics/core/integrator.py:32-97 (`adaptive_timestep`). The `ValueError` of
`np.max` cannot occur because an empty array has `v_max = 0`. -/
def adaptiveTimestepI {n : ℕ} (A : Arith) (rows : Fin n → RowI) (dtMin dtMax : ℝ) :
    Except PyErr F64 :=
  let vMax := vMaxLoopI A rows
  if vMax = .num 0 then .ok (.num dtMax)
  else do
    let c := F64.num (A.rnd 1.1)
    let vTarget := F64.num ((npMax (List.ofFn fun i => (rows i).targetVelocity)).getD 0)
    let dxMax := (c.mul A.rnd vTarget).mul A.rnd (.num dtMax)
    let dt ← dxMax.sdiv A.rnd vMax
    if dt.gt (.num dtMax) then .ok (.num dtMax)
    else if (F64.num dtMin).gt dt then .ok (.num dtMin)
    else .ok dt

/-- Body of the loop in `translational_euler`.
Source: crowddynamics/core/integrator.py:105-109. -/
def translationalEulerRowI (rnd : ℝ → ℝ) (dt : F64) (row : RowI) : RowI :=
  let acceleration := divI rnd row.force (.num row.mass)
  let row := { row with
    position := vaddI rnd row.position (vaddI rnd (mulI rnd row.velocity dt)
      (mulI rnd (divI rnd acceleration (.num 2)) (dt.mul rnd dt))) }
  { row with velocity := vaddI rnd row.velocity (mulI rnd acceleration dt) }

/-- Body of the loop in `translational_verlet`.
Source: crowddynamics/core/integrator.py:169-176. -/
def translationalVerletRowI (rnd : ℝ → ℝ) (dt : F64) (row : RowI) : RowI :=
  let oldAcceleration := divI rnd row.forcePrev (.num row.mass)
  let newAcceleration := divI rnd row.force (.num row.mass)
  let row := { row with forcePrev := row.force }
  let row := { row with
    velocity := vaddI rnd row.velocity
      (mulI rnd (divI rnd (vaddI rnd oldAcceleration newAcceleration) (.num 2)) dt) }
  { row with
    position := vaddI rnd row.position (vaddI rnd (mulI rnd row.velocity dt)
      (mulI rnd (divI rnd newAcceleration (.num 2)) (dt.mul rnd dt))) }

/-- Source: crowddynamics/core/integrator.py:124-161 (`euler_integrator`), for circular agents. The
result is `dt` and the changed array. -/
def eulerIntegratorI {n : ℕ} (A : Arith) (dtMin dtMax : ℝ) (rows : Fin n → RowI) :
    Except PyErr (F64 × (Fin n → RowI)) := do
  let dt ← adaptiveTimestepI A rows dtMin dtMax
  .ok (dt, fun i => translationalEulerRowI A.rnd dt (rows i))

/-- Source: crowddynamics/core/integrator.py:209-256 (`velocity_verlet_integrator`), for circular
agents. -/
def velocityVerletIntegratorI {n : ℕ} (A : Arith) (dtMin dtMax : ℝ) (rows : Fin n → RowI) :
    Except PyErr (F64 × (Fin n → RowI)) := do
  let dt ← adaptiveTimestepI A rows dtMin dtMax
  .ok (dt, fun i => translationalVerletRowI A.rnd dt (rows i))

end

end CrowdDynamics
