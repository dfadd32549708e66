import Verif.Model.Agent
import Verif.Model.Placement

/-!
# Model of `crowddynamics/core/integrator.py`

An array of `n` agents is a function `Fin n → Agent`; the loops `for agent in agents`
that change only their own row are pointwise updates. Division by a zero mass or moment
of inertia (NaN or an exception in the code) is not modelled; theorems assume that these
are not zero where it matters.
-/

namespace CrowdDynamics

noncomputable section

open Classical

/-- The rows of an agent array.
Source: crowddynamics/simulation/agents.py:626-629. -/
abbrev Crowd (n : ℕ) : Type := Fin n → Agent

/-- A numpy dtype object: the module level constants `agent_type_circular` and
`agent_type_three_circle`, or an object returned by another call of `dtype()`.
Source: crowddynamics/simulation/agents.py:447-448 and 299-307. -/
inductive DtypeObj where
  /-- the module level constant -/
  | const (kind : Kind)
  /-- a fresh object from a later call of `dtype()` -/
  | fresh (kind : Kind) (id : ℕ)
  deriving DecidableEq

/-- The agent type described by a dtype.
Source: crowddynamics/core/integrator.py:24-25. -/
def DtypeObj.kind : DtypeObj → Kind
  | .const k => k
  | .fresh k _ => k

/-- A structured array: dtype object and rows.
Source: crowddynamics/core/integrator.py:29-32. -/
structure AgentArray (n : ℕ) where
  /-- `agents.dtype` -/
  dtype : DtypeObj
  /-- rows -/
  rows : Crowd n

/-- Source: crowddynamics/simulation/agents.py:460-470 (`is_model`): equal hashes mean
equal fields (hash collisions of numpy are not modelled). -/
def isModel {n : ℕ} (agents : AgentArray n) (model : Kind) : Bool :=
  agents.dtype.kind = model

/-- `agents.dtype is agent_type_three_circle`.
Source: crowddynamics/core/integrator.py:158. -/
def isThreeCircleConst {n : ℕ} (agents : AgentArray n) : Bool :=
  agents.dtype = .const .threeCircle

/-- `np.max` of a list; `none` is the `ValueError` for an empty array.
Source: used at crowddynamics/core/integrator.py:90. -/
def npMax : List ℝ → Option ℝ
  | [] => none
  | a :: t => some (t.foldl max a)

/-- The loop that determines `v_max`. Source: crowddynamics/core/integrator.py:81-85. -/
def vMaxLoop {n : ℕ} (agents : Crowd n) : ℝ :=
  (List.finRange n).foldl (fun vMax i =>
    let l := length (agents i).velocity
    if l > vMax then l else vMax) 0

/-- Source: crowddynamics/core/integrator.py:32-97 (`adaptive_timestep`). The `ValueError`
of `np.max` cannot occur because an empty array has `v_max = 0`. -/
def adaptiveTimestep {n : ℕ} (agents : Crowd n) (dtMin dtMax : ℝ) : ℝ :=
  let vMax := vMaxLoop agents
  if vMax = 0 then dtMax
  else
    let c := 1.1
    let dxMax := c * (npMax (List.ofFn fun i => (agents i).targetVelocity)).getD 0 * dtMax
    let dt := dxMax / vMax
    if dt > dtMax then dtMax
    else if dt < dtMin then dtMin
    else dt

/-- Body of the loop in `translational_euler`.
Source: crowddynamics/core/integrator.py:105-109. -/
def translationalEulerRow (dt : ℝ) (agent : Agent) : Agent :=
  let acceleration := (1 / agent.mass) • agent.force
  let agent := { agent with
    position := agent.position + (dt • agent.velocity + dt ^ 2 • (1 / 2 : ℝ) • acceleration) }
  { agent with velocity := agent.velocity + dt • acceleration }

/-- Source: crowddynamics/core/integrator.py:103-109 (`translational_euler`). -/
def translationalEuler {n : ℕ} (agents : Crowd n) (dt : ℝ) : Crowd n :=
  fun i => translationalEulerRow dt (agents i)

/-- Body of the loop in `rotational_euler`.
Source: crowddynamics/core/integrator.py:116-121. -/
def rotationalEulerRow (dt : ℝ) (agent : Agent) : Agent :=
  let angularAcceleration := agent.torque / agent.inertiaRot
  let agent := { agent with
    orientation := agent.orientation +
      (agent.angularVelocity * dt + angularAcceleration / 2 * dt ^ 2) }
  let agent := { agent with angularVelocity := agent.angularVelocity + angularAcceleration * dt }
  { agent with orientation := wrapToPi agent.orientation }

/-- Source: crowddynamics/core/integrator.py:114-121 (`rotational_euler`). -/
def rotationalEuler {n : ℕ} (agents : Crowd n) (dt : ℝ) : Crowd n :=
  fun i => rotationalEulerRow dt (agents i)

/-- Body of the loop in `shoulders`. Source: crowddynamics/simulation/agents.py:482-486. -/
def shouldersRow (agent : Agent) : Agent :=
  let tangent := rotate270 (unitVector agent.orientation)
  let offset := agent.rTs • tangent
  { agent with
    positionLs := agent.position - offset
    positionRs := agent.position + offset }

/-- Source: crowddynamics/simulation/agents.py:475-486 (`shoulders`). -/
def shoulders {n : ℕ} (agents : Crowd n) : Crowd n := fun i => shouldersRow (agents i)

/-- Source: crowddynamics/core/integrator.py:124-161 (`euler_integrator`). -/
def eulerIntegrator {n : ℕ} (agents : AgentArray n) (dtMin dtMax : ℝ) : ℝ × AgentArray n :=
  let dt := adaptiveTimestep agents.rows dtMin dtMax
  let rows := translationalEuler agents.rows dt
  let rows :=
    if isThreeCircleConst agents then
      let rows := rotationalEuler rows dt
      shoulders rows
    else rows
  (dt, { agents with rows := rows })

/-- Body of the loop in `translational_verlet`.
Source: crowddynamics/core/integrator.py:169-176. -/
def translationalVerletRow (dt : ℝ) (agent : Agent) : Agent :=
  let oldAcceleration := (1 / agent.mass) • agent.forcePrev
  let newAcceleration := (1 / agent.mass) • agent.force
  let agent := { agent with forcePrev := agent.force }
  let agent := { agent with
    velocity := agent.velocity + dt • (1 / 2 : ℝ) • (oldAcceleration + newAcceleration) }
  { agent with
    position := agent.position + (dt • agent.velocity + dt ^ 2 • (1 / 2 : ℝ) • newAcceleration) }

/-- Source: crowddynamics/core/integrator.py:167-176 (`translational_verlet`). -/
def translationalVerlet {n : ℕ} (agents : Crowd n) (dt : ℝ) : Crowd n :=
  fun i => translationalVerletRow dt (agents i)

/-- Body of the loop in `rotational_verlet`.
Source: crowddynamics/core/integrator.py:183-193. -/
def rotationalVerletRow (dt : ℝ) (agent : Agent) : Agent :=
  let oldAngularAcceleration := agent.torquePrev / agent.inertiaRot
  let newAngularAcceleration := agent.torque / agent.inertiaRot
  let agent := { agent with torquePrev := agent.torque }
  let agent := { agent with
    angularVelocity := agent.angularVelocity +
      (oldAngularAcceleration + newAngularAcceleration) / 2 * dt }
  let agent := { agent with
    orientation := agent.orientation +
      (agent.angularVelocity * dt + newAngularAcceleration / 2 * dt ^ 2) }
  { agent with orientation := wrapToPi agent.orientation }

/-- Source: crowddynamics/core/integrator.py:181-193 (`rotational_verlet`). -/
def rotationalVerlet {n : ℕ} (agents : Crowd n) (dt : ℝ) : Crowd n :=
  fun i => rotationalVerletRow dt (agents i)

/-- Source: crowddynamics/core/integrator.py:196-206
(`velocity_verlet_integrator_init`). -/
def velocityVerletIntegratorInit {n : ℕ} (agents : AgentArray n) (dtMin dtMax : ℝ) :
    ℝ × AgentArray n :=
  let dt := adaptiveTimestep agents.rows dtMin dtMax
  let rows := translationalEuler agents.rows dt
  let rows : Crowd n := fun i => { rows i with forcePrev := (rows i).force }
  let rows :=
    if isModel agents .threeCircle then
      let rows := rotationalEuler rows dt
      let rows : Crowd n := fun i => { rows i with torquePrev := (rows i).torque }
      shoulders rows
    else rows
  (dt, { agents with rows := rows })

/-- Source: crowddynamics/core/integrator.py:209-256 (`velocity_verlet_integrator`). -/
def velocityVerletIntegrator {n : ℕ} (agents : AgentArray n) (dtMin dtMax : ℝ) :
    ℝ × AgentArray n :=
  let dt := adaptiveTimestep agents.rows dtMin dtMax
  let rows := translationalVerlet agents.rows dt
  let rows :=
    if isModel agents .threeCircle then
      let rows := rotationalVerlet rows dt
      shoulders rows
    else rows
  (dt, { agents with rows := rows })

end

end CrowdDynamics
