import Verif.Model.Vector2D

/-!
# The structured agent array of `crowddynamics/simulation/agents.py`
-/

namespace CrowdDynamics

/-- `NO_TARGET`. Source: crowddynamics/simulation/agents.py:28. -/
def noTarget : ℤ := -1

/-- `NO_LEADER`. Source: crowddynamics/simulation/agents.py:29. -/
def noLeader : ℤ := -1

/-- One row of the structured array. The record has the fields of the three-circle type;
for circular agents the fields of `RotationalMotion` and the shoulder positions do not
exist in the array and are ignored by the circular code.
Source: crowddynamics/simulation/agents.py:32-60 (`States`), 63-95 (`Body`), 195-257
(`TranslationalMotion`), 260-292 (`RotationalMotion`), 393-399 (`position_ls/rs`), and
301-309 (`dtype`). -/
structure Agent where
  /-- `active` -/
  active : Bool
  /-- `target_reached` -/
  targetReached : Bool
  /-- `target`, `-1` means none -/
  target : ℤ
  /-- `is_leader` -/
  isLeader : Bool
  /-- `is_follower` -/
  isFollower : Bool
  /-- `index_leader`, `-1` means none -/
  indexLeader : ℤ
  /-- `familiar_exit`, `-1` means none -/
  familiarExit : ℤ
  /-- `radius` -/
  radius : ℝ
  /-- `r_t` -/
  rT : ℝ
  /-- `r_s` -/
  rS : ℝ
  /-- `r_ts` -/
  rTs : ℝ
  /-- `mass` -/
  mass : ℝ
  /-- `inertia_rot` -/
  inertiaRot : ℝ
  /-- `target_velocity` -/
  targetVelocity : ℝ
  /-- `target_angular_velocity` -/
  targetAngularVelocity : ℝ
  /-- `position` -/
  position : Vec
  /-- `velocity` -/
  velocity : Vec
  /-- `target_direction` -/
  targetDirection : Vec
  /-- `force` -/
  force : Vec
  /-- `force_prev` -/
  forcePrev : Vec
  /-- `tau_adj` -/
  tauAdj : ℝ
  /-- `k_soc` -/
  kSoc : ℝ
  /-- `tau_0` -/
  tau0 : ℝ
  /-- `mu` -/
  mu : ℝ
  /-- `kappa` -/
  kappa : ℝ
  /-- `damping` -/
  damping : ℝ
  /-- `std_rand_force` -/
  stdRandForce : ℝ
  /-- `orientation` -/
  orientation : ℝ
  /-- `angular_velocity` -/
  angularVelocity : ℝ
  /-- `target_orientation` -/
  targetOrientation : ℝ
  /-- `torque` -/
  torque : ℝ
  /-- `torque_prev` -/
  torquePrev : ℝ
  /-- `tau_rot` -/
  tauRot : ℝ
  /-- `std_rand_torque` -/
  stdRandTorque : ℝ
  /-- `position_ls` -/
  positionLs : Vec
  /-- `position_rs` -/
  positionRs : Vec

noncomputable section

/-- A zero-filled row, as made by `np.zeros`.
Source: crowddynamics/simulation/agents.py:629, 645. -/
def Agent.zero : Agent where
  active := false
  targetReached := false
  target := 0
  isLeader := false
  isFollower := false
  indexLeader := 0
  familiarExit := 0
  radius := 0
  rT := 0
  rS := 0
  rTs := 0
  mass := 0
  inertiaRot := 0
  targetVelocity := 0
  targetAngularVelocity := 0
  position := (0, 0)
  velocity := (0, 0)
  targetDirection := (0, 0)
  force := (0, 0)
  forcePrev := (0, 0)
  tauAdj := 0
  kSoc := 0
  tau0 := 0
  mu := 0
  kappa := 0
  damping := 0
  stdRandForce := 0
  orientation := 0
  angularVelocity := 0
  targetOrientation := 0
  torque := 0
  torquePrev := 0
  tauRot := 0
  stdRandTorque := 0
  positionLs := (0, 0)
  positionRs := (0, 0)

/-- A freshly created agent object before any attribute is set: the trait defaults.
Source: crowddynamics/simulation/agents.py:32-292 (`default_value`s; traits without a
default are 0). -/
def Agent.default : Agent :=
  { Agent.zero with
    active := true
    target := noTarget
    indexLeader := noLeader
    familiarExit := noTarget
    tauAdj := 0.5
    kSoc := 1.5
    tau0 := 3.0
    mu := 1.2e5
    kappa := 4e4
    damping := 500
    stdRandForce := 0.1
    tauRot := 0.2
    stdRandTorque := 0.1 }

/-- The centres of torso, left and right shoulder.
Source: crowddynamics/simulation/agents.py:412-413, 527 and
crowddynamics/core/interactions.py:78-79. -/
def Agent.circles (a : Agent) : Fin 3 → Vec := ![a.position, a.positionLs, a.positionRs]

/-- The radii of torso, left and right shoulder.
Source: crowddynamics/simulation/agents.py:414, 528 and
crowddynamics/core/interactions.py:78-79. -/
def Agent.radii (a : Agent) : Fin 3 → ℝ := ![a.rT, a.rS, a.rS]

end

/-- The two agent types that have an array representation.
Source: crowddynamics/simulation/agents.py:451-458. -/
inductive Kind where
  /-- `Circular` -/
  | circular
  /-- `ThreeCircle` -/
  | threeCircle
  deriving DecidableEq

end CrowdDynamics
