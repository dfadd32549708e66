import Verif.Model.Geom2D
import Verif.Model.Agent

/-!
# Model of `crowddynamics/core/evacuation.py` and of the logic node `ExitDetection`
-/

namespace CrowdDynamics

noncomputable section

open Classical

/-- `a // b` on floats, `b ≠ 0`.
Source: crowddynamics/core/evacuation.py:83-85. -/
def pyFloorDiv (a b : ℝ) : ℝ := ⌊a / b⌋

/-- Source: crowddynamics/core/evacuation.py:15-85 (`narrow_exit_capacity`). -/
def narrowExitCapacity (dDoor dAgent : ℝ) (dLayer : Option ℝ) (coeff : ℝ) : ℝ :=
  if dDoor < dAgent then 0
  else match dLayer with
    | none => coeff * pyFloorDiv dDoor dAgent
    | some l => coeff * pyFloorDiv (dDoor - (dAgent - l)) l

/-- Source: crowddynamics/core/evacuation.py:88-134 (`agent_closer_to_exit`). `argsortF` and
`argsortI` are `np.argsort` on floats and on integers. -/
def agentCloserToExit (argsortF : List ℝ → List ℕ) (argsortI : List ℕ → List ℕ) (cDoor : Vec)
    (position : List Vec) : List ℕ :=
  let distances := position.map fun x => length (cDoor - x)
  let dSorted := argsortF distances
  argsortI dSorted

/-- The state of one agent in the loops of `exit_detection`:
`distance[i], detected_exit[i], has_detected[i]`.
Source: crowddynamics/core/evacuation.py:155-172. -/
structure ExitState where
  /-- `distance[i]` -/
  distance : ℝ
  /-- `detected_exit[i]` -/
  detected : ℤ
  /-- `has_detected[i]` -/
  has : Bool

/-- Body of the inner loop of `exit_detection`.
Source: crowddynamics/core/evacuation.py:162-172. -/
def exitStep (centerDoor : List Vec) (p : Vec) (obstacles : List Wall) (s : ExitState) (c : ℕ) :
    ExitState :=
  let door := centerDoor.getD c 0
  if isObstacleBetweenPoints p door obstacles then s
  else
    let d := length (door - p)
    if d < s.distance then ⟨d, c, true⟩ else s

/-- Source: crowddynamics/core/evacuation.py:137-174 (`exit_detection`). One result
`(detected_exit[i], has_detected[i])` for each position. -/
def exitDetection (centerDoor position : List Vec) (obstacles : List Wall) (detectionRange : ℝ) :
    List (ℤ × Bool) :=
  position.map fun p =>
    let s := (List.range centerDoor.length).foldl (exitStep centerDoor p obstacles)
      ⟨detectionRange, -1, false⟩
    (s.detected, s.has)

/-- `np.mean(np.asarray(target), axis=0)` of the coordinates of a target.
Source: crowddynamics/simulation/logic.py:248. -/
def meanVec (coords : List Vec) : Vec := (1 / (coords.length : ℝ)) • coords.sum

/-- Source: crowddynamics/simulation/logic.py:243-255 (`ExitDetection.update`). The targets
are given by their coordinates, the obstacles as line segments (see C58). `none`: `np.stack`
raises for an empty list of targets. -/
def exitDetectionUpdate {n : ℕ} (targets : List (List Vec)) (obstacles : List Wall)
    (detectionRange : ℝ) (agents : Fin n → Agent) : Option (Fin n → Agent) :=
  if targets = [] then none
  else
    let centerDoor := targets.map meanVec
    let res := exitDetection centerDoor (List.ofFn fun i => (agents i).position) obstacles
      detectionRange
    some fun i =>
      let r := res.getD i (-1, false)
      if (agents i).isFollower && r.2 then
        { agents i with target := r.1, isFollower := false }
      else agents i

end

end CrowdDynamics
