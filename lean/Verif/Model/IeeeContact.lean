import Verif.Model.Ieee
import Verif.Model.RoundedContact

/-!
# The interactions of circular agents with infinities and NaN

The functions of crowddynamics/core/interactions.py for circular agents, in the arithmetic of
`Verif.Model.Ieee`. The interactions change the column `force` of the agent array only; this column
is passed on separately, because it may hold infinities and NaN.
-/

namespace CrowdDynamics

noncomputable section

open Classical

/-- A vector divided by a number, as arrays: no exception is raised.
Source: crowddynamics/core/distance.py:45, 126, 135, 138. -/
def divI (rnd : ℝ → ℝ) (q : F64 × F64) (d : F64) : F64 × F64 := (q.1.div rnd d, q.2.div rnd d)

/-- Source: crowddynamics/core/vector2D.py:38-59 (`rotate90`). -/
def rotate90I (v : F64 × F64) : F64 × F64 := (v.2.neg, v.1)

/-- Source: crowddynamics/core/vector2D.py:62-82 (`rotate270`). -/
def rotate270I (v : F64 × F64) : F64 × F64 := (v.2, v.1.neg)

/-- Source: crowddynamics/core/distance.py:16-47 (`distance_circles`). -/
def distanceCirclesI (A : Arith) (x0 : Vec) (r0 : ℝ) (x1 : Vec) (r1 : ℝ) : F64 × (F64 × F64) :=
  let x := subI A.rnd x0 x1
  let d := x.1.hypot A x.2
  let rTot := (F64.num r0).add A.rnd (.num r1)
  let h := d.sub A.rnd rTot
  (h, if d = .num 0 then (.num 0, .num 0) else divI A.rnd x d)

/-- `np.abs(x)`. Source: crowddynamics/core/distance.py:141. -/
def F64.abs : F64 → F64
  | .nan => .nan
  | .inf _ => .inf false
  | .num x => .num |x|

/-- `np.sign(x)`. Source: crowddynamics/core/distance.py:142. -/
def F64.sign : F64 → F64
  | .nan => .nan
  | .inf s => .num (if s then -1 else 1)
  | .num x => .num (npSign x)

/-- Source: crowddynamics/core/distance.py:108-146 (`distance_circle_line`). -/
def distanceCircleLineI (A : Arith) (x : Vec) (r : ℝ) (p0 p1 : Vec) : F64 × (F64 × F64) :=
  let d := subI A.rnd p1 p0
  let lw := d.1.hypot A d.2
  let tw := divI A.rnd d lw
  let nw := rotate90I tw
  let q0 := subI A.rnd x p0
  let q1 := subI A.rnd x p1
  let lt := ((dotI A.rnd tw q1).neg).sub A.rnd (dotI A.rnd tw q0)
  let (diw, niw) : F64 × (F64 × F64) :=
    if lt.gt lw then (q0.1.hypot A q0.2, divI A.rnd q0 (q0.1.hypot A q0.2))
    else if lw.neg.gt lt then (q1.1.hypot A q1.2, divI A.rnd q1 (q1.1.hypot A q1.2))
    else
      let ln := dotI A.rnd nw q0
      (ln.abs, (ln.sign.mul A.rnd nw.1, ln.sign.mul A.rnd nw.2))
  (diw.sub A.rnd (.num r), niw)

/-- Source: crowddynamics/core/motion/contact.py:14-48 (`force_contact`). -/
def forceContactI (rnd : ℝ → ℝ) (h : F64) (n v t : F64 × F64) (mu kappa damping : F64) :
    F64 × F64 :=
  let comp := fun ni ti : F64 =>
    (h.neg.mul rnd ((mu.mul rnd ni).sub rnd ((kappa.mul rnd (dotI rnd v t)).mul rnd ti))).add rnd
      ((damping.mul rnd (dotI rnd v n)).mul rnd ni)
  (comp n.1 t.1, comp n.2 t.2)

/-- The sum of two arrays. Source: the operator `+=` at
crowddynamics/core/interactions.py:64, 69-70, 120. -/
def vaddI (rnd : ℝ → ℝ) (u v : F64 × F64) : F64 × F64 := (u.1.add rnd v.1, u.2.add rnd v.2)

/-- The difference of two arrays. Source: the operator `-=` at
crowddynamics/core/interactions.py:66. -/
def vsubI (rnd : ℝ → ℝ) (u v : F64 × F64) : F64 × F64 := (u.1.sub rnd v.1, u.2.sub rnd v.2)

/-- The forces `force_i, force_j` of a pair that is in sight; `none` if the pair is out of sight.
Source: crowddynamics/core/interactions.py:53-67. -/
def pairForcesI (A : Arith) (ai aj : Agent) :
    Except PyErr (Option ((F64 × F64) × (F64 × F64))) :=
  let hn := distanceCirclesI A ai.position ai.radius aj.position aj.radius
  let h := hn.1
  let n := hn.2
  if (F64.num sigthSoc).gt h then do
    let f ← forceSocialCircularI A ai aj
    if (F64.num 0).gt h then
      let t := rotate270I n
      let v := subI A.rnd ai.velocity aj.velocity
      let ci := forceContactI A.rnd h n v t (.num ai.mu) (.num ai.kappa) (.num ai.damping)
      let cj := forceContactI A.rnd h n v t (.num aj.mu) (.num aj.kappa) (.num aj.damping)
      .ok (some (vaddI A.rnd f.1 ci, vsubI A.rnd f.2 cj))
    else .ok (some f)
  else .ok none

/-- `agents[i]['force'][:] += f` on the column `force`.
Source: crowddynamics/core/interactions.py:69-70, 120. -/
def addForceI {n : ℕ} (rnd : ℝ → ℝ) (force : Fin n → F64 × F64) (i : Fin n) (f : F64 × F64) :
    Fin n → F64 × F64 := Function.update force i (vaddI rnd (force i) f)

/-- Source: crowddynamics/core/interactions.py:53-70 (`interaction_agent_agent_circular`). -/
def interactionAgentAgentCircularI {n : ℕ} (A : Arith) (agents : Crowd n) (i j : Fin n)
    (force : Fin n → F64 × F64) : Except PyErr (Fin n → F64 × F64) := do
  match ← pairForcesI A (agents i) (agents j) with
  | none => .ok force
  | some f => .ok (addForceI A.rnd (addForceI A.rnd force i f.1) j f.2)

/-- Source: crowddynamics/core/interactions.py:150-155 (`agent_agent_circular`); `pairs` is what
`iter_nearest_neighbors` yields. -/
def agentAgentCircularI {n : ℕ} (A : Arith) (agents : Crowd n) (pairs : List (Fin n × Fin n))
    (force : Fin n → F64 × F64) : Except PyErr (Fin n → F64 × F64) :=
  pairs.foldlM (fun force p => interactionAgentAgentCircularI A agents p.1 p.2 force) force

/-- Source: crowddynamics/core/interactions.py:110-120 (`interaction_agent_circular_obstacle`). -/
def interactionAgentCircularObstacleI {n : ℕ} (A : Arith) (agents : Crowd n) (i : Fin n) (w : Wall)
    (force : Fin n → F64 × F64) : Fin n → F64 × F64 :=
  let hn := distanceCircleLineI A (agents i).position (agents i).radius w.p0 w.p1
  let h := hn.1
  let n := hn.2
  if (F64.num 0).gt h then
    let t := rotate270I n
    let v : F64 × F64 := (.num (agents i).velocity.1, .num (agents i).velocity.2)
    addForceI A.rnd force i (forceContactI A.rnd h n v t (.num (agents i).mu)
      (.num (agents i).kappa) (.num (agents i).damping))
  else force

/-- Source: crowddynamics/core/interactions.py:172-176 (`agent_circular_obstacle`). -/
def agentCircularObstacleI {n : ℕ} (A : Arith) (agents : Crowd n) (obstacles : List Wall)
    (force : Fin n → F64 × F64) : Fin n → F64 × F64 :=
  (List.finRange n).foldl (fun force i =>
    obstacles.foldl (fun force w => interactionAgentCircularObstacleI A agents i w force) force)
    force

end

end CrowdDynamics
