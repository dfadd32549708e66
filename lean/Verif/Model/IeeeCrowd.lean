import Verif.Model.IeeeMotion

/-!
# An update of circular agents whose positions and velocities may be infinite or NaN

The definitions of `Verif.Model.IeeeContact` take finite positions and velocities. Here they are any
`float64`, so that the forces of one update can be followed by the next update.
-/

namespace CrowdDynamics

noncomputable section

open Classical

/-- The attributes of a circular agent that an update uses. Simplification: the attributes that
nothing in an update computes are finite numbers.
Source: crowddynamics/core/interactions.py:53-70, 110-120 and
crowddynamics/core/motion/power_law.py:226-253. -/
structure AgentI extends RowI where
  /-- `radius` -/
  radius : ℝ
  /-- `tau_adj` -/
  tauAdj : ℝ
  /-- `k_soc` -/
  kSoc : ℝ
  /-- `tau_0` -/
  tau0 : ℝ
  /-- `mu` -/
  mu : ℝ
  /-- `kappa` -/
  kappa : ℝ
  /-- `damping` -/
  damping : ℝ

/-- Source: crowddynamics/core/distance.py:16-47 (`distance_circles`). -/
def distanceCirclesG (A : Arith) (x0 : F64 × F64) (r0 : ℝ) (x1 : F64 × F64) (r1 : ℝ) :
    F64 × (F64 × F64) :=
  let x := vsubI A.rnd x0 x1
  let d := x.1.hypot A x.2
  let rTot := (F64.num r0).add A.rnd (.num r1)
  let h := d.sub A.rnd rTot
  (h, if d = .num 0 then (.num 0, .num 0) else divI A.rnd x d)

/-- Source: crowddynamics/core/distance.py:108-146 (`distance_circle_line`). -/
def distanceCircleLineG (A : Arith) (x : F64 × F64) (r : ℝ) (p0 p1 : Vec) : F64 × (F64 × F64) :=
  let d := subI A.rnd p1 p0
  let lw := d.1.hypot A d.2
  let tw := divI A.rnd d lw
  let nw := rotate90I tw
  let q0 := vsubI A.rnd x (.num p0.1, .num p0.2)
  let q1 := vsubI A.rnd x (.num p1.1, .num p1.2)
  let lt := ((dotI A.rnd tw q1).neg).sub A.rnd (dotI A.rnd tw q0)
  let (diw, niw) : F64 × (F64 × F64) :=
    if lt.gt lw then (q0.1.hypot A q0.2, divI A.rnd q0 (q0.1.hypot A q0.2))
    else if lw.neg.gt lt then (q1.1.hypot A q1.2, divI A.rnd q1 (q1.1.hypot A q1.2))
    else
      let ln := dotI A.rnd nw q0
      (ln.abs, (ln.sign.mul A.rnd nw.1, ln.sign.mul A.rnd nw.2))
  (diw.sub A.rnd (.num r), niw)

/-- The force of one agent before it is truncated.
Source: crowddynamics/core/motion/power_law.py:250-253. -/
def socialPartG (A : Arith) (ag : AgentI) (grad : F64 × F64) (mag : F64) : F64 × F64 :=
  let mk := (F64.num ag.mass).neg.mul A.rnd (.num ag.kSoc)
  ((mk.mul A.rnd grad.1).mul A.rnd mag, (mk.mul A.rnd grad.2).mul A.rnd mag)

/-- Source: crowddynamics/core/motion/power_law.py:215-259 (`force_social_circular`). Adding to and
subtracting from the zero arrays is exact. -/
def forceSocialCircularG (A : Arith) (ai aj : AgentI) :
    Except PyErr ((F64 × F64) × (F64 × F64)) :=
  let zero : F64 × F64 := (.num 0, .num 0)
  let xRel := vsubI A.rnd ai.position aj.position
  let vRel := vsubI A.rnd ai.velocity aj.velocity
  let rTot := (F64.num ai.radius).add A.rnd (.num aj.radius)
  let a := dotI A.rnd vRel vRel
  let b := (dotI A.rnd xRel vRel).neg
  let c := (dotI A.rnd xRel xRel).sub A.rnd (rTot.mul A.rnd rTot)
  let d := ((b.mul A.rnd b).sub A.rnd (a.mul A.rnd c)).sqrt A.rnd
  if d = .nan ∨ d = .num 0 ∨ a = .num 0 then .ok (zero, zero)
  else do
    let tau ← (b.sub A.rnd d).sdiv A.rnd a
    if tau.le (.num 0) ∨ tau.gt (.num 30) then .ok (zero, zero)
    else do
      let grad := gradientI A.rnd xRel vRel a b d
      let magI ← magnitudeI A tau (.num ai.tau0)
      let magJ ← magnitudeI A tau (.num aj.tau0)
      let forceI ← truncateI A (socialPartG A ai grad magI) (.num fSocMax)
      let partJ := socialPartG A aj grad magJ
      let forceJ ← truncateI A (partJ.1.neg, partJ.2.neg) (.num fSocMax)
      .ok (forceI, forceJ)

/-- The forces `force_i, force_j` of a pair that is in sight; `none` if the pair is out of sight.
Source: crowddynamics/core/interactions.py:53-67. -/
def pairForcesG (A : Arith) (ai aj : AgentI) :
    Except PyErr (Option ((F64 × F64) × (F64 × F64))) :=
  let hn := distanceCirclesG A ai.position ai.radius aj.position aj.radius
  let h := hn.1
  let n := hn.2
  if (F64.num sigthSoc).gt h then do
    let f ← forceSocialCircularG A ai aj
    if (F64.num 0).gt h then
      let t := rotate270I n
      let v := vsubI A.rnd ai.velocity aj.velocity
      let ci := forceContactI A.rnd h n v t (.num ai.mu) (.num ai.kappa) (.num ai.damping)
      let cj := forceContactI A.rnd h n v t (.num aj.mu) (.num aj.kappa) (.num aj.damping)
      .ok (some (vaddI A.rnd f.1 ci, vsubI A.rnd f.2 cj))
    else .ok (some f)
  else .ok none

/-- Source: crowddynamics/core/interactions.py:53-70 (`interaction_agent_agent_circular`). -/
def interactionAgentAgentCircularG {n : ℕ} (A : Arith) (agents : Fin n → AgentI) (i j : Fin n)
    (force : Fin n → F64 × F64) : Except PyErr (Fin n → F64 × F64) := do
  match ← pairForcesG A (agents i) (agents j) with
  | none => .ok force
  | some f => .ok (addForceI A.rnd (addForceI A.rnd force i f.1) j f.2)

/-- Source: crowddynamics/core/interactions.py:150-155 (`agent_agent_circular`); `pairs` is what
`iter_nearest_neighbors` yields. -/
def agentAgentCircularG {n : ℕ} (A : Arith) (agents : Fin n → AgentI)
    (pairs : List (Fin n × Fin n)) (force : Fin n → F64 × F64) :
    Except PyErr (Fin n → F64 × F64) :=
  pairs.foldlM (fun force p => interactionAgentAgentCircularG A agents p.1 p.2 force) force

/-- Source: crowddynamics/core/interactions.py:110-120 (`interaction_agent_circular_obstacle`). -/
def interactionAgentCircularObstacleG {n : ℕ} (A : Arith) (agents : Fin n → AgentI) (i : Fin n)
    (w : Wall) (force : Fin n → F64 × F64) : Fin n → F64 × F64 :=
  let hn := distanceCircleLineG A (agents i).position (agents i).radius w.p0 w.p1
  let h := hn.1
  let n := hn.2
  if (F64.num 0).gt h then
    let t := rotate270I n
    let v := (agents i).velocity
    addForceI A.rnd force i (forceContactI A.rnd h n v t (.num (agents i).mu)
      (.num (agents i).kappa) (.num (agents i).damping))
  else force

/-- Source: crowddynamics/core/interactions.py:172-176 (`agent_circular_obstacle`). -/
def agentCircularObstacleG {n : ℕ} (A : Arith) (agents : Fin n → AgentI) (obstacles : List Wall)
    (force : Fin n → F64 × F64) : Fin n → F64 × F64 :=
  (List.finRange n).foldl (fun force i =>
    obstacles.foldl (fun force w => interactionAgentCircularObstacleG A agents i w force) force)
    force

/-- `(mass / tau_adj) * (v0 * e0 - v)`; the quotient of the two numbers raises
`ZeroDivisionError` if `tau_adj` is zero.
Source: crowddynamics/core/motion/adjusting.py:51 (`force_adjust`). -/
def forceAdjustI (rnd : ℝ → ℝ) (mass tauAdj v0 : ℝ) (e0 v : F64 × F64) :
    Except PyErr (F64 × F64) := do
  let q ← (F64.num mass).sdiv rnd (.num tauAdj)
  .ok (q.mul rnd (((F64.num v0).mul rnd e0.1).sub rnd v.1),
    q.mul rnd (((F64.num v0).mul rnd e0.2).sub rnd v.2))

/-- Source: crowddynamics/core/motion/adjusting.py:101-108 (`force_adjust_agents`); `direction` is
the column `target_direction`. -/
def forceAdjustAgentsI {n : ℕ} (rnd : ℝ → ℝ) (agents : Fin n → AgentI)
    (direction force : Fin n → F64 × F64) : Except PyErr (Fin n → F64 × F64) :=
  (List.finRange n).foldlM (fun force i => do
    let f ← forceAdjustI rnd (agents i).mass (agents i).tauAdj (agents i).targetVelocity
      (direction i) (agents i).velocity
    .ok (addForceI rnd force i f)) force

/-- What an update gets from elsewhere: the random forces, the target directions (set by the nodes
for navigation) and the pairs that the cell lists yield. Simplification: the directions do not
depend on other agents, that is, nobody follows anybody.
Source: crowddynamics/simulation/logic.py:78-87 (`Fluctuation`), 97-119 and 135-165. -/
structure StepInput (n : ℕ) where
  /-- the random forces -/
  fluctuation : Fin n → F64 × F64
  /-- the target directions -/
  direction : Fin n → F64 × F64
  /-- the pairs of neighbours -/
  pairs : List (Fin n × Fin n)

/-- One update with the order of nodes `Fluctuation, Adjusting, AgentAgentInteractions,
AgentObstacleInteractions, Integrator, Reset`.
Source: crowddynamics/examples/simulations.py:125-134 and crowddynamics/simulation/logic.py:59-132. -/
def updateI {n : ℕ} (A : Arith) (walls : List Wall) (dtMin dtMax : ℝ) (inp : StepInput n)
    (agents : Fin n → AgentI) : Except PyErr (Fin n → AgentI) := do
  let force := fun i => vaddI A.rnd (agents i).force (inp.fluctuation i)
  let force ← forceAdjustAgentsI A.rnd agents inp.direction force
  let force ← agentAgentCircularG A agents inp.pairs force
  let force := agentCircularObstacleG A agents walls force
  let moved ← velocityVerletIntegratorI A dtMin dtMax
    (fun i => { (agents i).toRowI with force := force i })
  .ok fun i => { agents i with
    toRowI := { moved.2 i with force := (.num 0, .num 0) } }

/-- Updates one after the other. Source: crowddynamics/simulation/multiagent.py:50-55. -/
def runI {n : ℕ} (A : Arith) (walls : List Wall) (dtMin dtMax : ℝ)
    (inputs : List (StepInput n)) (agents : Fin n → AgentI) : Except PyErr (Fin n → AgentI) :=
  inputs.foldlM (fun agents inp => updateI A walls dtMin dtMax inp agents) agents

end

end CrowdDynamics
