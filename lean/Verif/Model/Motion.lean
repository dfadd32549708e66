import Verif.Model.Integrator

/-!
# Model of `crowddynamics/core/motion/adjusting.py`, `crowddynamics/core/motion/fluctuation.py`
and `crowddynamics/core/rand.py`

Random numbers are inputs: every function that draws takes the drawn values as arguments.
-/

namespace CrowdDynamics

noncomputable section

open Classical

/-! ## `adjusting.py` -/

/-- Source: crowddynamics/core/motion/adjusting.py:18-51 (`force_adjust`). -/
def forceAdjust (mass tauAdj v0 : ℝ) (e0 v : Vec) : Vec := (mass / tauAdj) • (v0 • e0 - v)

/-- Source: crowddynamics/core/motion/adjusting.py:56-95 (`torque_adjust`). -/
def torqueAdjust (inertiaRot tauRot phi0 phi omega0 omega : ℝ) : ℝ :=
  inertiaRot / tauRot * (wrapToPi (phi0 - phi) / Real.pi * omega0 - omega)

/-- Source: crowddynamics/core/motion/adjusting.py:101-108 (`force_adjust_agents`). -/
def forceAdjustAgents {n : ℕ} (agents : Crowd n) : Crowd n := fun i =>
  let agent := agents i
  { agent with
    force := agent.force + forceAdjust agent.mass agent.tauAdj agent.targetVelocity
      agent.targetDirection agent.velocity }

/-- Source: crowddynamics/core/motion/adjusting.py:113-121 (`torque_adjust_agents`). -/
def torqueAdjustAgents {n : ℕ} (agents : Crowd n) : Crowd n := fun i =>
  let agent := agents i
  { agent with
    torque := agent.torque + torqueAdjust agent.inertiaRot agent.tauRot agent.targetOrientation
      agent.orientation agent.targetAngularVelocity agent.angularVelocity }

/-- The node `Adjusting`. Source: crowddynamics/simulation/logic.py:89-94. -/
def adjusting {n : ℕ} (agents : AgentArray n) : AgentArray n :=
  let rows := forceAdjustAgents agents.rows
  let agents := { agents with rows := rows }
  if isModel agents .threeCircle then { agents with rows := torqueAdjustAgents agents.rows }
  else agents

/-! ## `rand.py` -/

/-- One value of `truncnorm`. `z` gives the standardised value drawn by
`scipy.stats.truncnorm.rvs` for the bounds, which returns `loc + scale * z start end`.
`abs_scale` counts as absent if it is `None` or 0.
Source: crowddynamics/core/rand.py:8-32 (`truncnorm`). -/
def truncnorm (start end_ loc scale : ℝ) (absScale : Option ℝ)
    (z : ℝ → ℝ → ℝ) : ℝ :=
  let scale' := match absScale with
    | none => scale
    | some s => if s = 0 then scale else s / max |start| |end_|
  loc + scale' * z start end_

/-- Rows of `random_vector`; `orientation` holds the drawn angles.
Source: crowddynamics/core/rand.py:35-37 (`random_vector`). -/
def randomVector (orientation : List ℝ) (mag : ℝ) : List Vec :=
  orientation.map fun o => mag • (Real.cos o, Real.sin o)

/-- The loop of `poisson_clock`: `draws` are the results of successive calls of
`np.random.exponential` in the whole program, `pos` the number of calls made so far. The
answer is the list of yielded times and the new number of calls; `none` means that `fuel`
iterations did not suffice.
Source: crowddynamics/core/rand.py:93-96. -/
def poissonClockLoop (draws : ℕ → ℝ) (dt : ℝ) : ℕ → ℕ → ℝ → Option (List ℝ × ℕ)
  | 0, _, _ => none
  | fuel + 1, pos, tTot =>
    if tTot < dt then
      match poissonClockLoop draws dt fuel (pos + 1) (tTot + draws pos) with
      | none => none
      | some (ts, pos') => some (tTot :: ts, pos')
    else some ([], pos)

/-- Source: crowddynamics/core/rand.py:41-96 (`poisson_clock`). -/
def poissonClock (draws : ℕ → ℝ) (dt : ℝ) (fuel pos : ℕ) : Option (List ℝ × ℕ) :=
  poissonClockLoop draws dt fuel (pos + 1) (draws pos)

/-- The double loop of `poisson_timings` that collects `times` and `indices` (here as
pairs). Source: crowddynamics/core/rand.py:115-122. -/
def poissonCollect (draws : ℕ → ℝ) (dt : ℝ) (fuel : ℕ) :
    List ℤ → ℕ → Option (List (ℝ × ℤ) × ℕ)
  | [], pos => some ([], pos)
  | i :: players, pos =>
    match poissonClock draws dt fuel pos with
    | none => none
    | some (ts, pos') =>
      match poissonCollect draws dt fuel players pos' with
      | none => none
      | some (rest, pos'') => some (ts.map (fun t => (t, i)) ++ rest, pos'')

/-- `poisson_timings`: `shuffle` is `np.random.shuffle`, `argsort` is `np.argsort`. The answer
is the list of yielded indices together with the array `players`, which is shuffled in place.
Source: crowddynamics/core/rand.py:99-127 (`poisson_timings`). -/
def poissonTimings (shuffle : List ℤ → List ℤ) (argsort : List ℝ → List ℕ) (draws : ℕ → ℝ)
    (dt : ℝ) (fuel pos : ℕ) (players : List ℤ) : Option (List ℤ × List ℤ) :=
  let players := shuffle players
  match poissonCollect draws dt fuel players pos with
  | none => none
  | some (events, _) =>
    let times := events.map Prod.fst
    let indices := events.map Prod.snd
    some ((argsort times).map (fun j => indices.getD j 0), players)

/-! ## `fluctuation.py` -/

/-- One row of `force_fluctuation`; `phi` is the angle drawn by `np.random.uniform`, `z`
gives the value drawn for `truncnorm`.
Source: crowddynamics/core/motion/fluctuation.py:14-42 (`force_fluctuation`). -/
def forceFluctuation (mass scale phi : ℝ) (z : ℝ → ℝ → ℝ) : Vec :=
  let unit : Vec := (Real.cos phi, Real.sin phi)
  let magnitude := truncnorm 0 3 0 scale none z
  (mass * magnitude) • unit

/-- One row of `torque_fluctuation`.
Source: crowddynamics/core/motion/fluctuation.py:45-62 (`torque_fluctuation`). -/
def torqueFluctuation (inertiaRot scale : ℝ) (z : ℝ → ℝ → ℝ) : ℝ :=
  inertiaRot * truncnorm (-3) 3 0 scale none z

/-- The node `Fluctuation`; the drawn values are given for each row.
Source: crowddynamics/simulation/logic.py:78-86. -/
def fluctuation {n : ℕ} (phi : Fin n → ℝ) (z w : Fin n → ℝ → ℝ → ℝ)
    (agents : AgentArray n) : AgentArray n :=
  let rows : Crowd n := fun i => { agents.rows i with
    force := (agents.rows i).force +
      forceFluctuation (agents.rows i).mass (agents.rows i).stdRandForce (phi i) (z i) }
  let agents := { agents with rows := rows }
  if isModel agents .threeCircle then
    { agents with rows := fun i => { agents.rows i with
      torque := (agents.rows i).torque +
        torqueFluctuation (agents.rows i).inertiaRot (agents.rows i).stdRandTorque (w i) } }
  else agents

end

end CrowdDynamics
