import Verif.Model.Float64
import Verif.Model.Interactions
import Verif.Model.Evacuation
import Verif.Model.BlockList

/-!
# Models that round after each operation

The functions of this file are those of `Verif.Model.Vector2D`, `Verif.Model.Geom2D`,
`Verif.Model.Evacuation`, `Verif.Model.BlockList`, `Verif.Model.PowerLaw`,
`Verif.Model.Interactions` and `Verif.Model.Motion`, with the result of each arithmetic
operation rounded. `Arith.exact` gives the models with exact reals back.

Trusted: CPython, numba and numpy perform one rounding per operation and do not fuse or
reorder operations (`fastmath` is not set anywhere in the package), and compute `%` and `//` on
floats with the algorithm of `float_divmod` of CPython.
-/

namespace CrowdDynamics

noncomputable section

open Classical Real

/-- The arithmetic of a machine: rounding of `+ - * / sqrt`, and the library functions `hypot`
and `exp`, which need not be correctly rounded.
Source: the operations used in crowddynamics/core/vector2D.py:112 and
crowddynamics/core/motion/power_law.py:102. -/
structure Arith where
  /-- rounding after an operation -/
  rnd : ℝ → ℝ
  /-- `np.hypot` -/
  hypot : ℝ → ℝ → ℝ
  /-- `np.exp` -/
  exp : ℝ → ℝ

/-- Exact arithmetic, as in the other files of the model.
Source: crowddynamics/core/vector2D.py:112 and crowddynamics/core/motion/power_law.py:102. -/
def Arith.exact : Arith := ⟨id, fun x y => √(x ^ 2 + y ^ 2), Real.exp⟩

/-- The machine: correctly rounded library functions.
Source: crowddynamics/core/vector2D.py:112 and crowddynamics/core/motion/power_law.py:102.
Simplification: the real `hypot` and `exp` may err in the last digit; used in examples and in C167 only. -/
def Arith.machine : Arith :=
  ⟨fl64, fun x y => fl64 (√(x ^ 2 + y ^ 2)), fun x => fl64 (Real.exp x)⟩

/-! ## Division with remainder -/

/-- The function `fmod` of C: the remainder has the sign of the dividend. It is exact, no
rounding takes place.
Source: used by `%` at crowddynamics/core/vector2D.py:29 and by `//` at
crowddynamics/core/block_list.py:105, crowddynamics/core/evacuation.py:83-85. -/
def cFmod (x y : ℝ) : ℝ := x - y * (if 0 ≤ x / y then (⌊x / y⌋ : ℝ) else ⌈x / y⌉)

/-- `x % y` on floats, `y ≠ 0`: the remainder of `fmod` is moved to the sign of the divisor.
Source: the operator used at crowddynamics/core/vector2D.py:29. -/
def pyModF (rnd : ℝ → ℝ) (x y : ℝ) : ℝ :=
  let mod := cFmod x y
  if mod ≠ 0 then
    if ¬ (y < 0 ↔ mod < 0) then rnd (mod + y) else mod
  else 0

/-- `x // y` on floats, `y ≠ 0`.
Source: the operator used at crowddynamics/core/block_list.py:105 and
crowddynamics/core/evacuation.py:83-85. -/
def pyFloorDivF (rnd : ℝ → ℝ) (x y : ℝ) : ℝ :=
  let mod := cFmod x y
  let div := rnd (rnd (x - mod) / y)
  let div := if mod ≠ 0 ∧ ¬ (y < 0 ↔ mod < 0) then rnd (div - 1) else div
  if div ≠ 0 then
    let floordiv : ℝ := ⌊div⌋
    if 1 / 2 < rnd (div - floordiv) then rnd (floordiv + 1) else floordiv
  else 0

/-- Source: crowddynamics/core/vector2D.py:8-36 (`wrap_to_pi`), with rounding. `np.pi` is the
rounded number. -/
def wrapToPiF (rnd : ℝ → ℝ) (rad : ℝ) : ℝ :=
  let npPi := rnd π
  let rad_ := pyModF rnd rad (rnd (2 * npPi))
  if rad < 0 ∧ rad_ = npPi then -npPi
  else if rad_ > npPi then rnd (rad_ - rnd (2 * npPi))
  else rad_

/-- Source: crowddynamics/core/evacuation.py:15-84 (`narrow_exit_capacity`), with
rounding. -/
def narrowExitCapacityF (rnd : ℝ → ℝ) (dDoor dAgent : ℝ) (dLayer : Option ℝ) (coeff : ℝ) : ℝ :=
  if dDoor < dAgent then 0
  else match dLayer with
    | none => rnd (coeff * pyFloorDivF rnd dDoor dAgent)
    | some l => rnd (coeff * pyFloorDivF rnd (rnd (dDoor - rnd (dAgent - l))) l)

/-- Source: crowddynamics/core/block_list.py:93-107 (`_transform`), with rounding. The keys are
tuples of floats. -/
def blockTransformF (rnd : ℝ → ℝ) (value : List ℝ) (cellSize : ℝ) : List ℝ :=
  value.map fun elem => pyFloorDivF rnd elem cellSize

/-- Source: crowddynamics/core/block_list.py:109-122 (`_nearest_blocks`), with rounding:
`sum((index, i))` is `0 + index + i`. -/
def nearestBlocksF (rnd : ℝ → ℝ) (index : List ℝ) (radius : ℤ) : List (List ℝ) :=
  (offsetProduct radius index.length).map fun i =>
    List.zipWith (fun (a : ℝ) (b : ℤ) => rnd (rnd (0 + a) + b)) index i

/-! ## Geometry -/

/-- Difference of two arrays.
Source: the operator used at crowddynamics/core/geom2D.py:49-51. -/
def vecSubF (rnd : ℝ → ℝ) (u v : Vec) : Vec := (rnd (u.1 - v.1), rnd (u.2 - v.2))

/-- Source: crowddynamics/core/geom2D.py:36-59 (`line_intersect`), with rounding. -/
def lineIntersectF (rnd : ℝ → ℝ) (x0 x1 y0 y1 : Vec) : Bool :=
  let u := vecSubF rnd x1 x0
  let v := vecSubF rnd y1 y0
  let b := vecSubF rnd y0 x0
  let d := rnd (rnd (u.1 * v.2) - rnd (u.2 * v.1))
  if d = 0 then false
  else
    let t0 := rnd (rnd (b.1 * v.2) - rnd (b.2 * v.1))
    let t1 := rnd (rnd (b.1 * u.2) - rnd (b.2 * u.1))
    decide ((0 ≤ rnd (t0 / d) ∧ rnd (t0 / d) ≤ 1) ∧ (0 ≤ rnd (t1 / d) ∧ rnd (t1 / d) ≤ 1))

/-! ## Random clocks -/

/-- The loop of `poisson_clock`, with rounding; see `poissonClockLoop`.
Source: crowddynamics/core/rand.py:93-96. -/
def poissonClockLoopF (rnd : ℝ → ℝ) (draws : ℕ → ℝ) (dt : ℝ) :
    ℕ → ℕ → ℝ → Option (List ℝ × ℕ)
  | 0, _, _ => none
  | fuel + 1, pos, tTot =>
    if tTot < dt then
      match poissonClockLoopF rnd draws dt fuel (pos + 1) (rnd (tTot + draws pos)) with
      | none => none
      | some (ts, pos') => some (tTot :: ts, pos')
    else some ([], pos)

/-- Source: crowddynamics/core/rand.py:41-96 (`poisson_clock`), with rounding. -/
def poissonClockF (rnd : ℝ → ℝ) (draws : ℕ → ℝ) (dt : ℝ) (fuel pos : ℕ) :
    Option (List ℝ × ℕ) :=
  poissonClockLoopF rnd draws dt fuel (pos + 1) (draws pos)

/-! ## Forces between two agents -/

/-- Source: crowddynamics/core/vector2D.py:99-112 (`length`), with rounding. -/
def lengthF (A : Arith) (v : Vec) : ℝ := A.hypot v.1 v.2

/-- Source: crowddynamics/core/vector2D.py:115-130 (`dot`), with rounding. -/
def dotF (rnd : ℝ → ℝ) (u v : Vec) : ℝ := rnd (rnd (u.1 * v.1) + rnd (u.2 * v.2))

/-- Source: crowddynamics/core/vector2D.py:166-187 (`truncate`), with rounding. -/
def truncateF (A : Arith) (v : Vec) (l : ℝ) : Vec :=
  let vlen := lengthF A v
  if vlen > l then (A.rnd (v.1 * A.rnd (l / vlen)), A.rnd (v.2 * A.rnd (l / vlen))) else v

/-- Source: crowddynamics/core/distance.py:16-47 (`distance_circles`), with rounding. -/
def distanceCirclesF (A : Arith) (x0 : Vec) (r0 : ℝ) (x1 : Vec) (r1 : ℝ) : ℝ × Vec :=
  let x := vecSubF A.rnd x0 x1
  let d := lengthF A x
  let rTot := A.rnd (r0 + r1)
  let h := A.rnd (d - rTot)
  (h, if d = 0 then (0, 0) else (A.rnd (x.1 / d), A.rnd (x.2 / d)))

/-- Source: crowddynamics/core/motion/power_law.py:84-102 (`magnitude`), with rounding. -/
def magnitudeF (A : Arith) (tau tau0 : ℝ) : ℝ :=
  A.rnd (A.rnd (A.rnd (A.rnd (2 / tau) + A.rnd (1 / tau0)) * A.exp (A.rnd (-tau / tau0))) /
    A.rnd (tau * tau))

/-- Source: crowddynamics/core/motion/power_law.py:107-126 (`gradient_circle_circle`), with
rounding. -/
def gradientCircleCircleF (rnd : ℝ → ℝ) (xRel vRel : Vec) (a b d : ℝ) : Vec :=
  let comp := fun x v : ℝ => rnd (rnd (v - rnd (rnd (rnd (v * b) + rnd (x * a)) / d)) / a)
  (comp xRel.1 vRel.1, comp xRel.2 vRel.2)

/-- The two forces computed from `grad` and `tau`, truncated, with rounding. Adding to and
subtracting from the zero arrays is exact.
Source: crowddynamics/core/motion/power_law.py:250-259. -/
def socialForcesF (A : Arith) (ai aj : Agent) (grad : Vec) (tau : ℝ) : Vec × Vec :=
  let part := fun (ag : Agent) (g : ℝ) =>
    A.rnd (A.rnd (A.rnd (-ag.mass * ag.kSoc) * g) * magnitudeF A tau ag.tau0)
  let forceI : Vec := (part ai grad.1, part ai grad.2)
  let forceJ : Vec := (-part aj grad.1, -part aj grad.2)
  (truncateF A forceI fSocMax, truncateF A forceJ fSocMax)

/-- Source: crowddynamics/core/motion/power_law.py:215-259 (`force_social_circular`), with
rounding. -/
def forceSocialCircularF (A : Arith) (ai aj : Agent) : Vec × Vec :=
  let xRel := vecSubF A.rnd ai.position aj.position
  let vRel := vecSubF A.rnd ai.velocity aj.velocity
  let rTot := A.rnd (ai.radius + aj.radius)
  let a := dotF A.rnd vRel vRel
  let b := -dotF A.rnd xRel vRel
  let c := A.rnd (dotF A.rnd xRel xRel - A.rnd (rTot * rTot))
  let disc := A.rnd (A.rnd (b * b) - A.rnd (a * c))
  if disc < 0 then (0, 0)
  else
    let d := A.rnd (√disc)
    if d = 0 ∨ a = 0 then (0, 0)
    else
      let tau := A.rnd (A.rnd (b - d) / a)
      let tauMax : ℝ := 30
      if tau ≤ 0 ∨ tau > tauMax then (0, 0)
      else socialForcesF A ai aj (gradientCircleCircleF A.rnd xRel vRel a b d) tau

/-- Source: crowddynamics/core/motion/contact.py:14-48 (`force_contact`), with rounding. -/
def forceContactF (rnd : ℝ → ℝ) (h : ℝ) (n v t : Vec) (mu kappa damping : ℝ) : Vec :=
  let comp := fun ni ti : ℝ =>
    rnd (rnd (-h * rnd (rnd (mu * ni) - rnd (rnd (kappa * dotF rnd v t) * ti))) +
      rnd (rnd (damping * dotF rnd v n) * ni))
  (comp n.1 t.1, comp n.2 t.2)

/-- `agents[i]['force'][:] += f`, with rounding.
Source: crowddynamics/core/interactions.py:69-70. -/
def addForceF {n : ℕ} (rnd : ℝ → ℝ) (agents : Crowd n) (i : Fin n) (f : Vec) : Crowd n :=
  Function.update agents i { agents i with
    force := (rnd ((agents i).force.1 + f.1), rnd ((agents i).force.2 + f.2)) }

/-- The forces `force_i, force_j` of a pair that is in sight, with rounding; `none` if the pair
is out of sight.
Source: crowddynamics/core/interactions.py:53-67. -/
def pairForcesF (A : Arith) (ai aj : Agent) : Option (Vec × Vec) :=
  let hn := distanceCirclesF A ai.position ai.radius aj.position aj.radius
  let h := hn.1
  let n := hn.2
  if h < sigthSoc then
    let f := forceSocialCircularF A ai aj
    if h < 0 then
      let t := rotate270 n
      let v := vecSubF A.rnd ai.velocity aj.velocity
      let ci := forceContactF A.rnd h n v t ai.mu ai.kappa ai.damping
      let cj := forceContactF A.rnd h n v t aj.mu aj.kappa aj.damping
      some ((A.rnd (f.1.1 + ci.1), A.rnd (f.1.2 + ci.2)),
        (A.rnd (f.2.1 - cj.1), A.rnd (f.2.2 - cj.2)))
    else some f
  else none

/-- Source: crowddynamics/core/interactions.py:53-70 (`interaction_agent_agent_circular`), with
rounding. -/
def interactionAgentAgentCircularF {n : ℕ} (A : Arith) (i j : Fin n) (agents : Crowd n) :
    Crowd n :=
  match pairForcesF A (agents i) (agents j) with
  | none => agents
  | some f => addForceF A.rnd (addForceF A.rnd agents i f.1) j f.2

/-- Source: crowddynamics/core/interactions.py:150-155 (`agent_agent_circular`), with rounding;
`pairs` is what `iter_nearest_neighbors` yields. -/
def agentAgentCircularF {n : ℕ} (A : Arith) (agents : Crowd n) (pairs : List (Fin n × Fin n)) :
    Crowd n :=
  pairs.foldl (fun agents p => interactionAgentAgentCircularF A p.1 p.2 agents) agents

end

end CrowdDynamics
