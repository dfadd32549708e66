import Verif.Model.Distance
import Verif.Model.Agent
import Mathlib.Analysis.SpecialFunctions.Exp

/-!
# Model of `crowddynamics/core/motion/power_law.py`

A NaN float is `none`. The functions of the source take the agent array and two
indices; the model takes the two rows.
-/

namespace CrowdDynamics

noncomputable section

open Classical Real

/-- Source: crowddynamics/core/motion/power_law.py:52. -/
def fSocMax : ℝ := 2000

/-- `np.sqrt` on a float: NaN for a negative argument.
Source: used at crowddynamics/core/motion/power_law.py:198, 236, 317. -/
def npSqrt (x : ℝ) : Option ℝ := if x < 0 then none else some (√x)

/-- Source: crowddynamics/core/motion/power_law.py:56-80 (`potential`). -/
def potential (k tau tau0 : ℝ) : ℝ := k / tau ^ 2 * exp (-tau / tau0)

/-- Source: crowddynamics/core/motion/power_law.py:84-102 (`magnitude`). -/
def magnitude (tau tau0 : ℝ) : ℝ := (2 / tau + 1 / tau0) * exp (-tau / tau0) / tau ^ 2

/-- Source: crowddynamics/core/motion/power_law.py:107-126
(`gradient_circle_circle`). -/
def gradientCircleCircle (xRel vRel : Vec) (a b d : ℝ) : Vec :=
  ((vRel.1 - (vRel.1 * b + xRel.1 * a) / d) / a,
   (vRel.2 - (vRel.2 * b + xRel.2 * a) / d) / a)

/-- Source: crowddynamics/core/motion/power_law.py:131-149
(`gradient_three_circle`). -/
def gradientThreeCircle (xRel vRel rOff : Vec) (a b d : ℝ) : Vec :=
  ((vRel.1 - (a * (xRel.1 + 2 * rOff.1) + b * vRel.1) / d) / a,
   (vRel.2 - (a * (xRel.2 + 2 * rOff.2) + b * vRel.2) / d) / a)

/-- Source: crowddynamics/core/motion/power_law.py:154-210
(`time_to_collision_circle_circle`). `none` is the result `(nan, zeros(2))`. -/
def timeToCollisionCircleCircle (xRel vRel : Vec) (rTot : ℝ) : Option (ℝ × Vec) :=
  let a := dot vRel vRel
  let b := -dot xRel vRel
  let c := dot xRel xRel - rTot ^ 2
  match npSqrt (b ^ 2 - a * c) with
  | none => none
  | some d =>
    if d = 0 ∨ a = 0 then none
    else
      let tau := (b - d) / a
      if tau ≤ 0 then none
      else some (tau, gradientCircleCircle xRel vRel a b d)

/-- The two forces computed from `grad` and `tau`, truncated.
Source: crowddynamics/core/motion/power_law.py:250-259 and 357-363 (the same
statements in both functions). -/
def socialForces (ai aj : Agent) (grad : Vec) (tau : ℝ) : Vec × Vec :=
  let forceI := (-ai.mass * ai.kSoc * magnitude tau ai.tau0) • grad
  let forceJ := -((-aj.mass * aj.kSoc * magnitude tau aj.tau0) • grad)
  (truncate forceI fSocMax, truncate forceJ fSocMax)

/-- Source: crowddynamics/core/motion/power_law.py:215-259
(`force_social_circular`). -/
def forceSocialCircular (ai aj : Agent) : Vec × Vec :=
  let xRel := ai.position - aj.position
  let vRel := ai.velocity - aj.velocity
  let rTot := ai.radius + aj.radius
  let a := dot vRel vRel
  let b := -dot xRel vRel
  let c := dot xRel xRel - rTot ^ 2
  match npSqrt (b ^ 2 - a * c) with
  | none => (0, 0)
  | some d =>
    if d = 0 ∨ a = 0 then (0, 0)
    else
      let tau := (b - d) / a
      let tauMax : ℝ := 30
      if tau ≤ 0 ∨ tau > tauMax then (0, 0)
      else socialForces ai aj (gradientCircleCircle xRel vRel a b d) tau

/-- The variables `contact_i, contact_j, tau, b_min, d_min` of the search loop;
`none` stands for `tau = nan`, in which case the other variables have their
initial values.
Source: crowddynamics/core/motion/power_law.py:300-306. -/
structure Contact where
  /-- `contact_i` -/
  i : Fin 3
  /-- `contact_j` -/
  j : Fin 3
  /-- `tau` -/
  tau : ℝ
  /-- `b_min` -/
  b : ℝ
  /-- `d_min` -/
  d : ℝ

/-- Body of the search loop.
Source: crowddynamics/core/motion/power_law.py:310-328. -/
def contactStep (xi : Fin 3 → Vec) (ri : Fin 3 → ℝ) (xj : Fin 3 → Vec) (rj : Fin 3 → ℝ)
    (vRel : Vec) (a : ℝ) (s : Option Contact) (k : Fin 3 × Fin 3) : Option Contact :=
  let xRel := xi k.1 - xj k.2
  let rTot := ri k.1 + rj k.2
  let b := -dot xRel vRel
  let c := dot xRel xRel - rTot ^ 2
  match npSqrt (b ^ 2 - a * c) with
  | none => s
  | some d =>
    if d = 0 then s
    else
      let tauNew := (b - d) / a
      match s with
      | none => some ⟨k.1, k.2, tauNew, b, d⟩
      | some s => if 0 < tauNew ∧ tauNew < s.tau then some ⟨k.1, k.2, tauNew, b, d⟩ else some s

/-- Shoulder displacement vector of the touching part.
Source: crowddynamics/core/motion/power_law.py:334-350. -/
def contactOffset (a : Agent) (contact : Fin 3) : Vec :=
  if contact = 1 then (a.rTs * sin a.orientation, a.rTs * -cos a.orientation)
  else if contact = 2 then (-(a.rTs * sin a.orientation), -(a.rTs * -cos a.orientation))
  else (0, 0)

/-- Source: crowddynamics/core/motion/power_law.py:264-363
(`force_social_three_circle`). -/
def forceSocialThreeCircle (ai aj : Agent) : Vec × Vec :=
  let vRel := ai.velocity - aj.velocity
  let a := dot vRel vRel
  if a = 0 then (0, 0)
  else
    match pairs33.foldl (contactStep ai.circles ai.radii aj.circles aj.radii vRel a) none with
    | none => (0, 0)
    | some s =>
      if s.tau ≤ 0 then (0, 0)
      else
        let xRel := ai.position - aj.position
        let rOff := contactOffset ai s.i - contactOffset aj s.j
        socialForces ai aj (gradientThreeCircle xRel vRel rOff a s.b s.d) s.tau

end

end CrowdDynamics
