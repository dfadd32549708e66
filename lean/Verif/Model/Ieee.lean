import Verif.Model.Rounded
import Verif.Model.Errors

/-!
# The social force with infinities and NaN

The models in `Verif.Model.Rounded` round after each operation, but have no overflow. Here the
numbers are those of IEEE 754: results that are too large are infinite, and operations without a
meaningful result give NaN. Compiled functions raise `ZeroDivisionError` when a number is divided
by zero (numba's default `error_model='python'`); divisions of arrays do not raise.
-/

namespace CrowdDynamics

noncomputable section

open Classical Real

/-- A `float64` of IEEE 754. Simplification: there is one zero.
Source: the type `f8` of crowddynamics/core/motion/power_law.py:44, 83. -/
inductive F64 where
  /-- not a number -/
  | nan
  /-- infinity, with its sign -/
  | inf (neg : Bool)
  /-- a finite number -/
  | num (x : ℝ)

/-- The result of an operation that was rounded to `y`: infinite if it is too large.
Source: the type `f8` of crowddynamics/core/motion/power_law.py:44, 83. -/
def F64.pack (y : ℝ) : F64 :=
  if |y| < 2 ^ (1024 : ℤ) then .num y else .inf (decide (y < 0))

/-- `-x`. Source: the operator used at crowddynamics/core/motion/power_law.py:102, 234, 252. -/
def F64.neg : F64 → F64
  | .nan => .nan
  | .inf s => .inf (!s)
  | .num x => .num (-x)

/-- `x + y`. Source: the operator used at crowddynamics/core/motion/power_law.py:102, 126. -/
def F64.add (rnd : ℝ → ℝ) : F64 → F64 → F64
  | .nan, _ => .nan
  | _, .nan => .nan
  | .inf s, .inf t => if s = t then .inf s else .nan
  | .inf s, .num _ => .inf s
  | .num _, .inf t => .inf t
  | .num x, .num y => .pack (rnd (x + y))

/-- `x - y`. Source: the operator used at crowddynamics/core/motion/power_law.py:126, 229-242. -/
def F64.sub (rnd : ℝ → ℝ) (x y : F64) : F64 := x.add rnd y.neg

/-- `x * y`. Source: the operator used at crowddynamics/core/motion/power_law.py:102, 126, 236. -/
def F64.mul (rnd : ℝ → ℝ) : F64 → F64 → F64
  | .nan, _ => .nan
  | _, .nan => .nan
  | .inf s, .inf t => .inf (s != t)
  | .inf s, .num y => if y = 0 then .nan else .inf (s != decide (y < 0))
  | .num x, .inf t => if x = 0 then .nan else .inf (decide (x < 0) != t)
  | .num x, .num y => .pack (rnd (x * y))

/-- `x / y` for arrays. Simplification: the sign of a quotient by zero is that of the dividend.
Source: the operator used at crowddynamics/core/motion/power_law.py:126. -/
def F64.div (rnd : ℝ → ℝ) : F64 → F64 → F64
  | .nan, _ => .nan
  | _, .nan => .nan
  | .inf _, .inf _ => .nan
  | .inf s, .num y => .inf (s != decide (y < 0))
  | .num _, .inf _ => .num 0
  | .num x, .num y =>
    if y = 0 then (if x = 0 then .nan else .inf (decide (x < 0))) else .pack (rnd (x / y))

/-- `x / y` for numbers: division by zero raises `ZeroDivisionError`.
Source: the operator used at crowddynamics/core/motion/power_law.py:102, 242 and
crowddynamics/core/vector2D.py:187. -/
def F64.sdiv (rnd : ℝ → ℝ) (x y : F64) : Except PyErr F64 :=
  if y = .num 0 then .error .other else .ok (x.div rnd y)

/-- `np.sqrt(x)`. Source: crowddynamics/core/motion/power_law.py:236. -/
def F64.sqrt (rnd : ℝ → ℝ) : F64 → F64
  | .nan => .nan
  | .inf s => if s then .nan else .inf false
  | .num x => if x < 0 then .nan else .pack (rnd (√x))

/-- `np.exp(x)`. Source: crowddynamics/core/motion/power_law.py:102. -/
def F64.exp (A : Arith) : F64 → F64
  | .nan => .nan
  | .inf s => if s then .num 0 else .inf false
  | .num x => .pack (A.exp x)

/-- `np.hypot(x, y)`: infinite if one of the arguments is.
Source: crowddynamics/core/vector2D.py:113. -/
def F64.hypot (A : Arith) : F64 → F64 → F64
  | .inf _, _ => .inf false
  | _, .inf _ => .inf false
  | .nan, _ => .nan
  | _, .nan => .nan
  | .num x, .num y => .pack (A.hypot x y)

/-- `x <= y`; comparisons with NaN are false.
Source: the operator used at crowddynamics/core/motion/power_law.py:245. -/
def F64.le : F64 → F64 → Prop
  | .nan, _ => False
  | _, .nan => False
  | .inf s, .inf t => s = true ∨ t = false
  | .inf s, .num _ => s = true
  | .num _, .inf t => t = false
  | .num x, .num y => x ≤ y

/-- `x > y`; comparisons with NaN are false.
Source: the operator used at crowddynamics/core/motion/power_law.py:245 and
crowddynamics/core/vector2D.py:186. -/
def F64.gt : F64 → F64 → Prop
  | .nan, _ => False
  | _, .nan => False
  | .inf s, .inf t => s = false ∧ t = true
  | .inf s, .num _ => s = false
  | .num _, .inf t => t = true
  | .num x, .num y => x > y

/-- Source: crowddynamics/core/vector2D.py:115-130 (`dot`). -/
def dotI (rnd : ℝ → ℝ) (u v : F64 × F64) : F64 := (u.1.mul rnd v.1).add rnd (u.2.mul rnd v.2)

/-- The difference of two vectors that are stored in the agent array.
Source: crowddynamics/core/motion/power_law.py:229-230. -/
def subI (rnd : ℝ → ℝ) (u v : Vec) : F64 × F64 :=
  ((F64.num u.1).sub rnd (.num v.1), (F64.num u.2).sub rnd (.num v.2))

/-- Source: crowddynamics/core/motion/power_law.py:84-102 (`magnitude`). -/
def magnitudeI (A : Arith) (tau tau0 : F64) : Except PyErr F64 := do
  let q ← (F64.num 2).sdiv A.rnd tau
  let q0 ← (F64.num 1).sdiv A.rnd tau0
  let e ← tau.neg.sdiv A.rnd tau0
  ((q.add A.rnd q0).mul A.rnd (e.exp A)).sdiv A.rnd (tau.mul A.rnd tau)

/-- Source: crowddynamics/core/motion/power_law.py:107-126 (`gradient_circle_circle`). -/
def gradientI (rnd : ℝ → ℝ) (xRel vRel : F64 × F64) (a b d : F64) : F64 × F64 :=
  let comp := fun x v : F64 =>
    (v.sub rnd (((v.mul rnd b).add rnd (x.mul rnd a)).div rnd d)).div rnd a
  (comp xRel.1 vRel.1, comp xRel.2 vRel.2)

/-- Source: crowddynamics/core/vector2D.py:166-187 (`truncate`). -/
def truncateI (A : Arith) (v : F64 × F64) (l : F64) : Except PyErr (F64 × F64) := do
  let vlen := v.1.hypot A v.2
  if vlen.gt l then
    let s ← l.sdiv A.rnd vlen
    .ok (v.1.mul A.rnd s, v.2.mul A.rnd s)
  else .ok v

/-- The force of one agent before it is truncated.
Source: crowddynamics/core/motion/power_law.py:250-253. -/
def socialPartI (A : Arith) (ag : Agent) (grad : F64 × F64) (mag : F64) : F64 × F64 :=
  let mk := (F64.num ag.mass).neg.mul A.rnd (.num ag.kSoc)
  ((mk.mul A.rnd grad.1).mul A.rnd mag, (mk.mul A.rnd grad.2).mul A.rnd mag)

/-- Source: crowddynamics/core/motion/power_law.py:215-259 (`force_social_circular`). Adding to and
subtracting from the zero arrays is exact. -/
def forceSocialCircularI (A : Arith) (ai aj : Agent) :
    Except PyErr ((F64 × F64) × (F64 × F64)) :=
  let zero : F64 × F64 := (.num 0, .num 0)
  let xRel := subI A.rnd ai.position aj.position
  let vRel := subI A.rnd ai.velocity aj.velocity
  let rTot := (F64.num ai.radius).add A.rnd (.num aj.radius)
  let a := dotI A.rnd vRel vRel
  let b := (dotI A.rnd xRel vRel).neg
  let c := (dotI A.rnd xRel xRel).sub A.rnd (rTot.mul A.rnd rTot)
  let d := ((b.mul A.rnd b).sub A.rnd (a.mul A.rnd c)).sqrt A.rnd
  if d = .nan ∨ d = .num 0 ∨ a = .num 0 then .ok (zero, zero)
  else do
    let tau ← (b.sub A.rnd d).sdiv A.rnd a
    if tau.le (.num 0) ∨ tau.gt (.num 30) then .ok (zero, zero)
    else do
      let grad := gradientI A.rnd xRel vRel a b d
      let magI ← magnitudeI A tau (.num ai.tau0)
      let magJ ← magnitudeI A tau (.num aj.tau0)
      let forceI ← truncateI A (socialPartI A ai grad magI) (.num fSocMax)
      let partJ := socialPartI A aj grad magJ
      let forceJ ← truncateI A (partJ.1.neg, partJ.2.neg) (.num fSocMax)
      .ok (forceI, forceJ)

end

end CrowdDynamics
