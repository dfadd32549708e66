import Verif.Spec.Interactions
import Verif.Spec.SocialForce
import Verif.Spec.ShippedLogic
import Verif.Spec.Outline
import Verif.Spec.Motion

/-!
# The equations of motion of circular agents

What the forces on a circular agent ought to be, in terms of the stored data only.
-/

namespace CrowdDynamics.Spec

open CrowdDynamics

noncomputable section

/-- The discs `a` and `b` touch at time `t > 0`, not before, and then overlap; `t` is at most 30. -/
def CollideAt (a b : Agent) (t : ℝ) : Prop :=
  0 < t ∧ t ≤ 30 ∧
  FirstTouch (a.position - b.position) (a.velocity - b.velocity) (a.radius + b.radius) t ∧
  WillOverlap (a.position - b.position) (a.velocity - b.velocity) (a.radius + b.radius)

/-- `f` is the social force of `b` on `a`: minus the mass times the gradient of the anticipation
energy as a function of the position of `a`, cut back to length 2000; zero if no collision is
ahead. -/
def IsSocialForce (a b : Agent) (f : ℝ × ℝ) : Prop :=
  (∀ t, CollideAt a b t → ∃ g,
    IsGradientAt (fun p => anticipationEnergy a.kSoc a.tau0
      (touchTime (p - b.position) (a.velocity - b.velocity) (a.radius + b.radius))) g a.position ∧
    CappedTo 2000 ((-a.mass) • g) f) ∧
  ((∀ t, ¬ CollideAt a b t) → f = 0)

/-- `f` is the contact force of `b` on `a`: none without overlap, otherwise elastic repulsion and
friction proportional to the overlap, and the normal damping term, with respect to the unit vector
`m` from `b` to `a` (zero if the centres coincide). -/
def IsContactForce (a b : Agent) (f : ℝ × ℝ) : Prop :=
  (a.radius + b.radius ≤ dist a.position b.position → f = 0) ∧
  (dist a.position b.position < a.radius + b.radius → ∃ m : ℝ × ℝ,
    dist a.position b.position • m = a.position - b.position ∧
    (a.position ≠ b.position → len m = 1) ∧ (a.position = b.position → m = 0) ∧
    f = (a.radius + b.radius - dist a.position b.position) •
        (a.mu • m - (a.kappa * inner (a.velocity - b.velocity) (m.2, -m.1)) • (m.2, -m.1)) +
      (a.damping * inner (a.velocity - b.velocity) m) • m)

/-- `f` is the whole force of `b` on `a`: social and contact force if the gap between the bodies is
less than 3, otherwise none. -/
def IsNeighbourForce (a b : Agent) (f : ℝ × ℝ) : Prop :=
  (3 + (a.radius + b.radius) ≤ dist a.position b.position → f = 0) ∧
  (dist a.position b.position < 3 + (a.radius + b.radius) →
    ∃ s c, IsSocialForce a b s ∧ IsContactForce a b c ∧ f = s + c)

/-- The walls of a field: the edges of its obstacles, with holes filled. -/
def fieldWalls : Option Geom → List (Vec × Vec)
  | none => []
  | some g => outline (fillHoles g)

/-- `f` is what one update of a node ought to add to the force on the circular agent `k`, in the
given crowd: the fluctuation is some vector of at most three standard deviations, the adjusting
force relaxes the velocity to the desired one, and agents and walls act as above. All other nodes
add nothing. -/
def Contributes {n : ℕ} (env : SimEnv n) (crowd : Crowd n) (k : Fin n) : Node → ℝ × ℝ → Prop
  | .fluctuation, f => len f ≤ 3 * (crowd k).mass * (crowd k).stdRandForce
  | .adjusting, f => (crowd k).tauAdj • f =
      (crowd k).mass • ((crowd k).targetVelocity • (crowd k).targetDirection - (crowd k).velocity)
  | .agentAgent _, f => ∃ F : Fin n → ℝ × ℝ,
      (∀ j, j ≠ k → IsNeighbourForce (crowd k) (crowd j) (F j)) ∧
      f = ∑ j ∈ Finset.univ.erase k, F j
  | .agentObstacle, f => ∃ F : Vec × Vec → ℝ × ℝ,
      (∀ w, IsWallEffect .circular (crowd k) w.1 w.2 (F w, 0)) ∧
      f = ((fieldWalls env.field.obstacles).map F).sum
  | _, f => f = 0

/-- The crowd of `s` with the directions in which the agents of `t` want to walk. -/
def aiming {n : ℕ} (s t : SimState n) : Crowd n := fun k =>
  { s.agents.rows k with targetDirection := (t.agents.rows k).targetDirection }

/-- What is assumed of the field, the agents, the random numbers and the cell list library. -/
structure Regular {n : ℕ} (env : SimEnv n) (nodes : List Node) (s : SimState n) : Prop where
  circular : s.agents.dtype.kind = .circular
  radius : ∀ k, 0 ≤ (s.agents.rows k).radius
  mass : ∀ k, 0 < (s.agents.rows k).mass
  tau : ∀ k, 0 < (s.agents.rows k).tauAdj
  std : ∀ k, 0 ≤ (s.agents.rows k).stdRandForce
  draws : ∀ d k a b, a ≤ b → a ≤ env.z d k a b ∧ env.z d k a b ≤ b
  obstacles : ∀ g, env.field.obstacles = some g → Supported g
  cells : ∀ c, .agentAgent c ∈ nodes → 0 < c ∧
    (∀ i j, i ≠ j → 3 + ((s.agents.rows i).radius + (s.agents.rows j).radius) ≤ c) ∧
    EnumeratesNeighbours (fun i => (s.agents.rows i).position) c
      (env.cellPairs (fun i => (s.agents.rows i).position) c)

/-- One time step `dt` of agent `a` under the force `f`, giving `b`: with the accelerations `p` and
`q` of the forces of the last and of this step, the velocity changes by their mean times `dt`, and
the position by the new velocity times `dt` plus `dt² / 2` times the new acceleration. -/
def TimeStep (a b : Agent) (f : ℝ × ℝ) (dt : ℝ) : Prop :=
  ∃ p q : ℝ × ℝ, IsAcceleration a.mass a.forcePrev p ∧ IsAcceleration a.mass f q ∧
    b.velocity = a.velocity + (dt / 2) • (p + q) ∧
    b.position = a.position + dt • b.velocity + (dt ^ 2 / 2) • q ∧
    b.forcePrev = f

open Classical in
/-- Every agent makes a time step of 0.01 under the sum of a bounded random force, the adjusting
force, the forces of all other agents and, if `order` contains the node for obstacles, the forces of
the walls; no forces are left. -/
def MovesByNewton {n : ℕ} (env : SimEnv n) (order : List Node) (s t : SimState n) : Prop :=
  ∀ i, (t.agents.rows i).force = 0 ∧
    ∃ fluctuation adjusting pairs walls,
      Contributes env (aiming s t) i .fluctuation fluctuation ∧
      Contributes env (aiming s t) i .adjusting adjusting ∧
      Contributes env (aiming s t) i (.agentAgent (3.0 + 2 * 0.3)) pairs ∧
      (if .agentObstacle ∈ order then Contributes env (aiming s t) i .agentObstacle walls
        else walls = 0) ∧
      TimeStep (s.agents.rows i) (t.agents.rows i) (fluctuation + adjusting + pairs + walls) 0.01

end

end CrowdDynamics.Spec
