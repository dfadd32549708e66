import Verif.Spec.Dynamics

/-!
# The equations of motion of three-circle agents

What the forces and torques on a three-circle agent ought to be, and what they are, in terms of the
stored data only.
-/

namespace CrowdDynamics.Spec

open CrowdDynamics

noncomputable section

/-- The moment of the force `f` with the arm `r`. -/
def moment (r f : ℝ × ℝ) : ℝ := r.1 * f.2 - r.2 * f.1

/-- The circles `p` of `a` and `q` of `b` are the ones between which the gap is smallest. -/
def Closest (a b : Agent) (p q : Fin 3) : Prop :=
  ∀ p' q', dist (a.circles p) (b.circles q) - (a.radii p + b.radii q) ≤
    dist (a.circles p') (b.circles q') - (a.radii p' + b.radii q')

/-- `m` is the unit vector from `y` to `x`, or zero if these are equal. -/
def IsUnitFrom (y x m : ℝ × ℝ) : Prop :=
  dist x y • m = x - y ∧ (x ≠ y → len m = 1) ∧ (x = y → m = 0)

/-- `f` reacts to the contact of the circles `p` and `q` at time `t` in the direction `G`: mass times
derivative of the anticipation energy at `t` times `G`, cut back to length 2000. -/
def ReactsTo (a : Agent) (t : ℝ) (G f : ℝ × ℝ) : Prop :=
  CappedTo 2000 ((a.mass * deriv (anticipationEnergy a.kSoc a.tau0) t) • G) f

/-- `f` is a social force on `a` that reacts to the earliest contact of `a` with `b`. The direction
`G` is that of `w - 3 o`, where `w` leads from the one circle to the other at the time of the contact
and `o` is the displacement of the circles from the torsos. (For the gradient of the energy it would
have to be `w`, see C72.) -/
def ReactsToEarliest (a b : Agent) (f : ℝ × ℝ) : Prop :=
  ∃ p q t, EarliestContact a b p q t ∧ ∃ w o G : ℝ × ℝ,
    w = a.circles p - b.circles q + t • (a.velocity - b.velocity) ∧
    o = (a.circles p - a.position) - (b.circles q - b.position) ∧
    inner w (a.velocity - b.velocity) • G = w - (3 : ℝ) • o ∧ ReactsTo a t G f

/-- `f` is the social force of `b` on `a`: zero or a reaction to the earliest contact, the latter
certainly if the torsos are going to collide. (Other collisions can be missed, see C27.) -/
def IsBodySocialForce (a b : Agent) (f : ℝ × ℝ) : Prop :=
  (f = 0 ∨ ReactsToEarliest a b f) ∧
  (∀ t, 0 < t → FirstTouch (a.position - b.position) (a.velocity - b.velocity) (a.rT + b.rT) t →
    WillOverlap (a.position - b.position) (a.velocity - b.velocity) (a.rT + b.rT) →
    ReactsToEarliest a b f)

/-- `f` is the contact force on `a` of overlapping bodies: elastic repulsion and friction
proportional to the depth `h` of the overlap, and the normal damping term. -/
def IsBodyContact (a b : Agent) (h : ℝ) (m f : ℝ × ℝ) : Prop :=
  f = h • (a.mu • m - (a.kappa * inner (a.velocity - b.velocity) (m.2, -m.1)) • (m.2, -m.1)) +
    (a.damping * inner (a.velocity - b.velocity) m) • m

/-- The effect `e` (force and torque) of `b` on `a` if `arm p q m` is the arm of the force: nothing
if the gap is at least 3; otherwise social force, and contact force of the closest circles if these
overlap. -/
def IsBodyEffect (arm : Fin 3 → Fin 3 → ℝ × ℝ → ℝ × ℝ → Prop) (a b : Agent) (e : (ℝ × ℝ) × ℝ) :
    Prop :=
  ∃ p q m gap, Closest a b p q ∧ IsUnitFrom (b.circles q) (a.circles p) m ∧
    gap = dist (a.circles p) (b.circles q) - (a.radii p + b.radii q) ∧
    (3 ≤ gap → e = 0) ∧
    (gap < 3 → ∃ s c r, IsBodySocialForce a b s ∧ (0 ≤ gap → c = 0) ∧
      (gap < 0 → IsBodyContact a b (-gap) m c) ∧ arm p q m r ∧
      e = (s + c, moment r (s + c)))

/-- The arm leads from the torso to the point of circle `p` that is nearest to the other body. -/
def ContactArm (a : Agent) (p _ : Fin 3) (m r : ℝ × ℝ) : Prop :=
  r = a.circles p - a.radii p • m - a.position

/-- The arm leads to the far side of a circle: of circle `p` of the agent itself, or of a circle of
that radius around the centre of circle `p` of the other agent. -/
def CodeArm (a b : Agent) (p _ : Fin 3) (m r : ℝ × ℝ) : Prop :=
  r = a.circles p + a.radii p • m - a.position ∨ r = b.circles p + a.radii p • m - a.position

/-- `e` is what one update of a node ought to add to force and torque of the three-circle agent `k`,
where `arm` restricts the arms of the forces between agents. The fluctuations are at most three
standard deviations, the adjusting force relaxes the velocity to the desired one, and the adjusting
torque relaxes the angular velocity to one that is proportional to the shortest turn `d` towards the
desired orientation. -/
def ContributesBody {n : ℕ} (arm : Agent → Agent → Fin 3 → Fin 3 → ℝ × ℝ → ℝ × ℝ → Prop)
    (env : SimEnv n) (crowd : Crowd n) (k : Fin n) : Node → (ℝ × ℝ) × ℝ → Prop
  | .fluctuation, e => len e.1 ≤ 3 * (crowd k).mass * (crowd k).stdRandForce ∧
      |e.2| ≤ 3 * (crowd k).inertiaRot * (crowd k).stdRandTorque
  | .adjusting, e =>
      (crowd k).tauAdj • e.1 = (crowd k).mass •
        ((crowd k).targetVelocity • (crowd k).targetDirection - (crowd k).velocity) ∧
      ∃ d, ShortestTurn (crowd k).orientation (crowd k).targetOrientation d ∧
        (crowd k).tauRot * e.2 = (crowd k).inertiaRot *
          (d / Real.pi * (crowd k).targetAngularVelocity - (crowd k).angularVelocity)
  | .agentAgent _, e => ∃ F : Fin n → (ℝ × ℝ) × ℝ,
      (∀ j, j ≠ k → IsBodyEffect (arm (crowd k) (crowd j)) (crowd k) (crowd j) (F j)) ∧
      e = ∑ j ∈ Finset.univ.erase k, F j
  | .agentObstacle, e => ∃ F : Vec × Vec → (ℝ × ℝ) × ℝ,
      (∀ w, IsWallEffect .threeCircle (crowd k) w.1 w.2 (F w)) ∧
      e = ((fieldWalls env.field.obstacles).map F).sum
  | _, e => e = 0

/-- The crowd of `s` with the directions and orientations that the agents of `t` want. -/
def aimingBody {n : ℕ} (s t : SimState n) : Crowd n := fun k =>
  { s.agents.rows k with
    targetDirection := (t.agents.rows k).targetDirection
    targetOrientation := (t.agents.rows k).targetOrientation }

/-- What is assumed of the field, the agents, the random numbers and the cell list library. -/
structure RegularBody {n : ℕ} (env : SimEnv n) (nodes : List Node) (s : SimState n) : Prop where
  kind : s.agents.dtype.kind = .threeCircle
  radii : ∀ k p, 0 ≤ (s.agents.rows k).radii p
  attached : ∀ k, ShouldersAttached (s.agents.rows k)
  mass : ∀ k, 0 < (s.agents.rows k).mass
  inertia : ∀ k, 0 < (s.agents.rows k).inertiaRot
  tau : ∀ k, 0 < (s.agents.rows k).tauAdj
  tauRot : ∀ k, 0 < (s.agents.rows k).tauRot
  std : ∀ k, 0 ≤ (s.agents.rows k).stdRandForce
  stdTorque : ∀ k, 0 ≤ (s.agents.rows k).stdRandTorque
  draws : ∀ d k a b, a ≤ b → a ≤ env.z d k a b ∧ env.z d k a b ≤ b
  drawsTorque : ∀ d k a b, a ≤ b → a ≤ env.w d k a b ∧ env.w d k a b ≤ b
  obstacles : ∀ g, env.field.obstacles = some g → Supported g
  cells : ∀ c, .agentAgent c ∈ nodes → 0 < c ∧
    (∃ r : Fin n → ℝ, (∀ k, BodyWithin .threeCircle (s.agents.rows k) (r k)) ∧
      ∀ i j, i ≠ j → 3 + (r i + r j) ≤ c) ∧
    EnumeratesNeighbours (fun i => (s.agents.rows i).position) c
      (env.cellPairs (fun i => (s.agents.rows i).position) c)

/-- One turn of agent `a` under the torque `m` in time `dt`, giving `b`: with the angular
accelerations `p` and `q` of the torques of the last and of this step, the angular velocity changes
by their mean times `dt`, and the orientation, up to full turns, by the new angular velocity times
`dt` plus `dt² / 2` times the new angular acceleration. -/
def TurnStep (a b : Agent) (m dt : ℝ) : Prop :=
  ∃ p q : ℝ, a.inertiaRot * p = a.torquePrev ∧ a.inertiaRot * q = m ∧
    b.angularVelocity = a.angularVelocity + dt / 2 * (p + q) ∧
    (∃ k : ℤ, b.orientation + k * (2 * Real.pi) =
      a.orientation + dt * b.angularVelocity + dt ^ 2 / 2 * q) ∧
    |b.orientation| ≤ Real.pi ∧ b.torquePrev = m ∧ ShouldersAttached b

open Classical in
/-- Every three-circle agent makes a time step and a turn of 0.01 under the sum of bounded random
forces and torques, the adjusting ones, the effects of all other agents and, if `order` contains
the node for obstacles, the effects of the walls; no forces and torques are left. -/
def TurnsByNewton {n : ℕ} (arm : Agent → Agent → Fin 3 → Fin 3 → ℝ × ℝ → ℝ × ℝ → Prop)
    (env : SimEnv n) (order : List Node) (s t : SimState n) : Prop :=
  ∀ i, (t.agents.rows i).force = 0 ∧ (t.agents.rows i).torque = 0 ∧
    ∃ fluctuation adjusting pairs walls,
      ContributesBody arm env (aimingBody s t) i .fluctuation fluctuation ∧
      ContributesBody arm env (aimingBody s t) i .adjusting adjusting ∧
      ContributesBody arm env (aimingBody s t) i (.agentAgent (3.0 + 2 * 0.3)) pairs ∧
      (if .agentObstacle ∈ order then ContributesBody arm env (aimingBody s t) i .agentObstacle walls
        else walls = 0) ∧
      TimeStep (s.agents.rows i) (t.agents.rows i)
        (fluctuation + adjusting + pairs + walls).1 0.01 ∧
      TurnStep (s.agents.rows i) (t.agents.rows i)
        (fluctuation + adjusting + pairs + walls).2 0.01

end

end CrowdDynamics.Spec
