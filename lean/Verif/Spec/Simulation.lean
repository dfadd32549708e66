import Verif.Model.Simulation

/-!
# What it means for a simulation to keep its books and its agents
-/

namespace CrowdDynamics.Spec

open CrowdDynamics

/-- Everything about an agent that no step of a simulation may change: body, physical parameters
and role as a leader. -/
structure SameBody (a b : Agent) : Prop where
  radius : a.radius = b.radius
  rT : a.rT = b.rT
  rS : a.rS = b.rS
  rTs : a.rTs = b.rTs
  mass : a.mass = b.mass
  inertiaRot : a.inertiaRot = b.inertiaRot
  targetVelocity : a.targetVelocity = b.targetVelocity
  targetAngularVelocity : a.targetAngularVelocity = b.targetAngularVelocity
  tauAdj : a.tauAdj = b.tauAdj
  kSoc : a.kSoc = b.kSoc
  tau0 : a.tau0 = b.tau0
  mu : a.mu = b.mu
  kappa : a.kappa = b.kappa
  damping : a.damping = b.damping
  stdRandForce : a.stdRandForce = b.stdRandForce
  tauRot : a.tauRot = b.tauRot
  stdRandTorque : a.stdRandTorque = b.stdRandTorque
  isLeader : a.isLeader = b.isLeader
  familiarExit : a.familiarExit = b.familiarExit
  targetReached : a.targetReached = b.targetReached

/-- The exceptions that the package defines: `CrowdDynamicsException` and its subclasses. -/
def packageErrors : List PyErr :=
  [.crowdDynamics, .invalidType, .invalidValue, .validation, .overlapping, .structureFull]

/-- The exit condition, if there is one, holds at the `k`-th test in state `s`. -/
def ExitHolds {σ : Type} (exit : Option (ℕ → σ → Bool)) (k : ℕ) (s : σ) : Prop :=
  ∃ c, exit = some c ∧ c k s = true

/-- `states 0, …, states m` are the results of `m` completed updates, none of which happens after
the exit condition holds. -/
structure Completed {σ : Type} (update : σ → Except PyErr Unit × σ)
    (exit : Option (ℕ → σ → Bool)) (start : σ) (m : ℕ) (states : ℕ → σ) : Prop where
  first : states 0 = start
  next : ∀ k < m, update (states k) = (.ok (), states (k + 1))
  open_ : ∀ k < m, ¬ ExitHolds exit k (states k)

/-- An integrator, of whatever step sizes. -/
def IsIntegrator : Node → Prop
  | .integrator _ _ => True
  | _ => False

/-- The nodes, in the order of execution, contain one integrator, with these step sizes. -/
def OneIntegrator (nodes : List Node) (dtMin dtMax : ℝ) : Prop :=
  ∃ before after, nodes = before ++ .integrator dtMin dtMax :: after ∧
    (∀ x ∈ before, ¬ IsIntegrator x) ∧ ∀ x ∈ after, ¬ IsIntegrator x

/-- Nodes that touch neither forces nor torques. -/
def LeavesForces : Node → Prop
  | .fluctuation | .adjusting | .agentAgent _ | .agentObstacle => False
  | _ => True

/-- Number of elements that satisfy a condition. -/
def countTrue {n : ℕ} (p : Fin n → Bool) : ℕ := (Finset.univ.filter fun i => p i = true).card

/-- The crowd with other flags `active`. -/
def setActive {n : ℕ} (b : Fin n → Bool) (s : SimState n) : SimState n :=
  ⟨⟨s.agents.dtype, fun i => { s.agents.rows i with active := b i }⟩, s.data, s.caches, s.draws⟩

/-- The node that maintains the flags `active`. -/
def IsInsideDomain : Node → Prop
  | .insideDomain _ => True
  | _ => False

/-- Two crowds with the same flags whose active agents are the same. -/
def AgreeOnActive {n : ℕ} (s t : SimState n) : Prop :=
  ∀ i, (s.agents.rows i).active = (t.agents.rows i).active ∧
    ((s.agents.rows i).active = true → s.agents.rows i = t.agents.rows i)

/-- `k` names no target or one of `m` targets. -/
def ValidTarget (m : ℕ) (k : ℤ) : Prop := k = -1 ∨ 0 ≤ k ∧ k < m

/-- All references of an agent to targets and leaders point to existing ones. -/
structure ValidRefs (m n : ℕ) (a : Agent) : Prop where
  target : ValidTarget m a.target
  familiar : ValidTarget m a.familiarExit
  leader : ValidTarget n a.indexLeader

end CrowdDynamics.Spec
