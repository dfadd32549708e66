import Verif.Model.IeeeMotion

/-!
# Finite agents, agents that are not a number, and sequences of updates
-/

namespace CrowdDynamics.Spec

/-- A vector with finite components of at most `2 ^ k`. -/
def FiniteVec (k : ℤ) (v : F64 × F64) : Prop :=
  ∃ p q : ℝ, v = (.num p, .num q) ∧ |p| ≤ 2 ^ k ∧ |q| ≤ 2 ^ k

/-- An agent with finite attributes of at most `2 ^ 400` and a mass of at least `2 ^ -400`. -/
structure FiniteRow (r : RowI) : Prop where
  /-- position -/
  position : FiniteVec 400 r.position
  /-- velocity -/
  velocity : FiniteVec 400 r.velocity
  /-- force -/
  force : FiniteVec 400 r.force
  /-- force of the last update -/
  forcePrev : FiniteVec 400 r.forcePrev
  /-- mass -/
  mass : (2 : ℝ) ^ (-400 : ℤ) ≤ |r.mass| ∧ |r.mass| ≤ 2 ^ (400 : ℤ)

/-- An agent with finite attributes. -/
def finiteRow (a : Agent) : RowI :=
  ⟨(.num a.position.1, .num a.position.2), (.num a.velocity.1, .num a.velocity.2),
    (.num a.force.1, .num a.force.2), (.num a.forcePrev.1, .num a.forcePrev.2), a.mass,
    a.targetVelocity⟩

/-- One of the two coordinates of a vector (`false` is the first one). -/
def axisOf : Bool → F64 × F64 → F64
  | false, v => v.1
  | true, v => v.2

/-- One coordinate of position and velocity is not a number. -/
def Lost (b : Bool) (r : RowI) : Prop :=
  axisOf b r.position = .nan ∧ axisOf b r.velocity = .nan

/-- The same agents with other forces. -/
def givenForce {n : ℕ} (force : Fin n → F64 × F64) (rows : Fin n → RowI) : Fin n → RowI :=
  fun i => { rows i with force := force i }

/-- A sequence of updates, each with forces of its own and with one of the two integrators
(`true` is the Verlet method). -/
noncomputable def updates {n : ℕ} (A : Arith) (dtMin dtMax : ℝ) :
    List (Bool × (Fin n → F64 × F64)) → (Fin n → RowI) → Except PyErr (Fin n → RowI)
  | [], rows => .ok rows
  | (verlet, force) :: rest, rows =>
    match (if verlet then velocityVerletIntegratorI A dtMin dtMax (givenForce force rows)
      else eulerIntegratorI A dtMin dtMax (givenForce force rows)) with
    | .error e => .error e
    | .ok (_, rows) => updates A dtMin dtMax rest rows

end CrowdDynamics.Spec
