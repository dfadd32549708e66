import Verif.Spec.Viewpoint
import Verif.Spec.Body

/-!
# The same scene of three-circle agents, seen in other coordinates and with other numbers
-/

namespace CrowdDynamics.Spec

open CrowdDynamics

noncomputable section

/-- Turning the plane by the angle `theta` about the origin, followed by a translation. -/
def turnMotion (theta : ℝ) (shift : ℝ × ℝ) : RigidMotion where
  lin :=
    { toFun := fun v => (Real.cos theta * v.1 - Real.sin theta * v.2,
        Real.sin theta * v.1 + Real.cos theta * v.2)
      map_add' := fun u v => by ext <;> simp <;> ring
      map_smul' := fun c v => by ext <;> simp <;> ring }
  isometry v := by
    unfold len
    congr 1
    have h := Real.sin_sq_add_cos_sq theta
    simp only [LinearMap.coe_mk, AddHom.coe_mk]
    linear_combination (v.1 ^ 2 + v.2 ^ 2) * h
  shift := shift

/-- `phi'` is the angle `phi` turned by `theta`, up to full turns. -/
def AngleTurned (theta phi phi' : ℝ) : Prop := ∃ k : ℤ, phi' = phi + theta + k * (2 * Real.pi)

/-- `b` is the three-circle agent `a` in the new coordinates: positions are moved, vectors and angles
are turned, everything else is the same. -/
def TurnedBody (theta : ℝ) (shift : ℝ × ℝ) (a b : Agent) : Prop :=
  ∃ phi phi0, AngleTurned theta a.orientation phi ∧ AngleTurned theta a.targetOrientation phi0 ∧
    b = { (turnMotion theta shift).agent a with
      positionLs := (turnMotion theta shift).point a.positionLs
      positionRs := (turnMotion theta shift).point a.positionRs
      orientation := phi
      targetOrientation := phi0 }

/-- `s'` shows the three-circle agents of `s` in other coordinates and with other numbers. -/
structure SameBodies {n : ℕ} (theta : ℝ) (shift : ℝ × ℝ) (perm : Equiv.Perm (Fin n))
    (s s' : SimState n) : Prop where
  dtype : s'.agents.dtype = s.agents.dtype
  rows : ∀ i, TurnedBody theta shift (s.agents.rows i) (s'.agents.rows (perm i))
  data : s'.data = s.data
  draws : s'.draws = s.draws

/-- `env'` has the walls of `env` in the new coordinates; random forces and torques correspond. -/
structure SameBodyWorld {n : ℕ} (theta : ℝ) (shift : ℝ × ℝ) (perm : Equiv.Perm (Fin n))
    (env env' : SimEnv n) : Prop where
  world : SameWorld (turnMotion theta shift) perm env env'
  torque : ∀ d i, env'.w d (perm i) = env.w d i

/-- Neither turning the scene by `theta` and moving it by `shift` nor renumbering the agents by `perm`
matters: an update of a simulation with three-circle agents (with attached shoulders, a direction in
which they want to walk, and cells that are large enough) ends in the same way and leads to the turned,
moved and renumbered agents. -/
def SameFate {n : ℕ} (theta : ℝ) (shift : ℝ × ℝ) (perm : Equiv.Perm (Fin n)) : Prop :=
  ∀ (env env' : SimEnv n) (kind : ℕ → Node) (root : LTree) (s s' t : SimState n)
    (r : Except PyErr Unit), SameBodyWorld theta shift perm env env' →
    (∀ x ∈ root.postorder.map kind, Physical x) → s.agents.dtype.kind = .threeCircle →
    (∀ i, ShouldersAttached (s.agents.rows i)) → (∀ i, (s.agents.rows i).targetDirection ≠ 0) →
    (∀ c, .agentAgent c ∈ root.postorder.map kind → 0 < c ∧ ∃ reach : Fin n → ℝ,
      (∀ i, BodyWithin .threeCircle (s.agents.rows i) (reach i)) ∧
      ∀ i j, i ≠ j → 3 + (reach i + reach j) ≤ c) →
    SameBodies theta shift perm s s' → simUpdate env kind root s = (r, t) →
    ∃ t', simUpdate env' kind root s' = (r, t') ∧ SameBodies theta shift perm t t'

/-- The three-circle agent `a` at another place. -/
def movedBody (shift : ℝ × ℝ) (a : Agent) : Agent :=
  { a with
    position := a.position + shift
    positionLs := a.positionLs + shift
    positionRs := a.positionRs + shift }

/-- `s'` shows the three-circle agents of `s` at another place and with other numbers. -/
structure MovedBodies {n : ℕ} (shift : ℝ × ℝ) (perm : Equiv.Perm (Fin n)) (s s' : SimState n) : Prop where
  dtype : s'.agents.dtype = s.agents.dtype
  rows : ∀ i, s'.agents.rows (perm i) = movedBody shift (s.agents.rows i)
  data : s'.data = s.data
  draws : s'.draws = s.draws

/-- In the new coordinates and with the new numbers the cell lists find the same pairs, in any order, but
with the same agent as the first agent of the pair. -/
def SamePairs {n : ℕ} (theta : ℝ) (shift : ℝ × ℝ) (perm : Equiv.Perm (Fin n)) (env env' : SimEnv n) :
    Prop :=
  ∀ pos c, (env'.cellPairs (fun i => (turnMotion theta shift).point (pos (perm.symm i))) c).Perm
    ((env.cellPairs pos c).map fun p => (perm p.1, perm p.2))

end

end CrowdDynamics.Spec
