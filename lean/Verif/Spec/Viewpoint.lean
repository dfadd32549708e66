import Verif.Spec.Dynamics
import Verif.Spec.Simulation

/-!
# The same scene, seen in other coordinates and with other numbers

A rigid motion of the plane (rotation, reflection, translation) together with a renumbering of the
agents.
-/

namespace CrowdDynamics.Spec

open CrowdDynamics

/-- A rigid motion of the plane: a linear map that keeps lengths, followed by a translation. -/
structure RigidMotion where
  /-- the linear part -/
  lin : (ℝ × ℝ) →ₗ[ℝ] (ℝ × ℝ)
  /-- lengths are kept -/
  isometry : ∀ v, len (lin v) = len v
  /-- the translation -/
  shift : ℝ × ℝ

/-- The new coordinates of a point. -/
def RigidMotion.point (g : RigidMotion) (p : ℝ × ℝ) : ℝ × ℝ := g.lin p + g.shift

/-- The agent in the new coordinates: its position is moved, its velocity, forces and direction are
turned. -/
def RigidMotion.agent (g : RigidMotion) (a : Agent) : Agent :=
  { a with
    position := g.point a.position
    velocity := g.lin a.velocity
    targetDirection := g.lin a.targetDirection
    force := g.lin a.force
    forcePrev := g.lin a.forcePrev }

/-- `s'` shows the agents of `s` in other coordinates and with other numbers. -/
structure SameScene {n : ℕ} (g : RigidMotion) (perm : Equiv.Perm (Fin n)) (s s' : SimState n) : Prop where
  dtype : s'.agents.dtype = s.agents.dtype
  rows : ∀ i, s'.agents.rows (perm i) = g.agent (s.agents.rows i)
  data : s'.data = s.data
  draws : s'.draws = s.draws

/-- `env'` has the walls of `env` in the new coordinates; random forces have the same strength and the
corresponding direction; both have walls of supported types and cell lists that work. -/
structure SameWorld {n : ℕ} (g : RigidMotion) (perm : Equiv.Perm (Fin n)) (env env' : SimEnv n) :
    Prop where
  walls : fieldWalls env'.field.obstacles =
    (fieldWalls env.field.obstacles).map fun w => (g.point w.1, g.point w.2)
  supported : ∀ o, env.field.obstacles = some o → Supported o
  supported' : ∀ o, env'.field.obstacles = some o → Supported o
  strength : ∀ d i, env'.z d (perm i) = env.z d i
  direction : ∀ d i, (Real.cos (env'.phi d (perm i)), Real.sin (env'.phi d (perm i))) =
    g.lin (Real.cos (env.phi d i), Real.sin (env.phi d i))
  cells : ∀ pos c, 0 < c → EnumeratesNeighbours pos c (env.cellPairs pos c)
  cells' : ∀ pos c, 0 < c → EnumeratesNeighbours pos c (env'.cellPairs pos c)

/-- The nodes for which the choice of coordinates does not matter: those without a grid, a domain or a
target. -/
def Physical : Node → Prop
  | .reset | .integrator _ _ | .fluctuation | .adjusting | .agentAgent _ | .agentObstacle
  | .orientation => True
  | _ => False

end CrowdDynamics.Spec
