import Verif.Spec.WallWalk

/-!
# Pressing against a wall
-/

namespace CrowdDynamics.Spec

open CrowdDynamics

/-- A shipped simulation with circular agents that runs on for ever, in which agent `i` has the constants of
the code, a body of ordinary size and no random force, always wants to walk straight against the wall from `p`
to `q`, with the upright vector `ν` pointing at the agent. It stays beside the wall, meets nobody and no other
wall, and starts clear of the wall and no faster than it wants to walk. -/
structure Presses {n : ℕ} (env : SimEnv n) (e : LogicExpr) (order : List Node) (s : SimState n)
    (S : ℕ → SimState n) (i : Fin n) (p q ν : ℝ × ℝ) : Prop where
  run : ∀ N, ShippedRun env e order s N S
  contact : .agentObstacle ∈ order
  wall : p ≠ q
  upright : IsNormal p q ν
  tau : (s.agents.rows i).tauAdj = 0.5
  mu : (s.agents.rows i).mu = 1.2e5
  damping : (s.agents.rows i).damping = 500
  calm : (s.agents.rows i).stdRandForce = 0
  radius : 0.19 ≤ (s.agents.rows i).radius
  mass : 50 ≤ (s.agents.rows i).mass ∧ (s.agents.rows i).mass ≤ 90
  pace : 0.4 ≤ (s.agents.rows i).targetVelocity ∧ (s.agents.rows i).targetVelocity ≤ 1.75
  aim : ∀ j, ((S (j + 1)).agents.rows i).targetDirection = -ν
  alone : ∀ j, TouchesOnly env (S j).agents.rows i (p, q)
  slow : len (s.agents.rows i).velocity ≤ (s.agents.rows i).targetVelocity
  clear : (s.agents.rows i).radius ≤ offWall p ν (s.agents.rows i).position
  beside : ∀ j, Beside p q ((S j).agents.rows i).position

end CrowdDynamics.Spec
