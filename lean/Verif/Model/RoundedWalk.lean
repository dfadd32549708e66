import Verif.Model.RoundedMotion

/-!
# Model of an undisturbed walk with rounding

An agent alone: no random force, nobody else and no wall in reach. The nodes `Reset`, `Adjusting` and
`Integrator` are the only ones that change its force and its velocity.
-/

namespace CrowdDynamics

/-- `(mass / tau_adj) * (v0 * e0 - v)` for one component, with rounding.
Source: crowddynamics/core/motion/adjusting.py:51 (`force_adjust`). -/
noncomputable def forceAdjustF (rnd : ℝ → ℝ) (mass tauAdj v0 e v : ℝ) : ℝ :=
  rnd (rnd (mass / tauAdj) * rnd (rnd (v0 * e) - v))

/-- Body of the loop in `force_adjust_agents`, with rounding.
Source: crowddynamics/core/motion/adjusting.py:101-108. -/
noncomputable def forceAdjustRowF (rnd : ℝ → ℝ) (agent : Agent) : Agent :=
  { agent with
    force :=
      (rnd (agent.force.1 + forceAdjustF rnd agent.mass agent.tauAdj agent.targetVelocity
          agent.targetDirection.1 agent.velocity.1),
        rnd (agent.force.2 + forceAdjustF rnd agent.mass agent.tauAdj agent.targetVelocity
          agent.targetDirection.2 agent.velocity.2)) }

/-- One update of an undisturbed circular agent: the force is set to zero, the adjusting force is added,
and the velocity Verlet method is applied with the step `dt`.
Source: crowddynamics/simulation/logic.py:59-64 (`Reset`), 67-75 (`Integrator`),
89-94 (`Adjusting`). -/
noncomputable def walkStepF (rnd : ℝ → ℝ) (dt : ℝ) (agent : Agent) : Agent :=
  translationalVerletRowF rnd dt (forceAdjustRowF rnd { agent with force := 0 })

end CrowdDynamics
