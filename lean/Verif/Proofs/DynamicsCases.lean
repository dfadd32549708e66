import Verif.Proofs.Dynamics
import Verif.Proofs.ShippedRun
import Verif.Props.ShippedLogic
import Mathlib.Tactic.IntervalCases

/-!
# Cases and helper lemmas for `Verif.Props.Dynamics`
-/

namespace CrowdDynamics

open Spec

variable {n : ℕ}

/-- Two agents that walk towards each other at distance two. -/
noncomputable def facing : Crowd 2 := fun i =>
  { Agent.default with
    mass := 80, radius := 0.3, tauAdj := 0.5, targetVelocity := 1
    position := ((if i = 0 then 0 else 2 : ℝ), (0 : ℝ))
    velocity := ((if i = 0 then 1 else -1 : ℝ), (0 : ℝ))
    targetDirection := ((if i = 0 then 1 else -1 : ℝ), (0 : ℝ)) }

theorem facing_cells : EnumeratesNeighbours (fun i => (facing i).position) (3.0 + 2 * 0.3)
    [(0, 1)] := by
  refine ⟨by simp, by simp, (0, 0), fun i j hij _ _ => ?_⟩
  have hi := i.isLt
  have hj := j.isLt
  simp only [List.mem_singleton, Prod.ext_iff, Fin.ext_iff, Fin.val_zero, Fin.val_one]
  have : (i : ℕ) ≠ j := fun h => hij (Fin.ext h)
  omega

/-- An environment in which the two agents see each other and walls are around. -/
noncomputable def facingEnv : SimEnv 2 :=
  { demoEnv 2 with
    fields := fun _ => ⟨some ([(0, 0), (9, 0), (9, 9), (0, 9), (0, 0)], []),
      some (.lineString [(0, 1), (9, 1)]), [], []⟩
    cellPairs := fun _ _ => [(0, 1)] }

/-- The hypotheses on environment and agents are met by the two agents above. -/
theorem facing_regular (nodes : List Node) (hn : ∀ c, .agentAgent c ∈ nodes → c = 3.0 + 2 * 0.3) :
    Regular facingEnv nodes (demoState facing) := by
  refine ⟨rfl, fun k => by norm_num [demoState, facing], fun k => by norm_num [demoState, facing],
    fun k => by norm_num [demoState, facing],
    fun k => by norm_num [demoState, facing, Agent.default, Agent.zero],
    fun d k a b h => ⟨le_rfl, h⟩, fun g hg => ?_, fun c hc => ?_⟩
  · cases hg; exact .lineString _
  · rw [hn c hc]
    exact ⟨by norm_num, fun i j _ => by norm_num [demoState, facing], facing_cells⟩

end CrowdDynamics
