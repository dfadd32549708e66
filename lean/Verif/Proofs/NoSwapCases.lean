import Verif.Proofs.NoSwap

/-!
# Cases for C197
-/

namespace CrowdDynamics

open Spec

/-- A very fast agent behind a standing one. -/
noncomputable def rushing : Crowd 2 := fun i =>
  { Agent.default with
    mass := 80, radius := 0.25, tauAdj := 0.5, targetVelocity := 0, stdRandForce := 0
    position := ((if i = 0 then 0 else 0.6 : ℝ), (0 : ℝ))
    velocity := ((if i = 0 then 100 else 0 : ℝ), (0 : ℝ)) }

/-- One update of `Outdoor` with these two. -/
noncomputable def rush (k : ℕ) : SimState 2 :=
  (fun s => (walkLogic.update meetingEnv s).2)^[k] (demoState rushing)

theorem rush_run (N : ℕ) : ShippedRun meetingEnv walkLogic
    [.fluctuation, .orientation, .adjusting, .agentAgent (3.0 + 2 * 0.3), .integrator 0.01 0.01, .reset]
    (demoState rushing) N rush := by
  refine ⟨⟨0, 1, 0, by norm_num, by norm_num, rfl⟩, order_walk, by simp [SimEnv.field, meetingEnv], ?_,
    fun i => ⟨rfl, rfl⟩, ⟨rfl, fun k _ => ?_, fun k _ h => ?_⟩, fun j _ => meeting_cells _⟩
  · refine ⟨rfl, fun k => by norm_num [demoState, rushing], fun k => by norm_num [demoState, rushing],
      fun k => by norm_num [demoState, rushing],
      fun k => by norm_num [demoState, rushing, Agent.default, Agent.zero],
      fun d k a b h => ⟨le_rfl, h⟩, fun g hg => by simp [SimEnv.field, meetingEnv] at hg,
      fun c hc => ?_⟩
    rw [List.mem_singleton] at hc
    cases hc
    exact ⟨by norm_num, fun i j _ => by norm_num [demoState, rushing], meeting_cells _⟩
  · obtain ⟨t, ht⟩ := walk_total meetingEnv (rush k)
    rw [show rush (k + 1) = (walkLogic.update meetingEnv (rush k)).2 from
      Function.iterate_succ_apply' _ _ _, ht]
  · obtain ⟨c, hc, -⟩ := h
    cases hc

/-- In a crowd of two in an open field, agents at a distance touch nothing. -/
theorem two_touch_nothing (crowd : Crowd 2)
    (h : (crowd 0).radius + (crowd 1).radius ≤ Spec.dist (crowd 0).position (crowd 1).position)
    (i : Fin 2) : TouchesNothing meetingEnv crowd i := by
  have hs : Spec.dist (crowd 1).position (crowd 0).position =
      Spec.dist (crowd 0).position (crowd 1).position := by
    unfold Spec.dist
    rw [← len_neg', neg_sub]
  refine ⟨fun j hj => ?_, fun w hw => by simp [fieldWalls, SimEnv.field, meetingEnv] at hw⟩
  fin_cases i <;> fin_cases j
  · exact absurd rfl hj
  · exact h
  · show (crowd 1).radius + (crowd 0).radius ≤ Spec.dist (crowd 1).position (crowd 0).position
    rw [hs, add_comm]
    exact h
  · exact absurd rfl hj

end CrowdDynamics
