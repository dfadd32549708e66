import Verif.Proofs.BodyProgress
import Verif.Proofs.BodyIsolationCases
import Verif.Proofs.ProgressCases

/-!
# Cases and helper lemmas for `Verif.Props.BodyProgress`
-/

namespace CrowdDynamics

open Spec

/-- A single three-circle agent inside the domain, who stands, wants to walk to the right at speed 1.3 and
is pushed about by a small random force. -/
noncomputable def bodyStrollState : SimState 1 :=
  { demoState (fun _ : Fin 1 => pacer 0.5) with
    agents := ⟨.const .threeCircle, fun _ => { pacer 0.5 with active := true }⟩ }

/-- The states of the run with the logic of `Hallway`. -/
noncomputable def bodyStrolling (k : ℕ) : SimState 1 :=
  (fun s => (strollLogic.update openEnv s).2)^[k] bodyStrollState

theorem bodyStroll_next (k : ℕ) :
    strollLogic.update openEnv (bodyStrolling k) = (.ok (), bodyStrolling (k + 1)) := by
  have hp : ∀ x ∈ [Node.insideDomain strollRing, .fluctuation, .navigation 0.1 0.5 0.3, .orientation,
      .adjusting, .agentAgent (3.0 + 2 * 0.3), .agentObstacle, .integrator 0.01 0.01, .reset],
      Passes openEnv x := by
    have hi := passes_insideDomain openEnv strollRing
    have ha := passes_agentObstacle openEnv (fun g hg => by simp [SimEnv.field, openEnv] at hg)
    have hn : Passes openEnv (.navigation 0.1 0.5 0.3) :=
      passes_navigation openEnv _ _ _ fun t ht => by simp [SimEnv.field, openEnv] at ht
    simp [passes_fluctuation, passes_orientation, passes_adjusting, passes_agentAgent,
      passes_integrator, passes_reset, hi, ha, hn]
  have hs : Runs openEnv bodyStrollState := ⟨by simp [bodyStrollState, demoState, demoData],
    soundCaches_empty⟩
  exact afterUpdates_next (fun N => by
    obtain ⟨t, h, -, -⟩ := runs_updates openEnv strollLogic _ stroll_order hp bodyStrollState hs N
    exact ⟨t, h⟩) k

theorem bodyStrolling_run (N : ℕ) : ShippedBodyRun openEnv strollLogic [.insideDomain strollRing,
    .fluctuation, .navigation 0.1 0.5 0.3, .orientation, .adjusting, .agentAgent (3.0 + 2 * 0.3),
    .agentObstacle, .integrator 0.01 0.01, .reset] bodyStrollState N bodyStrolling := by
  refine ⟨⟨0, 1, 1, by norm_num, by norm_num, rfl⟩, stroll_order, by simp [SimEnv.field, openEnv], ?_,
    fun i => ⟨rfl, rfl⟩, ⟨rfl, fun k _ => bodyStroll_next k, fun k _ h => ?_⟩,
    fun j _ => lonely_cells _ rfl _⟩
  · refine ⟨rfl, fun k p => pacer_radii 0.5 p, fun k => pacer_attached 0.5, ?_, ?_, ?_, ?_, ?_, ?_,
      fun d k a b h => ⟨le_rfl, h⟩, fun d k a b h => ⟨le_rfl, h⟩,
      fun g hg => by simp [SimEnv.field, openEnv] at hg, fun c hc => ?_⟩
    iterate 6 exact fun k => by norm_num [bodyStrollState, pacer, Agent.default, Agent.zero]
    rw [List.mem_singleton] at hc
    cases hc
    exact ⟨by norm_num, ⟨fun _ => 0.25, fun _ => pacer_within 0.5, fun i j _ => by norm_num⟩,
      lonely_cells _ rfl _⟩
  · obtain ⟨c, hc, -⟩ := h
    cases hc

theorem bodyStrolling_alone (k : ℕ) : BodyOutOfReach openEnv (bodyStrolling k).agents.rows 0 :=
  ⟨fun j hj => absurd (Subsingleton.elim j 0) hj, fun w hw => by
    simp [fieldWalls, SimEnv.field, openEnv] at hw⟩

theorem bodyStrolling_direction (k : ℕ) :
    ((bodyStrolling k).agents.rows 0).targetDirection = (1, 0) := by
  induction k with
  | zero => rfl
  | succ k ih =>
    obtain ⟨u, hu, ea⟩ := update_order stroll_order openEnv _ _ _ (bodyStroll_next k)
    rw [ea, ← ih]
    refine nodes_direction openEnv [.insideDomain strollRing, .fluctuation,
      .orientation, .adjusting, .agentAgent (3.0 + 2 * 0.3), .agentObstacle,
      .integrator 0.01 0.01, .reset] (by simp [Steers]) (bodyStrolling k) u (.ok ()) ?_ 0
    rw [← hu]
    rfl

theorem bodyStroll_values : (bodyStrollState.agents.rows 0).tauAdj = 0.5 ∧
    (bodyStrollState.agents.rows 0).targetVelocity = 1.3 ∧
    (bodyStrollState.agents.rows 0).stdRandForce = 0.1 ∧
    (bodyStrollState.agents.rows 0).position = (0.5, 0) ∧
    (bodyStrollState.agents.rows 0).velocity = (0, 0) ∧
    (bodyStrollState.agents.rows 0).mass = 80 := ⟨rfl, rfl, rfl, rfl, rfl, rfl⟩

end CrowdDynamics
