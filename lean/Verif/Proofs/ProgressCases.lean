import Verif.Proofs.Progress
import Verif.Props.LongRun
import Verif.Props.ShippedLogic

/-!
# Cases and helper lemmas for `Verif.Props.Progress`
-/

namespace CrowdDynamics

open Spec

variable {n : ℕ}

/-- A single agent inside the domain, who stands and wants to walk to the right at speed 1.3. -/
noncomputable def stroller : Crowd 1 := fun _ =>
  { Agent.default with
    mass := 80, radius := 0.25, tauAdj := 0.5, targetVelocity := 1.3, targetDirection := (1, 0),
    stdRandForce := 0, position := (0.5, 0), active := true }

/-- The logic of `Hallway`, which has an `InsideDomain`, on a field without targets. -/
noncomputable def strollLogic : LogicExpr := navigationLogic openEnv.field

/-- The boundary of the domain. -/
noncomputable def strollRing : List Vec := [(0, 0), (9, 0), (9, 9), (0, 9), (0, 0)]

theorem stroll_order : strollLogic.order = .ok [.insideDomain strollRing, .fluctuation,
    .navigation 0.1 0.5 0.3, .orientation, .adjusting, .agentAgent (3.0 + 2 * 0.3), .agentObstacle,
    .integrator 0.01 0.01, .reset] := order_navigation (ring := strollRing) (holes := []) rfl

/-- The states of the run. -/
noncomputable def strolling (k : ℕ) : SimState 1 :=
  (fun s => (strollLogic.update openEnv s).2)^[k] (demoState stroller)

theorem stroll_next (k : ℕ) :
    strollLogic.update openEnv (strolling k) = (.ok (), strolling (k + 1)) := by
  have hp : ∀ x ∈ [Node.insideDomain strollRing, .fluctuation, .navigation 0.1 0.5 0.3, .orientation,
      .adjusting, .agentAgent (3.0 + 2 * 0.3), .agentObstacle, .integrator 0.01 0.01, .reset],
      Passes openEnv x := by
    have hi := passes_insideDomain openEnv strollRing
    have ha := passes_agentObstacle openEnv (fun g hg => by simp [SimEnv.field, openEnv] at hg)
    have hn : Passes openEnv (.navigation 0.1 0.5 0.3) :=
      passes_navigation openEnv _ _ _ fun t ht => by simp [SimEnv.field, openEnv] at ht
    simp [passes_fluctuation, passes_orientation, passes_adjusting, passes_agentAgent,
      passes_integrator, passes_reset, hi, ha, hn]
  have hs : Runs openEnv (demoState stroller) := ⟨by simp [demoState, demoData], soundCaches_empty⟩
  exact afterUpdates_next (fun N => by
    obtain ⟨t, h, -, -⟩ :=
      runs_updates openEnv strollLogic _ stroll_order hp (demoState stroller) hs N
    exact ⟨t, h⟩) k

theorem strolling_run (N : ℕ) : ShippedRun openEnv strollLogic [.insideDomain strollRing, .fluctuation,
    .navigation 0.1 0.5 0.3, .orientation, .adjusting, .agentAgent (3.0 + 2 * 0.3), .agentObstacle,
    .integrator 0.01 0.01, .reset] (demoState stroller) N strolling := by
  refine ⟨⟨0, 1, 1, by norm_num, by norm_num, rfl⟩, stroll_order, by simp [SimEnv.field, openEnv], ?_,
    fun i => ⟨rfl, rfl⟩, ⟨rfl, fun k _ => stroll_next k, fun k _ h => ?_⟩,
    fun j _ => lonely_cells _ rfl _⟩
  · refine ⟨rfl, fun k => by norm_num [demoState, stroller], fun k => by norm_num [demoState, stroller],
      fun k => by norm_num [demoState, stroller],
      fun k => by norm_num [demoState, stroller, Agent.default, Agent.zero],
      fun d k a b h => ⟨le_rfl, h⟩, fun g hg => by simp [SimEnv.field, openEnv] at hg,
      fun c hc => ?_⟩
    rw [List.mem_singleton] at hc
    cases hc
    exact ⟨by norm_num, fun i j hij => absurd (Subsingleton.elim i j) hij, lonely_cells _ rfl _⟩
  · obtain ⟨c, hc, -⟩ := h
    cases hc

theorem strolling_alone (k : ℕ) : OutOfReach openEnv (strolling k).agents.rows 0 :=
  ⟨fun j hj => absurd (Subsingleton.elim j 0) hj, fun w hw => by
    simp [fieldWalls, SimEnv.field, openEnv] at hw⟩

theorem strolling_direction (k : ℕ) : ((strolling k).agents.rows 0).targetDirection = (1, 0) := by
  induction k with
  | zero => rfl
  | succ k ih =>
    obtain ⟨u, hu, ea⟩ := update_order stroll_order openEnv _ _ _ (stroll_next k)
    rw [ea, ← ih]
    refine nodes_direction openEnv [.insideDomain strollRing, .fluctuation,
      .orientation, .adjusting, .agentAgent (3.0 + 2 * 0.3), .agentObstacle,
      .integrator 0.01 0.01, .reset] (by simp [Steers]) (strolling k) u (.ok ()) ?_ 0
    rw [← hu]
    rfl

end CrowdDynamics
