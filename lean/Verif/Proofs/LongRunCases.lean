import Verif.Proofs.LongRun
import Verif.Proofs.ShippedTotal

/-!
# Cases and helper lemmas for `Verif.Props.LongRun`
-/

namespace CrowdDynamics

open Spec

variable {n : ℕ}

/-- The simulation `Outdoor` with a single agent who stands and wants to walk at speed 1.3. -/
noncomputable def wanderer : Crowd 1 := fun _ =>
  { Agent.default with
    mass := 80, radius := 0.25, tauAdj := 0.5, targetVelocity := 1.3, targetDirection := (1, 0),
    stdRandForce := 0 }

/-- The surroundings of this agent: a domain without walls. -/
noncomputable def openEnv : SimEnv 1 :=
  { demoEnv 1 with fields := fun _ => ⟨some ([(0, 0), (9, 0), (9, 9), (0, 9), (0, 0)], []), none, [], []⟩ }

/-- The states of the run. -/
noncomputable def wandering (k : ℕ) : SimState 1 :=
  (fun s => (walkLogic.update openEnv s).2)^[k] (demoState wanderer)

theorem lonely_cells (env : SimEnv 1) (he : env.cellPairs = fun _ _ => []) (s : SimState 1) :
    CellsWork env s := by
  unfold CellsWork
  rw [he]
  exact ⟨by simp, by simp, (0, 0), fun i j hij => absurd (Subsingleton.elim i j) hij⟩

theorem wandering_run (N : ℕ) : ShippedRun openEnv walkLogic
    [.fluctuation, .orientation, .adjusting, .agentAgent (3.0 + 2 * 0.3), .integrator 0.01 0.01, .reset]
    (demoState wanderer) N wandering := by
  refine ⟨⟨0, 1, 0, by norm_num, by norm_num, rfl⟩, order_walk, by simp [SimEnv.field, openEnv], ?_,
    fun i => ⟨rfl, rfl⟩, ⟨rfl, fun k _ => ?_, fun k _ h => ?_⟩,
    fun j _ => lonely_cells _ rfl _⟩
  · refine ⟨rfl, fun k => by norm_num [demoState, wanderer], fun k => by norm_num [demoState, wanderer],
      fun k => by norm_num [demoState, wanderer],
      fun k => by norm_num [demoState, wanderer, Agent.default, Agent.zero],
      fun d k a b h => ⟨le_rfl, h⟩, fun g hg => by simp [SimEnv.field, openEnv] at hg,
      fun c hc => ?_⟩
    rw [List.mem_singleton] at hc
    cases hc
    exact ⟨by norm_num, fun i j hij => absurd (Subsingleton.elim i j) hij, lonely_cells _ rfl _⟩
  · obtain ⟨t, ht⟩ := walk_total openEnv (wandering k)
    rw [show wandering (k + 1) = (walkLogic.update openEnv (wandering k)).2 from
      Function.iterate_succ_apply' _ _ _, ht]
  · obtain ⟨c, hc, -⟩ := h
    cases hc

theorem wandering_alone (k : ℕ) : OutOfReach openEnv (wandering k).agents.rows 0 :=
  ⟨fun j hj => absurd (Subsingleton.elim j 0) hj, fun w hw => by
    simp [fieldWalls, SimEnv.field, openEnv] at hw⟩

/-- All hypotheses are met by the single agent in `Outdoor`, who accelerates from rest; for this the
directions must be known. -/
theorem wandering_direction (k : ℕ) : ((wandering k).agents.rows 0).targetDirection = (1, 0) := by
  induction k with
  | zero => rfl
  | succ k ih =>
    obtain ⟨t, ht⟩ := walk_total openEnv (wandering k)
    rw [show wandering (k + 1) = (walkLogic.update openEnv (wandering k)).2 from
      Function.iterate_succ_apply' _ _ _, ht, ← ih]
    exact walk_direction _ _ _ ht 0

end CrowdDynamics
