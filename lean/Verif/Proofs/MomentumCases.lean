import Verif.Proofs.Momentum
import Verif.Props.LongRun

/-!
# Cases and helper lemmas for `Verif.Props.Momentum`
-/

namespace CrowdDynamics

open Spec

variable {n : ℕ}

/-- The surroundings of two agents who see each other, in `Outdoor`. -/
noncomputable def meetingEnv : SimEnv 2 :=
  { demoEnv 2 with
    fields := fun _ => ⟨some ([(0, 0), (9, 0), (9, 9), (0, 9), (0, 0)], []), none, [], []⟩
    cellPairs := fun _ _ => [(0, 1)] }

/-- The states of the run in which they meet. -/
noncomputable def meeting (k : ℕ) : SimState 2 :=
  (fun s => (walkLogic.update meetingEnv s).2)^[k] (demoState facing)

theorem meeting_cells (s : SimState 2) : CellsWork meetingEnv s := by
  refine ⟨by simp [meetingEnv], by simp [meetingEnv], (0, 0), fun i j hij _ _ => ?_⟩
  have hi := i.isLt
  have hj := j.isLt
  simp only [meetingEnv, List.mem_singleton, Prod.ext_iff, Fin.ext_iff, Fin.val_zero, Fin.val_one]
  have : (i : ℕ) ≠ j := fun h => hij (Fin.ext h)
  omega

theorem meeting_run (N : ℕ) : ShippedRun meetingEnv walkLogic
    [.fluctuation, .orientation, .adjusting, .agentAgent (3.0 + 2 * 0.3), .integrator 0.01 0.01, .reset]
    (demoState facing) N meeting := by
  refine ⟨⟨0, 1, 0, by norm_num, by norm_num, rfl⟩, order_walk, by simp [SimEnv.field, meetingEnv], ?_,
    fun i => ⟨rfl, rfl⟩, ⟨rfl, fun k _ => ?_, fun k _ h => ?_⟩, fun j _ => meeting_cells _⟩
  · refine ⟨rfl, fun k => by norm_num [demoState, facing], fun k => by norm_num [demoState, facing],
      fun k => by norm_num [demoState, facing],
      fun k => by norm_num [demoState, facing, Agent.default, Agent.zero],
      fun d k a b h => ⟨le_rfl, h⟩, fun g hg => by simp [SimEnv.field, meetingEnv] at hg,
      fun c hc => ?_⟩
    rw [List.mem_singleton] at hc
    cases hc
    exact ⟨by norm_num, fun i j _ => by norm_num [demoState, facing], meeting_cells _⟩
  · obtain ⟨t, ht⟩ := walk_total meetingEnv (meeting k)
    rw [show meeting (k + 1) = (walkLogic.update meetingEnv (meeting k)).2 from
      Function.iterate_succ_apply' _ _ _, ht]
  · obtain ⟨c, hc, -⟩ := h
    cases hc

end CrowdDynamics
