import Verif.Proofs.ShippedLogic
import Verif.Proofs.ShippedRun
import Verif.Props.Simulation
import Mathlib.Tactic.IntervalCases

/-!
# Cases and helper lemmas for `Verif.Props.ShippedLogic`
-/

namespace CrowdDynamics

open Spec

/-- A field with a domain. -/
noncomputable def unitField : Field :=
  ⟨some ([(0, 0), (1, 0), (1, 1), (0, 1), (0, 0)], []), none, [], []⟩

/-- One agent that walks to the right with its target velocity. -/
noncomputable def walker : Crowd 1 := fun _ =>
  { Agent.default with velocity := (1, 0), targetVelocity := 1, targetDirection := (1, 0), mass := 1,
                       position := (0.995, 0) }

/-- The surroundings of the walker: libraries that do nothing and the field above. -/
noncomputable def unitEnv : SimEnv 1 := { demoEnv 1 with fields := fun _ => unitField }

/-- The walker leaves the domain `0 < x < 1` in one update of `Hallway`. -/
theorem walker_update : ∃ t, (navigationLogic unitField).update unitEnv (demoState walker) =
    (.ok (), t) ∧ (t.agents.rows 0).active = true ∧ (t.agents.rows 0).position = (1.005, 0) := by
  rw [update_of_order (order_navigation (ring := _) (holes := _) rfl)]
  have hf : unitEnv.field = unitField := rfl
  have hdt : ∀ a : Crowd 1, adaptiveTimestep a 0.01 0.01 = 0.01 := fun a => timestep_const a _
  have hc : ∀ ring i, unitEnv.contains ring (walker i).position = true := by
    intro ring i
    simp [unitEnv, demoEnv, walker]
    norm_num
  simp only [updateNodes, Node.update, insideDomainUpdate, demoState, demoData, SimState.withRows, hc,
    hf, unitField, List.length_nil, List.range_zero, navigationLoop, obstaclesOf,
    agentAgentBlockList, agentObstacle, isModel, DtypeObj.kind, fluctuation, orientationUpdate,
    adjusting, integratorUpdate, velocityVerletIntegrator, resetUpdate]
  have ho : ∀ a : Crowd 1, agentCircularObstacle a [] = a := fun a => by
    simp [agentCircularObstacle]
  have hp : ∀ a c, unitEnv.cellPairs a c = [] := fun a c => rfl
  have hz : ∀ k i, unitEnv.z k i = fun a _ => a := fun k i => rfl
  have hff : ∀ m a b, forceFluctuation m a b (fun x _ => x) = 0 := by
    intro m a b
    simp [forceFluctuation, truncnorm]
  simp [hdt, ho, hp, hz, hff, agentAgentCircular, forceAdjust, translationalVerlet,
    translationalVerletRow, forceAdjustAgents, walker, Agent.default, Agent.zero]
  norm_num

/-- An agent at rest that wants to walk. -/
noncomputable def starter : Crowd 1 := fun _ =>
  { Agent.default with targetVelocity := 1, targetDirection := (1, 0), mass := 1, tauAdj := 0.5 }

/-- The hypotheses can be met: two updates of `TestMovement` with this agent. -/
theorem starter_run : NoForces (demoState starter) ∧
    ∃ t, AfterUpdates (testMovementLogic.update (demoEnv 1)) 2 (demoState starter) t := by
  refine ⟨fun i => ⟨rfl, rfl, fun h => by simp [demoState, DtypeObj.kind] at h⟩, ?_⟩
  obtain ⟨t, ht⟩ := testMovement_total (demoEnv 1) (demoState starter)
  obtain ⟨u, hu⟩ := testMovement_total (demoEnv 1) t
  exact ⟨u, .succ (.succ (.zero _) ht) hu⟩

end CrowdDynamics
