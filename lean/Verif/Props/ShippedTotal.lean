import Verif.Proofs.ShippedTotalCases
import Verif.Props.Field
import Verif.Props.Guidance
import Verif.Props.ShippedLogic
import Verif.Proofs.ShippedTotal

/-!
# C98: what the shipped simulations need to run
-/

namespace CrowdDynamics

open Spec

/-- **C98** What holds of all thirteen shipped simulations with agents and a logic: with a domain,
targets, obstacles made of points, lines and polygons, and directions to every target that can be
computed, no update ever raises an exception: any number of updates can be made, whatever the agents,
their positions, the random numbers and the cell lists are, and the counter of updates counts them.
(Missing: the simulations without agents, see `C98_fails`; and that directions can be computed is a
condition, see C77 for when it holds.) -/
theorem C98_run_partial {n : ℕ} (env : SimEnv n) (s : SimState n) (ratioObs width : ℝ)
    (hr : ReadyToRun env s) (hw : 1 ≤ (1 - ratioObs) * width) (e : LogicExpr)
    (he : e ∈ shippedLogic ratioObs width env.field) (k : ℕ) :
    ∃ t, AfterUpdates (e.update env) k s t ∧ t.data.iterations = s.data.iterations + k := by
  obtain ⟨nodes, ho, hp⟩ := shipped_passes env ratioObs width s hr hw e he
  have hs : Runs env s := ⟨hr.counter, by rw [hr.caches]; exact soundCaches_empty⟩
  obtain ⟨t, h, hi, -⟩ := runs_updates env e nodes ho hp s hs k
  exact ⟨t, h, hi⟩

/-- A crowd in the small room makes a thousand updates with leaders and followers. -/
example (rows : Crowd 5) : ∃ t, AfterUpdates ((fourExitsLogic smallRoom).update
    { demoEnv 5 with fields := fun _ => smallRoom, lib := simpleLib }) 1000 (demoState rows) t ∧
    t.data.iterations = 1000 := by
  obtain ⟨t, h, hi⟩ := C98_run_partial _ _ 0 1 (smallRoom_ready rows) (by norm_num)
    (fourExitsLogic smallRoom)
    (by show _ ∈ shippedLogic 0 1 smallRoom; simp [shippedLogic]) 1000
  exact ⟨t, h, by simpa [demoState, demoData] using hi⟩

/-- **C98** The two simulations with herding but without an exit need nothing but obstacles made of
points, lines and polygons. -/
theorem C98_herding_partial {n : ℕ} (env : SimEnv n) (s : SimState n)
    (ho : ∀ g, env.field.obstacles = some g → Supported g) (e : LogicExpr)
    (he : e ∈ [herdingLogic, closedRoomLogic]) : ∃ t, e.update env s = (.ok (), t) :=
  herding_total env s ho e he

/-- The small room has such obstacles. -/
example (rows : Crowd 5) : ∃ t, closedRoomLogic.update
    { demoEnv 5 with fields := fun _ => smallRoom } (demoState rows) = (.ok (), t) := by
  refine C98_herding_partial _ _ (fun g hg => ?_) _ (by simp)
  have : g = .lineString [(0, 0), (0, 3)] := (Option.some.inj hg).symm
  subst this
  exact .lineString _

end CrowdDynamics
