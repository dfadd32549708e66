import Verif.Props.Field
import Verif.Props.Guidance
import Verif.Props.ShippedLogic
import Verif.Proofs.ShippedTotal

/-!
# Cases and helper lemmas for `Verif.Props.ShippedTotal`
-/

namespace CrowdDynamics

open Spec

theorem simpleLib_drawable_step (ext : List Vec) (hb : ProperBox ext) (step : ℝ) (hs : 0 < step)
    (a b : Vec) : Drawable simpleLib ext step (.lineString [a, b]) := by
  intro m hm
  have h2 := meshgrid_two hb hs hm
  refine ⟨.lineString _, fun p hp => ?_⟩
  have : p = (0, 0) := by simpa [pixels, consecutive, simpleLib] using hp
  subst this
  exact ⟨0, 0, ⟨by omega, by simp⟩, ⟨by omega, by simp⟩⟩

/-- A square room of side 3 with a wall and an exit. -/
noncomputable def smallRoom : Field := ⟨some ([(0, 0), (3, 0), (3, 3), (0, 3), (0, 0)], []),
  some (.lineString [(0, 0), (0, 3)]), [.lineString [(3, 0), (3, 3)]], []⟩

/-- It has all that is needed, with a made-up solver, and for any agents. -/
theorem smallRoom_ready {n : ℕ} (rows : Crowd n) :
    ReadyToRun { demoEnv n with fields := fun _ => smallRoom, lib := simpleLib } (demoState rows) := by
  refine ⟨by simp [SimEnv.field, smallRoom], by simp [SimEnv.field, smallRoom], ?_, ?_, ?_,
    by simp [demoState, demoData], rfl⟩
  · intro g hg
    have : g = .lineString [(0, 0), (0, 3)] := (Option.some.inj hg).symm
    subst this
    exact .lineString _
  · exact fun g _ => ⟨[], rfl⟩
  · intro t ht
    have : t = 0 := Nat.lt_one_iff.1 ht
    subst this
    have hs : (0 : ℝ) < 0.1 := by norm_num
    refine C77_obstacles_partial simpleLib _ 0 {0} (by simp) emptyCaches soundCaches_empty _ _ _
      (.lineString [(3, 0), (3, 3)]) _ 0.1 0.5 0.3 (fun c _ _ => ⟨_, rfl, rfl, rfl⟩) hs rfl
      properBox_three (by simp [smallRoom]) ?_ (simpleLib_drawable_step _ properBox_three _ hs _ _)
      rfl (simpleLib_drawable_step _ properBox_three _ hs _ _)
      (simpleLib_drawable_step _ properBox_three _ hs _ _)
    simp [selectTargets, pyListGet, npIndex, smallRoom]

end CrowdDynamics
