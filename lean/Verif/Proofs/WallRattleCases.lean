import Verif.Proofs.WallWalkCases
import Verif.Spec.WallRattle

/-!
# Pressing against a wall: the case of one leader
-/

namespace CrowdDynamics

open Spec

/-- The leader who marches against the only wall of the room presses against it. -/
theorem marching_presses {b : BodyObj} (hb : OrdinaryBody b) :
    Presses oneWallEnv closedRoomLogic closedOrder (demoState (marcher b)) (marching b) 0
      (2, -1) (2, 1) (-1, 0) where
  run := marching_run hb
  contact := by simp [closedOrder]
  wall := by norm_num
  upright := one_wall_normal
  tau := by norm_num [demoState, marcher]
  mu := rfl
  damping := rfl
  calm := rfl
  radius := (by norm_num : (0.19 : ℝ) ≤ 0.195).trans hb.radius.1
  mass := ⟨(by norm_num : (50 : ℝ) ≤ 51.3).trans hb.mass.1, hb.mass.2.trans (by norm_num)⟩
  pace := by
    refine ⟨?_, ?_⟩
    · exact le_trans (by norm_num) hb.velocity.1
    · exact le_trans hb.velocity.2 (by norm_num)
  aim := fun j => by rw [(marching_direction b (j + 1)).1]; norm_num
  alone := marching_only b
  slow := by
    have : len ((demoState (marcher b)).agents.rows 0).velocity = 0 := by
      change len (0 : ℝ × ℝ) = 0
      norm_num [len]
    rw [this]
    exact (marching_pace hb).1
  clear := (marching_pace hb).2.2.2
  beside := fun j => marching_beside b j (marching_holds hb j j le_rfl).1

/-- There is an ordinary body. -/
theorem ordinary_body : ∃ b : BodyObj, OrdinaryBody b := by
  refine ⟨⟨fun x => match x with
    | .radius => 0.25
    | .mass => 73.5
    | _ => 1.25, "adult", 0⟩, ⟨?_, ?_⟩, ⟨?_, ?_⟩, ?_, ?_⟩ <;> norm_num

end CrowdDynamics
