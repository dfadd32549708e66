import Verif.Proofs.Visualizations
import Verif.Props.Guidance

/-!
# Cases and helper lemmas for `Verif.Props.Visualizations`
-/

namespace CrowdDynamics

open Spec

/-- A square room with a wall and an exit. -/
def drawnRoom : Field :=
  ⟨some ([(0, 0), (1, 0), (1, 1), (0, 1), (0, 0)], []), some (.lineString [(0, 0), (0, 1)]),
    [.lineString [(1, 0), (1, 1)]], []⟩

theorem drawnRoom_proper : AllOf Proper drawnRoom :=
  ⟨fun _ _ => .polygon _ _, by simp [drawnRoom], by
    intro g hg; simp only [drawnRoom, List.mem_singleton] at hg; subst hg; exact .line _,
    fun g hg => by cases hg; exact .line _⟩

theorem drawnRoom_solid : AllOf Solid drawnRoom :=
  ⟨fun d hd => by cases hd; exact .polygon _, by simp [drawnRoom], by
    intro g hg; simp only [drawnRoom, List.mem_singleton] at hg; subst hg; exact .line _,
    fun g hg => by cases hg; exact .line _⟩

theorem openField_proper : AllOf Proper openField :=
  ⟨fun _ _ => .polygon _ _, by simp [openField], by
    intro g hg; simp only [openField, List.mem_singleton] at hg; subst hg; exact .line _,
    fun g hg => by cases hg⟩

theorem meshgrid_whole (step minx miny : ℝ) (a b : ℕ) (hs : 0 < step) :
    (meshgrid step minx miny (minx + a * step) (miny + b * step)).shape = (b + 1, a + 1) := by
  obtain ⟨h1, h2, -⟩ := C56_grid step minx miny (minx + a * step) (miny + b * step) hs
    (le_add_of_nonneg_right (by positivity)) (le_add_of_nonneg_right (by positivity))
  rw [add_sub_cancel_left, mul_div_cancel_right₀ _ hs.ne', Int.ceil_natCast] at h1 h2
  ext
  · simp only; omega
  · simp only; omega

end CrowdDynamics
