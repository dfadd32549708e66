import Verif.Proofs.IeeeMotion

/-!
# Cases for `Verif.Props.IeeeMotion`
-/

namespace CrowdDynamics

open Spec Real

/-- An agent that walks. -/
def walkingRow : RowI :=
  ⟨(.num 0, .num 0), (.num 1, .num 0), (.num 3, .num 4), (.num 0, .num 0), 70, 1⟩

/-- The same agent with all attributes. -/
noncomputable def walkingAgent : Agent :=
  { Agent.default with
    position := (0, 0)
    velocity := (1, 0)
    force := (3, 4)
    forcePrev := (0, 0)
    mass := 70
    targetVelocity := 1 }

/-- An agent with an infinite position and a NaN velocity. -/
def brokenRow : RowI :=
  ⟨(.num 0, .inf true), (.nan, .num 2), (.num 3, .num 4), (.num 0, .num 0), 70, 1⟩

theorem walkingRow_finite : FiniteRow walkingRow := by
  have f : ∀ m : ℕ, m ≤ 2 ^ 10 → |(m : ℝ)| ≤ 2 ^ (400 : ℤ) := by
    intro m hm
    rw [abs_of_nonneg (Nat.cast_nonneg m)]
    have : (m : ℝ) ≤ 2 ^ (10 : ℤ) := by exact_mod_cast hm
    exact this.trans (zpow_le_zpow_right₀ (by norm_num) (by norm_num))
  have f0 := f 0 (by norm_num)
  have f1 := f 1 (by norm_num)
  have f3 := f 3 (by norm_num)
  have f4 := f 4 (by norm_num)
  have f70 := f 70 (by norm_num)
  push_cast at f0 f1 f3 f4 f70
  refine ⟨⟨0, 0, rfl, f0, f0⟩, ⟨1, 0, rfl, f1, f0⟩, ⟨3, 4, rfl, f3, f4⟩, ⟨0, 0, rfl, f0, f0⟩, ?_,
    f70⟩
  show _ ≤ |(70 : ℝ)|
  rw [abs_of_pos (by norm_num)]
  have : (2 : ℝ) ^ (-400 : ℤ) ≤ 2 ^ (0 : ℤ) := zpow_le_zpow_right₀ (by norm_num) (by norm_num)
  rw [zpow_zero] at this
  linarith

theorem rows_target (i : Fin 2) : |((![walkingRow, brokenRow] : Fin 2 → RowI) i).targetVelocity| ≤
    2 ^ (10 : ℤ) := by
  fin_cases i
  · show |(1 : ℝ)| ≤ _
    norm_num
  · show |(1 : ℝ)| ≤ _
    norm_num

end CrowdDynamics
