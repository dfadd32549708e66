import Verif.Proofs.Herd
import Verif.Proofs.ShippedTotal
import Verif.Proofs.SortCases

/-!
# A herd for the examples
-/

namespace CrowdDynamics

open Spec

noncomputable section

/-- A follower, somebody who walks beside, and a leader ahead; all walk to the right. -/
def column : Crowd 3 :=
  ![{ Agent.zero with isFollower := true, indexLeader := -1, velocity := (1, 0) },
    { Agent.zero with isFollower := true, indexLeader := -1, position := (0, 1), velocity := (2, 0) },
    { Agent.zero with isLeader := true, indexLeader := -1, position := (3, 0), velocity := (1, 0) }]

theorem column_valid : ∀ i, (column i).indexLeader = -1 ∨
    ∃ l : Fin 3, (column i).indexLeader = l.val := by
  intro i
  left
  fin_cases i <;> rfl

theorem column_right (j : Fin 3) : ∃ v : ℝ, 0 ≤ v ∧ (column j).velocity = v • ((1, 0) : ℝ × ℝ) := by
  fin_cases j
  · exact ⟨1, by norm_num, by ext <;> simp [column]⟩
  · exact ⟨2, by norm_num, by ext <;> simp [column]⟩
  · exact ⟨1, by norm_num, by ext <;> simp [column]⟩

/-- The follower at the back sees the leader and may follow it. -/
theorem column_counts : Counts column [] 20 (0.45 * Real.pi) 0 2 := by
  refine ⟨rfl, ?_, Or.inr ⟨by simp, ?_⟩⟩
  · have : Spec.dist (column 0).position (column 2).position = 3 := by
      simp [column, Agent.zero, Spec.dist, len]
    rw [this]
    norm_num
  · refine ⟨by simp [column], by simp [column], fun h => ?_⟩
    have h1 : cosAngle ((column 0).position - (column 2).position) (column 2).velocity = -1 := by
      simp [column, Agent.zero, cosAngle, len, Spec.inner]
    have h2 := h.1
    rw [h1] at h2
    have h3 : 0 ≤ Real.cos (0.45 * Real.pi) := Real.cos_nonneg_of_neg_pi_div_two_le_of_le
      (by linarith [Real.pi_pos]) (by linarith [Real.pi_pos])
    linarith

theorem all_cells {n : ℕ} (pos : Fin n → ℝ × ℝ) (c : ℝ) : EnumeratesNeighbours pos c (allPairs n) :=
  ⟨enumeratesAll_allPairs.distinct, enumeratesAll_allPairs.once,
    ⟨0, fun i j hij _ _ => enumeratesAll_allPairs.complete i j hij⟩⟩

end

end CrowdDynamics
