import Verif.Proofs.IeeeUpdate
import Verif.Proofs.IeeeCrowdCases

/-!
# An update of an ordinary crowd: examples
-/

namespace CrowdDynamics

open Spec Real

/-- Two agents that overlap and want to walk. -/
noncomputable def eagerPair : Crowd 2 := fun i =>
  { pressedPair i with tauAdj := 1 / 2, targetVelocity := 5 / 4 }

theorem eagerPair_moderate (i : Fin 2) : ModerateAgent (eagerPair i) ∧
    ModerateContact (eagerPair i) ∧ ModerateWalk (eagerPair i) := by
  obtain ⟨h1, h2⟩ := pressedPair_moderate i
  refine ⟨⟨h1.position, h1.velocity, h1.radius, h1.mass, h1.kSoc, h1.tau0⟩, h2, ?_, ?_, ?_, ?_⟩
  · have : (eagerPair i).mass = 73.5 ∨ (eagerPair i).mass = 80 := by
      fin_cases i
      · exact .inl rfl
      · exact .inr rfl
    rcases this with h | h <;> rw [h] <;> norm_num [le_abs]
  · show _ ≤ |(1 / 2 : ℝ)| ∧ |(1 / 2 : ℝ)| ≤ _
    norm_num [le_abs, abs_le]
  · show |(5 / 4 : ℝ)| ≤ _
    norm_num [abs_le]
  · have : (eagerPair i).forcePrev = 0 := by fin_cases i <;> rfl
    rw [this]
    simp

theorem eagerPair_force : (fun i => (eagerPair i).force) = fun _ => ((0, 0) : Vec) := by
  funext i
  fin_cases i <;> rfl

theorem ghost_others : (fun i => ghostCrowd ((1 : Fin 3).succAbove i)) =
    fun i => finiteAgent (eagerPair i) := by
  funext i
  fin_cases i <;> rfl

end CrowdDynamics
