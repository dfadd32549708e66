import Verif.Proofs.IeeeCrowd
import Verif.Proofs.IeeeMotionCases
import Verif.Proofs.IeeeContactCases

/-!
# A crowd with a lost agent: examples
-/

namespace CrowdDynamics

open Spec Real

/-- An agent who wants to walk. -/
noncomputable def eager (a : Agent) : AgentI :=
  finiteAgent { a with tauAdj := 1 / 2, targetVelocity := 5 / 4 }

/-- Two agents that overlap, and one between them whose first coordinate is not a number. -/
noncomputable def ghostCrowd : Fin 3 → AgentI :=
  ![eager (pressedPair 0),
    { eager (pressedPair 0) with
      position := (.nan, .num 0)
      velocity := (.nan, .num 1) },
    eager (pressedPair 1)]

theorem ghostCrowd_lost : Lost false (ghostCrowd 1).toRowI := ⟨rfl, rfl⟩

/-- Every agent is a neighbour of every other one. -/
noncomputable def ghostInput : StepInput 3 :=
  ⟨fun _ => (.num 0, .num 0), fun _ => (.num 1, .num 0), [(0, 1), (0, 2), (1, 2)]⟩

/-- The same without the agent in the middle. -/
noncomputable def ghostRest : StepInput 2 :=
  ⟨fun _ => (.num 0, .num 0), fun _ => (.num 1, .num 0), [(0, 1)]⟩

theorem ghost_without : Without 1 ghostInput ghostRest := by
  refine ⟨fun _ => rfl, fun _ => rfl, ?_⟩
  have h1 : ¬ NotIn (1 : Fin 3) (0, 1) := fun h => h.2 rfl
  have h2 : NotIn (1 : Fin 3) (0, 2) := ⟨by decide, by decide⟩
  have h3 : ¬ NotIn (1 : Fin 3) (1, 2) := fun h => h.1 rfl
  unfold ghostInput ghostRest
  rw [List.filter_cons_of_neg (by simpa using h1), List.filter_cons_of_pos (by simpa using h2),
    List.filter_cons_of_neg (by simpa using h3)]
  rfl

theorem ghostCrowd_target (i : Fin 3) : |(ghostCrowd i).targetVelocity| ≤ 2 ^ (10 : ℤ) := by
  have : (ghostCrowd i).targetVelocity = 5 / 4 := by fin_cases i <;> rfl
  rw [this]
  norm_num [abs_le]

theorem ghostCrowd_tau : (ghostCrowd 1).tauAdj ≠ 0 := by
  have : (ghostCrowd 1).tauAdj = 1 / 2 := rfl
  rw [this]
  norm_num

end CrowdDynamics
