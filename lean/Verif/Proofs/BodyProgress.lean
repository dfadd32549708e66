import Verif.Proofs.BodyStride
import Verif.Proofs.Progress

/-!
# Lemmas about the way of three-circle agents
-/

namespace CrowdDynamics

open Spec

variable {n : ℕ}

/-- The velocities and positions of a run, as in `Drive`. -/
theorem body_way {env : SimEnv n} {e : LogicExpr} {order : List Node} {s : SimState n} {N : ℕ}
    {S : ℕ → SimState n} (h : ShippedBodyRun env e order s N S) (i : Fin n)
    (h0 : (s.agents.rows i).forcePrev = 0) :
    ∃ A U : ℕ → Vec,
      Drive 0.01 (s.agents.rows i).tauAdj N (fun j => ((S j).agents.rows i).velocity) A U ∧
      ∀ j < N, (∃ f, DisturbsBody env order (S j) (S (j + 1)) i f ∧
        U j = (s.agents.rows i).targetVelocity • ((S (j + 1)).agents.rows i).targetDirection +
          ((s.agents.rows i).tauAdj / (s.agents.rows i).mass) • f.1) ∧
        ((S (j + 1)).agents.rows i).position = ((S j).agents.rows i).position +
          (0.01 : ℝ) • ((S (j + 1)).agents.rows i).velocity + ((0.01 : ℝ) ^ 2 / 2) • A j := by
  refine ⟨fun j => (1 / (s.agents.rows i).mass) • ((S (j + 1)).agents.rows i).forcePrev,
    fun j => ((S j).agents.rows i).velocity + (s.agents.rows i).tauAdj •
      (1 / (s.agents.rows i).mass) • ((S (j + 1)).agents.rows i).forcePrev, ⟨?_, ?_, ?_⟩, ?_⟩
  · intro hN
    obtain ⟨f, d, -, -, -, h2, -⟩ := body_drive h i hN
    have : ((S 0).agents.rows i).forcePrev = 0 := by rw [h.completed.first]; exact h0
    simp only [this, smul_zero, zero_add] at h2
    exact h2
  · intro j hj
    obtain ⟨f, d, -, -, -, h2, -⟩ := body_drive h i hj
    exact h2
  · intro j hj
    simp
  · intro j hj
    obtain ⟨f, d, hf, -, h1, -⟩ := body_drive h i hj
    refine ⟨⟨f, hf, ?_⟩, body_position h i hj⟩
    simp only
    rw [h1]
    abel

end CrowdDynamics
