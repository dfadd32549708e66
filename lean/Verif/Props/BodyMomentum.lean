import Verif.Proofs.BodyMomentum
import Verif.Proofs.BodyIsolationCases

/-!
# C195: three-circle agents change no total momentum by pushing each other
-/

namespace CrowdDynamics

open Spec

variable {n : ℕ}

/-- **C195** In every run of a shipped simulation (other than `TestMovement`) with three-circle agents
that have the same physical parameters, the total momentum changes only by what acts from outside: in
every update by `dt / 2` times the sum of the outside forces of this and the last update, however dense
the crowd is and whichever shoulders and torsos touch. -/
theorem C195_momentum {env : SimEnv n} {e : LogicExpr} {order : List Node} {s : SimState n} {N : ℕ}
    {S : ℕ → SimState n} (h : ShippedBodyRun env e order s N S)
    (hs : ∀ i j, SamePhysics (s.agents.rows i) (s.agents.rows j)) :
    ∃ E : ℕ → Fin n → ℝ × ℝ,
      (∀ j < N, ∀ i, ActsOnBodyFromOutside env order (S j) (S (j + 1)) i (E j i)) ∧
      (0 < N → totalMomentum (S 1).agents.rows = totalMomentum s.agents.rows +
        ((0.01 : ℝ) / 2) • (∑ i, (s.agents.rows i).forcePrev + ∑ i, E 0 i)) ∧
      ∀ j, j + 1 < N → totalMomentum (S (j + 2)).agents.rows =
        totalMomentum (S (j + 1)).agents.rows +
          ((0.01 : ℝ) / 2) • (∑ i, E j i + ∑ i, E (j + 1) i) := by
  have hb := completed_body h.order h.completed
  have step : ∀ j, ∃ E : Fin n → ℝ × ℝ, j < N →
      (∀ i, ActsOnBodyFromOutside env order (S j) (S (j + 1)) i (E i)) ∧
      (∑ i, ((S (j + 1)).agents.rows i).forcePrev = ∑ i, E i) ∧
      totalMomentum (S (j + 1)).agents.rows = totalMomentum (S j).agents.rows +
        ((0.01 : ℝ) / 2) • (∑ i, ((S j).agents.rows i).forcePrev + ∑ i, E i) := by
    intro j
    by_cases hj : j < N
    swap
    · exact ⟨fun _ => 0, fun h => absurd h hj⟩
    obtain ⟨E, h1, h2⟩ := run_outside h hs hj
    refine ⟨E, fun _ => ⟨h1, h2, ?_⟩⟩
    rw [← h2]
    unfold totalMomentum
    rw [smul_add, Finset.smul_sum, Finset.smul_sum, ← Finset.sum_add_distrib,
      ← Finset.sum_add_distrib]
    refine Finset.sum_congr rfl fun i _ => ?_
    obtain ⟨-, -, _, _, _, _, -, -, -, -, ⟨p, q, e1, e2, e3, -, e5⟩, -⟩ := body_newton h j hj i
    have em : ((S (j + 1)).agents.rows i).mass = ((S j).agents.rows i).mass :=
      ((hb (j + 1) hj).2 i).mass.symm.trans ((hb j hj.le).2 i).mass
    unfold IsAcceleration at e1 e2
    rw [em, e3, e5, ← e1, ← e2]
    ext <;> simp <;> ring
  choose E hE using step
  refine ⟨E, fun j hj => (hE j hj).1, fun hN => ?_, fun j hj => ?_⟩
  · rw [(hE 0 hN).2.2, h.completed.first]
  · rw [(hE (j + 1) hj).2.2, (hE j (by omega)).2.1]

/-- Two agents who rub against each other, and a third one far away. -/
example (N : ℕ) : ShippedBodyRun trioEnv walkLogic walkOrder rubbersState N rubbersWalk ∧
    (∀ i j, SamePhysics (rubbersState.agents.rows i) (rubbersState.agents.rows j)) := by
  refine ⟨rubbersWalk_run N, fun i j => ?_⟩
  have hv : ∀ i : Fin 3, (rubbers i).mass = 80 ∧ (rubbers i).kSoc = (rubbers 0).kSoc ∧
      (rubbers i).tau0 = (rubbers 0).tau0 ∧ (rubbers i).mu = (rubbers 0).mu ∧
      (rubbers i).kappa = (rubbers 0).kappa ∧ (rubbers i).damping = (rubbers 0).damping := by
    intro i
    fin_cases i <;> norm_num [rubbers, rubbing, Agent.default, Agent.zero]
  obtain ⟨a1, a2, a3, a4, a5, a6⟩ := hv i
  obtain ⟨b1, b2, b3, b4, b5, b6⟩ := hv j
  exact ⟨a1.trans b1.symm, a2.trans b2.symm, a3.trans b3.symm, a4.trans b4.symm, a5.trans b5.symm,
    a6.trans b6.symm⟩

end CrowdDynamics
