import Verif.Proofs.MomentumCases
import Verif.Proofs.Momentum
import Verif.Props.LongRun

/-!
# C149: forces between agents are determined by the specification and change no total momentum
-/

namespace CrowdDynamics

open Spec

variable {n : ℕ}

/-- **C149** The specification of the force of one agent on another determines it: two forces that meet
it are equal. So C110 to C113 say exactly which forces act. -/
theorem C149_determined (a b : Agent) (f g : ℝ × ℝ) (hf : IsNeighbourForce a b f)
    (hg : IsNeighbourForce a b g) : f = g :=
  neighbour_unique hf hg

/-- There is a force for every two agents with radii that are not negative. -/
example (a b : Agent) (hr : 0 ≤ a.radius + b.radius) : ∃ f, IsNeighbourForce a b f :=
  ⟨_, pairForces_spec a b hr⟩

/-- **C149** The force of `b` on `a` and that of `a` on `b` are opposite, if the agents have the same
physical parameters. -/
theorem C149_opposite (a b : Agent) (hr : 0 ≤ a.radius + b.radius) (hs : SamePhysics a b) (f g : ℝ × ℝ)
    (hf : IsNeighbourForce a b f) (hg : IsNeighbourForce b a g) : f = -g :=
  eq_neg_of_add_eq_zero_left (neighbour_opposite hr hs hf hg)

/-- Two agents who walk towards each other. -/
example : SamePhysics (facing 0) (facing 1) ∧ 0 ≤ (facing 0).radius + (facing 1).radius := by
  refine ⟨⟨rfl, rfl, rfl, rfl, rfl, rfl⟩, by norm_num [facing]⟩

/-- **C149** In every run of a shipped simulation (other than `TestMovement`) with circular agents that
have the same physical parameters, the total momentum changes only by what acts from outside: in every
update by `dt / 2` times the sum of the outside forces of this and the last update, however dense the
crowd is and however many agents collide. -/
theorem C149_momentum {env : SimEnv n} {e : LogicExpr} {order : List Node} {s : SimState n} {N : ℕ}
    {S : ℕ → SimState n} (h : ShippedRun env e order s N S)
    (hs : ∀ i j, SamePhysics (s.agents.rows i) (s.agents.rows j)) :
    ∃ E : ℕ → Fin n → ℝ × ℝ,
      (∀ j < N, ∀ i, ActsFromOutside env order (S j) (S (j + 1)) i (E j i)) ∧
      (0 < N → totalMomentum (S 1).agents.rows =
        totalMomentum s.agents.rows + ((0.01 : ℝ) / 2) • ∑ i, E 0 i) ∧
      ∀ j, j + 1 < N → totalMomentum (S (j + 2)).agents.rows =
        totalMomentum (S (j + 1)).agents.rows +
          ((0.01 : ℝ) / 2) • (∑ i, E j i + ∑ i, E (j + 1) i) := by
  have hb := completed_body h.order h.completed
  have step : ∀ j, ∃ E : Fin n → ℝ × ℝ, j < N →
      (∀ i, ActsFromOutside env order (S j) (S (j + 1)) i (E i)) ∧
      (∑ i, ((S (j + 1)).agents.rows i).forcePrev = ∑ i, E i) ∧
      totalMomentum (S (j + 1)).agents.rows = totalMomentum (S j).agents.rows +
        ((0.01 : ℝ) / 2) • (∑ i, ((S j).agents.rows i).forcePrev + ∑ i, E i) := by
    intro j
    by_cases hj : j < N
    swap
    · exact ⟨fun _ => 0, fun h => absurd h hj⟩
    have hn := run_newton h j hj
    choose hz fl ad pa wa cf ca cp cw ts using hn
    choose F hF hp using cp
    have hbj := (hb j hj.le).2
    have hcancel : ∑ i, pa i = 0 := by
      simp only [hp]
      refine pairs_cancel (crowd := aiming (S j) (S (j + 1))) (fun k => ?_) (fun i k => ?_) F hF
      · show 0 ≤ ((S j).agents.rows k).radius
        rw [← (hbj k).radius]
        exact h.regular.radius k
      · obtain ⟨h1, h2, h3, h4, h5, h6⟩ := hs i k
        refine ⟨?_, ?_, ?_, ?_, ?_, ?_⟩
        · exact (hbj i).mass.symm.trans (h1.trans (hbj k).mass)
        · exact (hbj i).kSoc.symm.trans (h2.trans (hbj k).kSoc)
        · exact (hbj i).tau0.symm.trans (h3.trans (hbj k).tau0)
        · exact (hbj i).mu.symm.trans (h4.trans (hbj k).mu)
        · exact (hbj i).kappa.symm.trans (h5.trans (hbj k).kappa)
        · exact (hbj i).damping.symm.trans (h6.trans (hbj k).damping)
    have hsum : ∑ i, (fl i + ad i + pa i + wa i) = ∑ i, (fl i + ad i + wa i) := by
      rw [← add_zero (∑ i, (fl i + ad i + wa i)), ← hcancel, ← Finset.sum_add_distrib]
      exact Finset.sum_congr rfl fun i _ => by abel
    refine ⟨fun i => fl i + ad i + wa i, fun _ =>
      ⟨fun i => ⟨fl i, ad i, wa i, cf i, ca i, cw i, rfl⟩, ?_, ?_⟩⟩
    · rw [← hsum]
      refine Finset.sum_congr rfl fun i _ => ?_
      obtain ⟨-, -, -, -, -, -, e⟩ := ts i
      exact e
    · rw [← hsum]
      unfold totalMomentum
      rw [smul_add, Finset.smul_sum, Finset.smul_sum, ← Finset.sum_add_distrib,
        ← Finset.sum_add_distrib]
      refine Finset.sum_congr rfl fun i _ => ?_
      obtain ⟨p, q, e1, e2, e3, -, -⟩ := ts i
      have em : ((S (j + 1)).agents.rows i).mass = ((S j).agents.rows i).mass :=
        ((hb (j + 1) hj).2 i).mass.symm.trans (hbj i).mass
      unfold IsAcceleration at e1 e2
      rw [em, e3, ← e1, ← e2]
      ext <;> simp <;> ring
  choose E hE using step
  refine ⟨E, fun j hj => (hE j hj).1, fun hN => ?_, fun j hj => ?_⟩
  · rw [(hE 0 hN).2.2, h.completed.first]
    have : ∑ i, (s.agents.rows i).forcePrev = 0 :=
      Finset.sum_eq_zero fun i _ => (h.start i).2
    rw [this, zero_add]
  · rw [(hE (j + 1) hj).2.2, (hE j (by omega)).2.1]

/-- The two agents who walk towards each other start with total momentum zero; in the first update it
changes only by their own wishes and the random forces, although they repel each other. -/
example (N : ℕ) (hN : 0 < N) : ∃ E : Fin 2 → ℝ × ℝ,
    (∀ i, ActsFromOutside meetingEnv [.fluctuation, .orientation, .adjusting,
      .agentAgent (3.0 + 2 * 0.3), .integrator 0.01 0.01, .reset] (meeting 0) (meeting 1) i (E i)) ∧
    totalMomentum (meeting 1).agents.rows = ((0.01 : ℝ) / 2) • (E 0 + E 1) := by
  obtain ⟨E, h1, h2, -⟩ := C149_momentum (meeting_run N) (fun i j => ⟨rfl, rfl, rfl, rfl, rfl, rfl⟩)
  refine ⟨E 0, h1 0 hN, ?_⟩
  rw [h2 hN, Fin.sum_univ_two]
  have : totalMomentum (demoState facing).agents.rows = 0 := by
    unfold totalMomentum
    rw [Fin.sum_univ_two]
    ext <;> norm_num [demoState, facing]
  rw [this, zero_add]

end CrowdDynamics
