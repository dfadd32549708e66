import Verif.Proofs.WallRattle
import Verif.Proofs.WallRattleCases

/-!
# Pressing against a wall: C207
-/

namespace CrowdDynamics

open Spec

variable {n : ℕ}

/-- An agent who presses against a wall comes to rest. -/
def C207_statement : Prop :=
  ∀ (n : ℕ) (env : SimEnv n) (e : LogicExpr) (order : List Node) (s : SimState n) (S : ℕ → SimState n)
    (i : Fin n) (p q ν : ℝ × ℝ), Presses env e order s S i p q ν →
    ∀ ε > 0, ∃ J, ∀ j ≥ J, len ((S j).agents.rows i).velocity ≤ ε

/-- **C207** An agent who presses against a wall never comes to rest, whatever its body and the room: in each
such run there are, again and again without end, times at which it moves with more than a thousandth of the
speed it wants, measured across the wall. It also leaves the wall and comes back to it again and again. What
does hold of the claim is that it stays at the wall: it never sinks in by more than 15 cm and never moves into
it faster than 2.7 m/s. Missing: nothing, since the claim itself is false. -/
theorem C207_rattles_partial {env : SimEnv n} {e : LogicExpr} {order : List Node} {s : SimState n}
    {S : ℕ → SimState n} {i : Fin n} {p q ν : ℝ × ℝ} (h : Presses env e order s S i p q ν) :
    (∀ J, ∃ j ≥ J, (s.agents.rows i).targetVelocity / 1000 <
      |Spec.inner ((S j).agents.rows i).velocity ν|) ∧
    (∀ J, ∃ j ≥ J, offWall p ν ((S j).agents.rows i).position < (s.agents.rows i).radius) ∧
    (∀ J, ∃ j ≥ J, (s.agents.rows i).radius ≤ offWall p ν ((S j).agents.rows i).position) ∧
    ∀ j, (s.agents.rows i).radius - 0.15 ≤ offWall p ν ((S j).agents.rows i).position ∧
      -2.7 ≤ Spec.inner ((S j).agents.rows i).velocity ν := by
  obtain ⟨K, c, w, hR⟩ := wall_rattle h.run i h.contact h.wall h.upright h.tau h.mu h.damping h.calm h.radius
    h.mass h.pace h.aim h.alone (h.slow.trans h.pace.2) h.clear h.beside
  exact ⟨hR.restless, hR.comes_back, hR.lets_go, fun j => ⟨hR.deep j, hR.low j⟩⟩

/-- **C207** fails: a leader alone in a room with one wall, who wants to walk straight against it, rattles
against the wall for ever, because the damping term of the contact force has the wrong sign and feeds the
motion instead of taking from it. -/
theorem C207_fails : ¬ C207_statement := by
  intro hc
  obtain ⟨b, hb⟩ := ordinary_body
  have h := marching_presses hb
  have hV := h.pace.1
  obtain ⟨J, hJ⟩ := hc 1 _ _ _ _ _ 0 _ _ _ h
    (((demoState (marcher b)).agents.rows 0).targetVelocity / 1000) (by linarith)
  obtain ⟨j, hj, hlt⟩ := (C207_rattles_partial h).1 J
  have h1 := hJ j hj
  have h2 : |Spec.inner ((marching b j).agents.rows 0).velocity (-1, 0)| ≤
      len ((marching b j).agents.rows 0).velocity := by
    have : Spec.inner ((marching b j).agents.rows 0).velocity (-1, 0) =
        -((marching b j).agents.rows 0).velocity.1 := by
      simp [Spec.inner]
    rw [this, abs_neg]
    exact Real.abs_le_sqrt (by nlinarith [sq_nonneg ((marching b j).agents.rows 0).velocity.2])
  linarith

/-- The leader with the body of any ordinary size: it meets the conditions and never stops moving. -/
example (b : BodyObj) (hb : OrdinaryBody b) (J : ℕ) : ∃ j ≥ J, b.val .targetVelocity / 1000 <
    |((marching b j).agents.rows 0).velocity.1| := by
  obtain ⟨j, hj, h⟩ := (C207_rattles_partial (marching_presses hb)).1 J
  refine ⟨j, hj, ?_⟩
  have : Spec.inner ((marching b j).agents.rows 0).velocity (-1, 0) =
      -((marching b j).agents.rows 0).velocity.1 := by
    simp [Spec.inner]
  rw [this, abs_neg] at h
  exact h

end CrowdDynamics
