import Verif.Proofs.Dynamics
import Verif.Proofs.NoSwap
import Verif.Proofs.BodyStride
import Verif.Spec.Contact

/-!
# Helper lemmas for C198 and C199
-/

namespace CrowdDynamics

open Spec

variable {n : ℕ}

/-- Elastic, friction and damping part along and across the normal. -/
lemma contact_parts {x v m f : ℝ × ℝ} {depth mu kappa damping : ℝ} (hx : x ≠ 0) (hm : len x • m = x)
    (hm1 : len m = 1)
    (hf : f = depth • (mu • m - (kappa * Spec.inner v (m.2, -m.1)) • (m.2, -m.1)) +
      (damping * Spec.inner v m) • m) :
    Spec.inner f x = len x * (mu * depth - damping * approachSpeed x v) ∧
    len x * len x * Spec.inner f (x.2, -x.1) = -(len x * len x * depth * kappa * slip x v) ∧ 0 < len x := by
  have h0 : 0 < len x := by
    refine lt_of_le_of_ne (len_nonneg' _) fun h => hx ?_
    rw [← hm, ← h, zero_smul]
  obtain ⟨L, hL⟩ : ∃ L, len x = L := ⟨_, rfl⟩
  rw [hL] at hm h0 ⊢
  have hq : m.1 ^ 2 + m.2 ^ 2 = 1 := by
    have := Real.sq_sqrt (show 0 ≤ m.1 ^ 2 + m.2 ^ 2 by positivity)
    rw [show Real.sqrt (m.1 ^ 2 + m.2 ^ 2) = 1 from hm1] at this
    linarith
  have x1 : x.1 = L * m.1 := by rw [← hm]; rfl
  have x2 : x.2 = L * m.2 := by rw [← hm]; rfl
  have ha : approachSpeed x v = -Spec.inner v m := by
    unfold approachSpeed Spec.inner
    rw [hL, x1, x2]
    field_simp
  have f1 : f.1 = depth * (mu * m.1 - kappa * Spec.inner v (m.2, -m.1) * m.2) +
      damping * Spec.inner v m * m.1 := by rw [hf]; rfl
  have f2 : f.2 = depth * (mu * m.2 - kappa * Spec.inner v (m.2, -m.1) * -m.1) +
      damping * Spec.inner v m * m.2 := by rw [hf]; rfl
  refine ⟨?_, ?_, h0⟩
  · rw [ha]
    unfold Spec.inner at f1 f2 ⊢
    simp only at f1 f2 ⊢
    rw [f1, f2, x1, x2]
    linear_combination L * (mu * depth + damping * (v.1 * m.1 + v.2 * m.2)) * hq
  · unfold slip
    unfold Spec.inner at f1 f2 ⊢
    simp only at f1 f2 ⊢
    rw [f1, f2, x1, x2]
    linear_combination -(L * L * L * depth * kappa * (v.1 * m.2 - v.2 * m.1)) * hq

/-- The sign of the push, and friction. -/
lemma contact_signs {x v m f : ℝ × ℝ} {depth mu kappa damping : ℝ} (hx : x ≠ 0) (hm : len x • m = x)
    (hm1 : len m = 1)
    (hf : f = depth • (mu • m - (kappa * Spec.inner v (m.2, -m.1)) • (m.2, -m.1)) +
      (damping * Spec.inner v m) • m) :
    (0 ≤ Spec.inner f x ↔ damping * approachSpeed x v ≤ mu * depth) ∧
    Spec.inner f (x.2, -x.1) = -(depth * kappa * slip x v) := by
  obtain ⟨h1, h2, h0⟩ := contact_parts hx hm hm1 hf
  refine ⟨?_, ?_⟩
  · rw [h1, mul_nonneg_iff_of_pos_left h0, sub_nonneg]
  · have := mul_pos h0 h0
    refine mul_left_cancel₀ this.ne' ?_
    rw [h2]
    ring

/-- Overlapping discs do not collide later. -/
lemma no_collision_ahead {a b : Agent} (h : Spec.dist a.position b.position < a.radius + b.radius) (t : ℝ) :
    ¬ CollideAt a b t := by
  rintro ⟨h0, -, h1, -⟩
  have := apart_of_firstTouch h0 h1
  exact absurd this (not_lt.2 h.le)

/-- The force of overlapping agents on each other is the contact force. -/
lemma overlapping_force {a b : Agent} {F : ℝ × ℝ} (h : Spec.dist a.position b.position < a.radius + b.radius)
    (hF : IsNeighbourForce a b F) : IsContactForce a b F := by
  obtain ⟨s, c, hs, hc, rfl⟩ := hF.2 (by linarith)
  rw [hs.2 fun t => no_collision_ahead h t, zero_add]
  exact hc

/-- The forces that an interaction of two agents adds. -/
lemma interaction_adds (agents : Crowd n) {i j : Fin n} (hij : i ≠ j) :
    (interactionAgentAgentCircular i j agents i).force - (agents i).force =
      (pairForces (agents i) (agents j)).1 ∧
    (interactionAgentAgentCircular i j agents j).force - (agents j).force =
      (pairForces (agents j) (agents i)).1 := by
  rw [show interactionAgentAgentCircular i j agents = applyEffect agents (effectCirc (i, j) agents) from
    interactionCirc_eq (i, j) agents]
  unfold applyEffect effectCirc
  constructor
  · simp [hij]
  · rw [pairForces_swap (agents i) (agents j)]
    simp [hij.symm]

/-- The nearest point of a wall is unique. -/
lemma nearest_unique {p : ℝ × ℝ} {w : Wall} {z z' : ℝ × ℝ} (h : IsNearest p w z) (h' : IsNearest p w z') :
    z = z' := by
  have hd : Spec.dist p z = Spec.dist p z' := le_antisymm (h.2 z' h'.1) (h'.2 z h.1)
  have hm := h.2 ((1 / 2 : ℝ) • z + (1 / 2 : ℝ) • z')
    (convex_segment w.p0 w.p1 h.1 h'.1 (by norm_num) (by norm_num) (by norm_num))
  have sq : ∀ q : ℝ × ℝ, Spec.dist p q ^ 2 = (p.1 - q.1) ^ 2 + (p.2 - q.2) ^ 2 := fun q => by
    unfold Spec.dist len
    rw [Real.sq_sqrt (by positivity)]
    rfl
  have h0 : 0 ≤ Spec.dist p z := len_nonneg' _
  have h1 := pow_le_pow_left₀ h0 hm 2
  have h2 : Spec.dist p z ^ 2 = Spec.dist p z' ^ 2 := by rw [hd]
  rw [sq, sq] at h1 h2
  simp only [Prod.fst_add, Prod.snd_add, Prod.smul_fst, Prod.smul_snd, smul_eq_mul] at h1
  have h3 : (z.1 - z'.1) ^ 2 + (z.2 - z'.2) ^ 2 ≤ 0 := by nlinarith
  have e1 : (z.1 - z'.1) ^ 2 = 0 := le_antisymm (by nlinarith [sq_nonneg (z.2 - z'.2)]) (sq_nonneg _)
  have e2 : (z.2 - z'.2) ^ 2 = 0 := le_antisymm (by nlinarith [sq_nonneg (z.1 - z'.1)]) (sq_nonneg _)
  ext
  · exact sub_eq_zero.1 (pow_eq_zero_iff two_ne_zero |>.1 e1)
  · exact sub_eq_zero.1 (pow_eq_zero_iff two_ne_zero |>.1 e2)

/-- An agent that wants to stand still and is out of reach of everything slows down. -/
lemma coasting {env : SimEnv n} {e : LogicExpr} {order : List Node} {s : SimState n} {N : ℕ}
    {S : ℕ → SimState n} (h : ShippedRun env e order s N S) (i : Fin n)
    (ht : 1 / 30 ≤ (s.agents.rows i).tauAdj) (hv : (s.agents.rows i).targetVelocity = 0)
    (hs : (s.agents.rows i).stdRandForce = 0) (hu : ∀ j < N, OutOfReach env (S j).agents.rows i) :
    (∀ j ≤ N, ∃ c, 0 ≤ c ∧ c ≤ (1 - 0.01 / (2 * (s.agents.rows i).tauAdj)) ^ j ∧
      ((S j).agents.rows i).velocity = c • (s.agents.rows i).velocity) ∧
    ∀ j < N, Spec.dist ((S (j + 1)).agents.rows i).position ((S j).agents.rows i).position ≤
      0.012 * len (s.agents.rows i).velocity := by
  obtain ⟨A, U, hD, hU⟩ := run_drive h i
  have htau := h.regular.tau i
  have hU0 : ∀ j < N, U j = 0 := fun j hj => by
    obtain ⟨⟨d, h1, h2⟩, -⟩ := hU j hj
    have h3 := disturbs_alone (hu j hj) h1
    have hb := (completed_body h.order h.completed j hj.le).2 i
    rw [← hb.stdRandForce, hs, mul_zero] at h3
    rw [h2, len_eq_zero' (le_antisymm h3 (len_nonneg' _)), hv, zero_smul, smul_zero, add_zero]
  have hrel := drive_relax hD (by norm_num) htau (by rw [div_le_iff₀ htau]; linarith) hU0
  have key : ∀ j ≤ N, ∃ c, 0 ≤ c ∧ c ≤ (1 - 0.01 / (2 * (s.agents.rows i).tauAdj)) ^ j ∧
      ((S j).agents.rows i).velocity = c • (s.agents.rows i).velocity := by
    intro j hj
    obtain ⟨c, c0, c1, c2⟩ := hrel j hj
    refine ⟨c, c0, by rw [show 0.01 / (2 * (s.agents.rows i).tauAdj) =
      0.01 / (s.agents.rows i).tauAdj / 2 by rw [div_div, mul_comm]]; exact c1, ?_⟩
    rw [h.completed.first, sub_zero, sub_zero] at c2
    exact c2
  have slow : ∀ j ≤ N, len ((S j).agents.rows i).velocity ≤ len (s.agents.rows i).velocity := by
    intro j hj
    obtain ⟨c, c0, c1, c2⟩ := key j hj
    rw [c2, len_smul', abs_of_nonneg c0]
    have q : 0.01 / (2 * (s.agents.rows i).tauAdj) ≤ 1 := by
      rw [div_le_one (by linarith)]
      linarith
    have q' : 0 < 0.01 / (2 * (s.agents.rows i).tauAdj) := by positivity
    have : c ≤ 1 := c1.trans (pow_le_one₀ (by linarith) (by linarith))
    have := mul_le_mul_of_nonneg_right this (len_nonneg' (s.agents.rows i).velocity)
    linarith
  refine ⟨key, fun j hj => ?_⟩
  obtain ⟨-, h3⟩ := hU j hj
  unfold Spec.dist
  rw [h3, show ∀ p q r : ℝ × ℝ, p + q + r - p = q + r by intro p q r; abel, hD.accel htau hj, hU0 j hj,
    zero_sub, smul_neg, smul_neg]
  refine (len_add_le' _ _).trans ?_
  rw [len_neg', len_smul', len_smul', len_smul', abs_of_nonneg (by norm_num), abs_of_nonneg (by norm_num),
    abs_of_nonneg (one_div_pos.2 htau).le]
  have b1 := slow (j + 1) hj
  have b2 := slow j hj.le
  have b3 : 1 / (s.agents.rows i).tauAdj ≤ 30 := by
    rw [div_le_iff₀ htau]
    linarith
  have b4 := mul_le_mul b3 b2 (len_nonneg' _) (by norm_num)
  have b5 := len_nonneg' (s.agents.rows i).velocity
  nlinarith

end CrowdDynamics
