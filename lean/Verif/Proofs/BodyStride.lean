import Verif.Props.BodyLimits

/-!
# Lemmas about the length of the steps of three-circle agents
-/

namespace CrowdDynamics

open Spec

variable {n : ℕ}

/-- Where a three-circle agent goes. -/
theorem body_position {env : SimEnv n} {e : LogicExpr} {order : List Node} {s : SimState n} {N : ℕ}
    {S : ℕ → SimState n} (h : ShippedBodyRun env e order s N S) (i : Fin n) {j : ℕ} (hj : j < N) :
    ((S (j + 1)).agents.rows i).position = ((S j).agents.rows i).position +
      (0.01 : ℝ) • ((S (j + 1)).agents.rows i).velocity +
      ((0.01 : ℝ) ^ 2 / 2) • (1 / (s.agents.rows i).mass) • ((S (j + 1)).agents.rows i).forcePrev := by
  have hm := h.regular.mass i
  obtain ⟨-, hb⟩ := completed_body h.order h.completed j hj.le
  obtain ⟨-, -, f, a, p, w, -, -, -, -, ⟨x', y', hx', hy', -, hp', hf'⟩, -⟩ := body_newton h j hj i
  rw [← (hb i).mass] at hy'
  rw [hp', accel_unique hm hy', hf']

/-- The torso of a three-circle agent moves at most so far in one update. -/
theorem body_stride {env : SimEnv n} {e : LogicExpr} {order : List Node} {s : SimState n} {N : ℕ}
    {S : ℕ → SimState n} (h : ShippedBodyRun env e order s N S) (i : Fin n)
    (hf : (s.agents.rows i).forcePrev = 0)
    (ht : 1 / 30 ≤ (s.agents.rows i).tauAdj) (hv : 0 ≤ (s.agents.rows i).targetVelocity)
    (hd : ∀ j < N, len ((S (j + 1)).agents.rows i).targetDirection ≤ 1) (F V : ℝ)
    (hF : ∀ j < N, ∀ d, DisturbsBody env order (S j) (S (j + 1)) i d → len d.1 ≤ F)
    (hV : V = (s.agents.rows i).targetVelocity +
      (s.agents.rows i).tauAdj * F / (s.agents.rows i).mass)
    (h0 : len (s.agents.rows i).velocity ≤ V) (j : ℕ) (hj : j < N) :
    Spec.dist ((S (j + 1)).agents.rows i).position ((S j).agents.rows i).position ≤
      0.01 * V * (1 + 0.01 / (s.agents.rows i).tauAdj) := by
  have hspeed := C189_speed h i hf ht hv hd F hF (hV ▸ h0)
  rw [← hV] at hspeed
  have htau := h.regular.tau i
  have hm := h.regular.mass i
  obtain ⟨f, _, hdf, -, h1, -⟩ := body_drive h i hj
  obtain ⟨A, hA⟩ : ∃ A, A = (1 / (s.agents.rows i).mass) • ((S (j + 1)).agents.rows i).forcePrev :=
    ⟨_, rfl⟩
  have h3 := body_position h i hj
  rw [← hA] at h1 h3
  have hU : len ((s.agents.rows i).targetVelocity • ((S (j + 1)).agents.rows i).targetDirection +
          ((s.agents.rows i).tauAdj / (s.agents.rows i).mass) • f.1) ≤ V := by
    rw [hV]
    refine (len_add_le' _ _).trans ?_
    rw [len_smul', len_smul', abs_of_nonneg hv, abs_of_nonneg (div_pos htau hm).le]
    have a1 := mul_le_mul_of_nonneg_left (hd j hj) hv
    have a2 := mul_le_mul_of_nonneg_left (hF j hj f hdf) (div_pos htau hm).le
    rw [mul_one] at a1
    rw [mul_div_right_comm]
    exact add_le_add a1 a2
  have hA' : len A ≤ 1 / (s.agents.rows i).tauAdj * (V + V) := by
    have : A = (1 / (s.agents.rows i).tauAdj) • ((s.agents.rows i).tauAdj • A) := by
      rw [smul_smul, one_div, inv_mul_cancel₀ htau.ne', one_smul]
    rw [this, h1, len_smul', abs_of_nonneg (one_div_pos.2 htau).le]
    refine mul_le_mul_of_nonneg_left ?_ (one_div_pos.2 htau).le
    rw [sub_eq_add_neg]
    refine (len_add_le' _ _).trans ?_
    rw [len_neg']
    exact add_le_add hU (hspeed j hj.le)
  unfold Spec.dist
  rw [h3, show ∀ p q r : ℝ × ℝ, p + q + r - p = q + r by intro p q r; abel]
  refine (len_add_le' _ _).trans ?_
  rw [len_smul', len_smul', abs_of_nonneg (by norm_num), abs_of_nonneg (by norm_num)]
  have b1 := mul_le_mul_of_nonneg_left (hspeed (j + 1) hj) (show (0 : ℝ) ≤ 0.01 by norm_num)
  have b2 := mul_le_mul_of_nonneg_left hA' (show (0 : ℝ) ≤ 0.01 ^ 2 / 2 by norm_num)
  have : 0.01 * V * (1 + 0.01 / (s.agents.rows i).tauAdj) =
    0.01 * V + 0.01 ^ 2 / 2 * (1 / (s.agents.rows i).tauAdj * (V + V)) := by ring
  rw [this]
  exact add_le_add b1 b2

/-- A three-circle agent turns at most so far in one update. -/
theorem body_swing {env : SimEnv n} {e : LogicExpr} {order : List Node} {s : SimState n} {N : ℕ}
    {S : ℕ → SimState n} (h : ShippedBodyRun env e order s N S) (i : Fin n)
    (hf : (s.agents.rows i).torquePrev = 0)
    (ht : 1 / 30 ≤ (s.agents.rows i).tauRot) (hv : 0 ≤ (s.agents.rows i).targetAngularVelocity) (M W : ℝ)
    (hM : ∀ j < N, ∀ d, DisturbsBody env order (S j) (S (j + 1)) i d → |d.2| ≤ M)
    (hW : W = (s.agents.rows i).targetAngularVelocity +
      (s.agents.rows i).tauRot * M / (s.agents.rows i).inertiaRot)
    (h0 : |(s.agents.rows i).angularVelocity| ≤ W) (j : ℕ) (hj : j < N) :
    ∃ (k : ℤ) (turn : ℝ), ((S (j + 1)).agents.rows i).orientation + k * (2 * Real.pi) =
        ((S j).agents.rows i).orientation + turn ∧
      |turn| ≤ 0.01 * W * (1 + 0.01 / (s.agents.rows i).tauRot) := by
  have hspin := C189_spin h i hf ht hv M hM (hW ▸ h0)
  rw [← hW] at hspin
  have htau := h.regular.tauRot i
  have hm := h.regular.inertia i
  obtain ⟨f, d, hdf, hd, -, -, h1, -, k, hk⟩ := body_drive h i hj
  have hpi := shortestTurn_le hd
  obtain ⟨A, hA⟩ : ∃ A, A = ((S (j + 1)).agents.rows i).torquePrev / (s.agents.rows i).inertiaRot :=
    ⟨_, rfl⟩
  rw [← hA] at h1 hk
  have hU : |d / Real.pi * (s.agents.rows i).targetAngularVelocity +
          (s.agents.rows i).tauRot / (s.agents.rows i).inertiaRot * f.2| ≤ W := by
    rw [hW]
    refine (abs_add_le _ _).trans ?_
    rw [abs_mul, abs_mul, abs_div, abs_of_pos Real.pi_pos, abs_of_nonneg hv,
      abs_of_nonneg (div_pos htau hm).le, mul_div_right_comm]
    have a0 : |d| / Real.pi ≤ 1 := (div_le_one Real.pi_pos).2 hpi
    have a1 := mul_le_mul_of_nonneg_right a0 hv
    have a2 := mul_le_mul_of_nonneg_left (hM j hj f hdf) (div_pos htau hm).le
    rw [one_mul] at a1
    exact add_le_add a1 a2
  have hA' : |A| ≤ 1 / (s.agents.rows i).tauRot * (W + W) := by
    have : A = 1 / (s.agents.rows i).tauRot * ((s.agents.rows i).tauRot * A) := by field_simp
    rw [this, h1, abs_mul, abs_of_nonneg (one_div_pos.2 htau).le]
    refine mul_le_mul_of_nonneg_left ?_ (one_div_pos.2 htau).le
    exact (abs_sub _ _).trans (add_le_add hU (hspin j hj.le))
  refine ⟨k, _, by rw [hk, add_assoc], ?_⟩
  refine (abs_add_le _ _).trans ?_
  rw [abs_mul, abs_mul, abs_of_nonneg (show (0 : ℝ) ≤ 0.01 by norm_num),
    abs_of_nonneg (show (0 : ℝ) ≤ 0.01 ^ 2 / 2 by norm_num)]
  have b1 := mul_le_mul_of_nonneg_left (hspin (j + 1) hj) (show (0 : ℝ) ≤ 0.01 by norm_num)
  have b2 := mul_le_mul_of_nonneg_left hA' (show (0 : ℝ) ≤ 0.01 ^ 2 / 2 by norm_num)
  have : 0.01 * W * (1 + 0.01 / (s.agents.rows i).tauRot) =
    0.01 * W + 0.01 ^ 2 / 2 * (1 / (s.agents.rows i).tauRot * (W + W)) := by ring
  rw [this]
  exact add_le_add b1 b2

/-- A chord is not longer than its arc. -/
theorem chord_le (x y : ℝ) :
    len (Real.sin x - Real.sin y, Real.cos x - Real.cos y) ≤ |x - y| := by
  unfold len
  refine Real.sqrt_le_iff.2 ⟨abs_nonneg _, ?_⟩
  rw [sq_abs]
  have h1 : (Real.sin x - Real.sin y) ^ 2 + (Real.cos x - Real.cos y) ^ 2 =
      2 - 2 * Real.cos (x - y) := by
    rw [Real.cos_sub]
    nlinarith [Real.sin_sq_add_cos_sq x, Real.sin_sq_add_cos_sq y]
  have h2 := Real.one_sub_sq_div_two_le_cos (x := x - y)
  simp only
  rw [h1]
  linarith

/-- A circle of a body moves at most as far as the torso plus the arc of the shoulder. -/
theorem circle_step {a b : Agent} (ha : ShouldersAttached a) (hb : ShouldersAttached b)
    (hr : b.rTs = a.rTs) {k : ℤ} {turn : ℝ} (hk : b.orientation + k * (2 * Real.pi) = a.orientation + turn)
    (p : Fin 3) : Spec.dist (b.circles p) (a.circles p) ≤
      Spec.dist b.position a.position + |a.rTs| * |turn| := by
  have hs : Real.sin b.orientation = Real.sin (a.orientation + turn) := by
    rw [← hk, Real.sin_add_int_mul_two_pi]
  have hc : Real.cos b.orientation = Real.cos (a.orientation + turn) := by
    rw [← hk, Real.cos_add_int_mul_two_pi]
  have h0 : 0 ≤ |a.rTs| * |turn| := by positivity
  have hch := chord_le (a.orientation + turn) a.orientation
  rw [add_sub_cancel_left] at hch
  have key : ∀ (x y : ℝ × ℝ) (σ : ℝ), |σ| = 1 →
      x - y = (b.position - a.position) + (σ * a.rTs) • (-(Real.sin (a.orientation + turn) -
        Real.sin a.orientation), Real.cos (a.orientation + turn) - Real.cos a.orientation) →
      Spec.dist x y ≤ Spec.dist b.position a.position + |a.rTs| * |turn| := by
    intro x y σ hσ hxy
    unfold Spec.dist
    rw [hxy]
    refine (len_add_le' _ _).trans (add_le_add le_rfl ?_)
    rw [len_smul', abs_mul, hσ, one_mul]
    refine mul_le_mul_of_nonneg_left (le_trans (le_of_eq ?_) hch) (abs_nonneg _)
    unfold len
    simp only [neg_sq]
  fin_cases p
  · change Spec.dist b.position a.position ≤ _
    linarith
  · refine key _ _ 1 (by norm_num) ?_
    change b.positionLs - a.positionLs = _
    rw [ha.1, hb.1, hr, hs, hc]
    ext <;> simp <;> ring
  · refine key _ _ (-1) (by norm_num) ?_
    change b.positionRs - a.positionRs = _
    rw [ha.2, hb.2, hr, hs, hc]
    ext <;> simp <;> ring

/-- A step shorter than the distance to a segment does not meet it. -/
theorem short_step {x y : ℝ × ℝ} {r : ℝ} (h : Spec.dist y x < r) {a b : ℝ × ℝ}
    (hw : ∀ z ∈ segment ℝ a b, r ≤ Spec.dist x z) : Disjoint (segment ℝ x y) (segment ℝ a b) := by
  rw [Set.disjoint_left]
  intro z hz hz'
  have h1 := hw z hz'
  obtain ⟨a', b', ha, hb, hab, rfl⟩ := hz
  have h2 : x - (a' • x + b' • y) = (-b') • (y - x) := by
    rw [show a' = 1 - b' by linarith]
    module
  unfold Spec.dist at h1 h
  rw [h2, len_smul', abs_neg, abs_of_nonneg hb] at h1
  have h3 := mul_le_mul_of_nonneg_right (show b' ≤ 1 by linarith) (len_nonneg' (y - x))
  rw [one_mul] at h3
  linarith

end CrowdDynamics
