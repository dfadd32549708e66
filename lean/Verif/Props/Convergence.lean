import Verif.Proofs.ConvergenceCases
import Verif.Proofs.Convergence
import Mathlib.Analysis.SpecialFunctions.ExpDeriv
import Mathlib.Analysis.Calculus.Deriv.Prod
import Mathlib.Analysis.Calculus.Deriv.Pi

/-!
# Fine time steps give the true motion: C158, C159
-/

namespace CrowdDynamics

open Spec Real

variable {n : ℕ}

/-! ## C158: convergence -/

/-- **C158** For every law of motion whose accelerations are Lipschitz continuous and every solution of
the equation of motion up to time `T`: there is a constant `C` such that every run with
`euler_integrator` that starts on the solution deviates from it by at most `C * dt_max`, in all
positions and velocities, at all times up to `T`, whatever step sizes `adaptive_timestep` selects. -/
theorem C158_euler (A : Points n → Points n → Points n) (L T : ℝ) (X W : ℝ → Points n) (hL : 0 ≤ L)
    (hA : LipschitzLaw A L) (h : Solves A T X W) :
    ∃ C, ∀ (dtMin dtMax : ℝ) (S : ℕ → AgentArray n) (t : ℕ → ℝ),
      0 ≤ dtMin → dtMin ≤ dtMax → dtMax ≤ 1 → Run (eulerIntegrator · dtMin dtMax) A S t →
      Massive (S 0) → positions (S 0) = X 0 → velocities (S 0) = W 0 →
      ∀ k, t k ≤ T → deviation (S k) (X (t k)) (W (t k)) ≤ C * dtMax := by
  obtain ⟨B, V, hB0, hV0, hB, hV⟩ := solves_bounds h hA hL
  refine ⟨(3 / 2 * B + L * (V + B)) * T * exp ((1 + 3 / 2 * L) * T), ?_⟩
  intro dtMin dtMax S t h0 h1 h2 hr hm hx hv k hk
  obtain ⟨ht, -, h3⟩ := euler_convergence h hA hL hB hB0 hV hV0 h0 h1 h2 hm hr k
  have hdev : deviation (S 0) (X 0) (W 0) = 0 := by simp [deviation, hx, hv]
  have hH := h0.trans h1
  rw [hdev] at h3
  refine (h3 hk).trans ((exp_bound (by positivity) le_rfl hk ht (by positivity)).trans
    (le_of_eq ?_))
  ring

/-- **C158** The same for `velocity_verlet_integrator`, the integrator of the simulations, also if
`force_prev` does not hold the force of a previous step, as in new agents; `C` depends on a bound `D`
of the accelerations `force_prev / mass` at the start. -/
theorem C158_verlet (A : Points n → Points n → Points n) (L T D : ℝ) (X W : ℝ → Points n)
    (hL : 0 ≤ L) (hD : 0 ≤ D) (hA : LipschitzLaw A L) (h : Solves A T X W) :
    ∃ C, ∀ (dtMin dtMax : ℝ) (S : ℕ → AgentArray n) (t : ℕ → ℝ),
      0 ≤ dtMin → dtMin ≤ dtMax → dtMax ≤ 1 → Run (velocityVerletIntegrator · dtMin dtMax) A S t →
      Massive (S 0) → (∀ i, ‖((S 0).rows i).forcePrev‖ ≤ D * ((S 0).rows i).mass) →
      positions (S 0) = X 0 → velocities (S 0) = W 0 →
      ∀ k, t k ≤ T → deviation (S k) (X (t k)) (W (t k)) ≤ C * dtMax := by
  obtain ⟨B, V, hB0, hV0, hB, hV⟩ := solves_bounds h hA hL
  refine ⟨(D + ‖A (X 0) (W 0)‖ + (5 / 2 * B + 2 * L * (V + B)) * T) * exp ((1 + 9 / 2 * L) * T), ?_⟩
  intro dtMin dtMax S t h0 h1 h2 hr hm hf hx hv k hk
  have hlast : ‖lastAcceleration (S 0) - A (positions (S 0)) (velocities (S 0))‖ ≤
      D + ‖A (X 0) (W 0)‖ := by
    rw [hx, hv]
    refine (norm_sub_le _ _).trans (add_le_add_left ?_ _)
    rw [pi_norm_le_iff_of_nonneg hD]
    intro i
    have hi := hm i
    unfold lastAcceleration
    rw [norm_smul, norm_of_nonneg (by positivity), one_div, inv_mul_le_iff₀ hi, mul_comm]
    exact hf i
  obtain ⟨ht, -, h3⟩ := verlet_convergence h hA hL hB hB0 hV hV0 h0 h1 h2 hm hr _ hlast k
  have hdev : deviation (S 0) (X 0) (W 0) = 0 := by simp [deviation, hx, hv]
  have hH := h0.trans h1
  rw [hdev] at h3
  refine (h3 hk).1.trans ((exp_bound (by positivity) (by positivity) hk ht (by positivity)).trans
    (le_of_eq ?_))
  ring

/-- An agent of 80 kg at rest at the origin. -/
noncomputable def restingAgent : AgentArray 1 :=
  ⟨.const .circular, fun _ => { Agent.default with mass := 80, targetVelocity := 1 }⟩

/-- All hypotheses are met by this agent, for all step sizes. -/
example : (0 : ℝ) ≤ 1 ∧ LipschitzLaw adjustingLaw 1 ∧ Solves adjustingLaw 5 adjustingPath adjustingSpeed ∧
    Run (eulerIntegrator · 0.01 0.01) adjustingLaw
      (fun k => (runOf (eulerIntegrator · 0.01 0.01) adjustingLaw restingAgent k).2)
      (fun k => (runOf (eulerIntegrator · 0.01 0.01) adjustingLaw restingAgent k).1) ∧
    Run (velocityVerletIntegrator · 0.001 0.01) adjustingLaw
      (fun k => (runOf (velocityVerletIntegrator · 0.001 0.01) adjustingLaw restingAgent k).2)
      (fun k => (runOf (velocityVerletIntegrator · 0.001 0.01) adjustingLaw restingAgent k).1) ∧
    Massive restingAgent ∧
    (∀ i, ‖(restingAgent.rows i).forcePrev‖ ≤ 0 * (restingAgent.rows i).mass) ∧
    positions restingAgent = adjustingPath 0 ∧ velocities restingAgent = adjustingSpeed 0 := by
  refine ⟨zero_le_one, adjusting_lipschitz, adjusting_solves 5, runOf_run _ _ _, runOf_run _ _ _,
    fun i => by norm_num [restingAgent], fun i => ?_, ?_, ?_⟩
  · simp [restingAgent, Agent.default, Agent.zero]
  · funext i; simp [positions, restingAgent, Agent.default, Agent.zero, adjustingPath]
  · funext i; simp [velocities, restingAgent, Agent.default, Agent.zero, adjustingSpeed]

/-! ## C159: the order of the integrator -/

/-- **C159**, full statement: the integrator that is documented as velocity Verlet has the order of
velocity Verlet: with a fixed time step `h` the error is at most a constant times `h²`, if `force_prev`
starts with the force of the first step. -/
def C159_statement : Prop :=
  ∀ (n : ℕ) (A : Points n → Points n → Points n) (L T : ℝ) (X W : ℝ → Points n), 0 ≤ L →
    LipschitzLaw A L → Solves A T X W →
    ∃ C, ∀ (h : ℝ) (S : ℕ → AgentArray n) (t : ℕ → ℝ), 0 < h → h ≤ 1 →
      Run (velocityVerletIntegrator · h h) A S t → Massive (S 0) → Settled A (S 0) →
      positions (S 0) = X 0 → velocities (S 0) = W 0 →
      ∀ k, t k ≤ T → deviation (S k) (X (t k)) (W (t k)) ≤ C * h ^ 2

/-- **C159 (partial)** With a fixed time step `h` the error is at most a constant times `h`. Missing: the
square, which is false, see `C159_fails`. -/
theorem C159_first_order_partial (A : Points n → Points n → Points n) (L T : ℝ) (X W : ℝ → Points n)
    (hL : 0 ≤ L) (hA : LipschitzLaw A L) (h : Solves A T X W) :
    ∃ C, ∀ (h : ℝ) (S : ℕ → AgentArray n) (t : ℕ → ℝ), 0 < h → h ≤ 1 →
      Run (velocityVerletIntegrator · h h) A S t → Massive (S 0) → Settled A (S 0) →
      positions (S 0) = X 0 → velocities (S 0) = W 0 →
      ∀ k, t k ≤ T → deviation (S k) (X (t k)) (W (t k)) ≤ C * h := by
  obtain ⟨C, hC⟩ := C158_verlet A L T ‖A (X 0) (W 0)‖ X W hL (norm_nonneg _) hA h
  refine ⟨C, fun h S t h0 h1 hr hm hs hx hv => hC h h S t h0.le le_rfl h1 hr hm (fun i => ?_) hx hv⟩
  rw [hs i, norm_smul, norm_of_nonneg (hm i).le, mul_comm, hx, hv]
  exact mul_le_mul_of_nonneg_right (norm_le_pi_norm _ i) (hm i).le

/-- **C159** The error under constant acceleration `a = 1` from rest: after the time `t` the velocity is
right, but the position is wrong by `a * t * h`. -/
theorem C159_constant_error (h : ℝ) (S : ℕ → AgentArray 1) (t : ℕ → ℝ)
    (hr : Run (velocityVerletIntegrator · h h) constantLaw S t) (hm : Massive (S 0))
    (hs : Settled constantLaw (S 0)) (hx : positions (S 0) = constantPath 0)
    (hv : velocities (S 0) = constantSpeed 0) (k : ℕ) :
    t k = k * h ∧ velocities (S k) = constantSpeed (t k) ∧
      positions (S k) = constantPath (t k) + fun _ => (t k * h, 0) := by
  suffices H : t k = k * h ∧ velocities (S k) = constantSpeed (t k) ∧
      positions (S k) = (constantPath (t k) + fun _ => (t k * h, 0)) ∧ Massive (S k) ∧
      lastAcceleration (S k) = fun _ => (1, 0) from ⟨H.1, H.2.1, H.2.2.1⟩
  induction k with
  | zero =>
    refine ⟨by simp [hr.start], by rw [hv, hr.start], ?_, hm, ?_⟩
    · rw [hx, hr.start]; funext i; simp
    · funext i
      have := (hm i).ne'
      rw [lastAcceleration, hs i, inv_mass_smul this]
      rfl
  | succ k ih =>
    obtain ⟨i1, i2, i3, i4, i5⟩ := ih
    obtain ⟨f, hf, hst⟩ := hr.step k
    obtain ⟨e1, e2, e3, e4, e5⟩ := verlet_step constantLaw h h _ f _ _ i4 hf hst
    have hd : t (k + 1) - t k = h := le_antisymm (e5 le_rfl).2 (e5 le_rfl).1
    have ht : t (k + 1) = t k + h := by linarith
    have hv' : velocities (S (k + 1)) = constantSpeed (t (k + 1)) := by
      rw [e1, hd, i2, i5, ht]
      funext i
      simp only [constantSpeed, constantLaw, Pi.add_apply, Pi.smul_apply, Prod.mk_add_mk,
        Prod.smul_mk, smul_eq_mul]
      ext <;> norm_num
    refine ⟨by rw [ht, i1]; push_cast; ring, hv', ?_, e4, e3⟩
    rw [e2, hv', i3, hd, ht]
    funext i
    simp only [constantSpeed, constantPath, constantLaw, Pi.add_apply, Pi.smul_apply,
      Prod.mk_add_mk, Prod.smul_mk, smul_eq_mul]
    ext
    · simp only; ring
    · simp

/-- The hypotheses are met for every step size. -/
example (h : ℝ) : Run (velocityVerletIntegrator · h h) constantLaw
      (fun k => (runOf (velocityVerletIntegrator · h h) constantLaw pushedAgent k).2)
      (fun k => (runOf (velocityVerletIntegrator · h h) constantLaw pushedAgent k).1) ∧
    Massive pushedAgent ∧ Settled constantLaw pushedAgent ∧
    positions pushedAgent = constantPath 0 ∧ velocities pushedAgent = constantSpeed 0 :=
  ⟨runOf_run _ _ _, pushed_start⟩

/-- **C159 fails**: under constant acceleration the position is wrong by `t * h` after the time `t`. -/
theorem C159_fails : ¬ C159_statement := by
  intro H
  obtain ⟨C, hC⟩ := H 1 constantLaw 0 1 constantPath constantSpeed le_rfl constant_lipschitz
    (constant_solves 1)
  obtain ⟨m, hm⟩ := exists_nat_gt (max C 1)
  have hm1 : (1 : ℝ) < m := (le_max_right _ _).trans_lt hm
  have hmC : C < m := (le_max_left _ _).trans_lt hm
  have hm0 : (0 : ℝ) < m := by linarith
  have hrun := runOf_run (velocityVerletIntegrator · (1 / m : ℝ) (1 / m)) constantLaw pushedAgent
  obtain ⟨p1, p2, p3, p4⟩ := pushed_start
  obtain ⟨h1, h2, h3⟩ := C159_constant_error _ _ _ hrun p1 p2 p3 p4 m
  have h4 := hC (1 / m) _ _ (by positivity) (by rw [div_le_one hm0]; exact hm1.le) hrun p1 p2 p3 p4 m
  have ht : (m : ℝ) * (1 / m) = 1 := by field_simp
  rw [ht] at h1
  rw [h1] at h2 h3 h4
  have h5 := h4 le_rfl
  unfold deviation at h5
  rw [h2, h3, sub_self, norm_zero, add_zero, add_sub_cancel_left] at h5
  have h6 : (1 / m : ℝ) ≤ ‖(fun _ => (1 * (1 / m : ℝ), (0 : ℝ)) : Points 1)‖ := by
    refine le_trans ?_ (norm_le_pi_norm _ (0 : Fin 1))
    refine le_trans ?_ (norm_fst_le _)
    rw [one_mul, norm_of_nonneg (by positivity)]
  have h7 := h6.trans h5
  rw [one_div, inv_pow, sq, mul_inv, ← mul_assoc] at h7
  have h8 : 1 ≤ C * (m : ℝ)⁻¹ := by
    refine le_of_mul_le_mul_right (a := (m : ℝ)⁻¹) ?_ (by positivity)
    rwa [one_mul]
  rw [← div_eq_mul_inv, le_div_iff₀ hm0] at h8
  linarith

end CrowdDynamics
