import Verif.Proofs.RoundedMotion

/-!
# Property C179: the integrators in floating point
-/

namespace CrowdDynamics

open Spec Real

/-- The full statement of C179: one step of Euler's method in floating point moves an agent as the
equations of motion say. -/
def C179_statement : Prop :=
  ∀ (dt : ℝ) (agent : Agent), Binary64 dt → Binary64 agent.position.1 → Binary64 agent.velocity.1 →
    Binary64 agent.force.1 → Binary64 agent.mass → 0 < dt → dt ≤ 1 → 0 < agent.mass →
    (translationalEulerRowF fl64 dt agent).position.1 = agent.position.1 +
      (agent.velocity.1 * dt + agent.force.1 / agent.mass / 2 * dt ^ 2)

/-- **C179** False of the code. An agent at `(1, 0)` with the velocity `(2 ** -60, 0)` and without
force does not move in a step of one second, because the movement is lost in the sum. -/
theorem C179_motion_fails : ¬ C179_statement := by
  intro h
  obtain ⟨agent, hx, hv, hf, hm⟩ : ∃ agent : Agent, agent.position.1 = 1 ∧
      agent.velocity.1 = 2 ^ (-60 : ℤ) ∧ agent.force.1 = 0 ∧ agent.mass = 1 :=
    ⟨{ Agent.zero with
        position := (1, 0)
        velocity := (2 ^ (-60 : ℤ), 0)
        mass := 1 }, rfl, rfl, rfl, rfl⟩
  have b1 : Binary64 1 := (binary64_iff _).2 fl64_one
  have b60 : fl64 ((2 : ℝ) ^ (-60 : ℤ)) = 2 ^ (-60 : ℤ) := fl64_two_zpow (by norm_num)
  have := h 1 agent b1 (by rw [hx]; exact b1) (by rw [hv]; exact (binary64_iff _).2 b60)
    (by rw [hf]; exact (binary64_iff _).2 fl64_zero) (by rw [hm]; exact b1) one_pos le_rfl
    (by rw [hm]; exact one_pos)
  have e : fl64 (1 + (2 : ℝ) ^ (-60 : ℤ)) = 1 := by
    have := fl64_eq_of_near (x := 1 + (2 : ℝ) ^ (-60 : ℤ)) (m := 2 ^ 52) (e := -52) (by
      rw [abs_of_pos (by norm_num)]; norm_num) (by
      rw [abs_of_pos (by norm_num)]; norm_num) (by norm_num) (by
      rw [abs_lt]; constructor <;> norm_num)
    rw [this]; norm_num
  simp only [translationalEulerRowF, halfSquareF, hx, hv, hf, hm, zero_div, fl64_zero, zero_mul,
    mul_one, add_zero, b60, e] at this
  norm_num at this

/-- **C179** (partial) One step of Euler's method gives `x + v dt + f/m dt^2/2` and `v + f/m dt` up to
a few rounding errors, in each coordinate. Missing: equality, which is false. -/
theorem C179_euler_partial (dt : ℝ) (agent : Agent) (h0 : (2 : ℝ) ^ (-500 : ℤ) ≤ dt) (h1 : dt ≤ 1) :
    |(translationalEulerRowF fl64 dt agent).position.1 - (agent.position.1 +
        (agent.velocity.1 * dt + agent.force.1 / agent.mass / 2 * dt ^ 2))| ≤
      2 ^ (-49 : ℤ) * (|agent.position.1| + (|agent.velocity.1| * dt +
        |agent.force.1 / agent.mass / 2 * dt ^ 2|)) + 2 ^ (-1070 : ℤ) ∧
    |(translationalEulerRowF fl64 dt agent).position.2 - (agent.position.2 +
        (agent.velocity.2 * dt + agent.force.2 / agent.mass / 2 * dt ^ 2))| ≤
      2 ^ (-49 : ℤ) * (|agent.position.2| + (|agent.velocity.2| * dt +
        |agent.force.2 / agent.mass / 2 * dt ^ 2|)) + 2 ^ (-1070 : ℤ) ∧
    |(translationalEulerRowF fl64 dt agent).velocity.1 -
        (agent.velocity.1 + agent.force.1 / agent.mass * dt)| ≤
      2 ^ (-50 : ℤ) * (|agent.velocity.1| + |agent.force.1 / agent.mass| * dt) +
        2 ^ (-1070 : ℤ) ∧
    |(translationalEulerRowF fl64 dt agent).velocity.2 -
        (agent.velocity.2 + agent.force.2 / agent.mass * dt)| ≤
      2 ^ (-50 : ℤ) * (|agent.velocity.2| + |agent.force.2 / agent.mass| * dt) +
        2 ^ (-1070 : ℤ) := by
  have hp : 0 < dt := (two_zpow_pos _).trans_le h0
  refine ⟨?_, ?_, ?_, ?_⟩
  · exact (move_err' _ h0 h1).trans (units_le (by positivity) (by norm_num) (by norm_num))
  · exact (move_err' _ h0 h1).trans (units_le (by positivity) (by norm_num) (by norm_num))
  · exact (speed_err _ hp.le h1).trans (units_le (by positivity) (by norm_num) (by norm_num))
  · exact (speed_err _ hp.le h1).trans (units_le (by positivity) (by norm_num) (by norm_num))

/-- **C179** (partial) One step of the Verlet method gives `v' = v + (f₀/m + f₁/m)/2 dt` and
`x + v' dt + f₁/m dt^2/2` up to a few rounding errors, in each coordinate. Missing: equality, which is
false. -/
theorem C179_verlet_partial (dt : ℝ) (agent : Agent) (h0 : (2 : ℝ) ^ (-500 : ℤ) ≤ dt) (h1 : dt ≤ 1) :
    |(translationalVerletRowF fl64 dt agent).velocity.1 - (agent.velocity.1 +
        (agent.forcePrev.1 / agent.mass + agent.force.1 / agent.mass) / 2 * dt)| ≤
      2 ^ (-49 : ℤ) * (|agent.velocity.1| +
        (|agent.forcePrev.1 / agent.mass| + |agent.force.1 / agent.mass|) / 2 * dt) +
        2 ^ (-1070 : ℤ) ∧
    |(translationalVerletRowF fl64 dt agent).velocity.2 - (agent.velocity.2 +
        (agent.forcePrev.2 / agent.mass + agent.force.2 / agent.mass) / 2 * dt)| ≤
      2 ^ (-49 : ℤ) * (|agent.velocity.2| +
        (|agent.forcePrev.2 / agent.mass| + |agent.force.2 / agent.mass|) / 2 * dt) +
        2 ^ (-1070 : ℤ) ∧
    |(translationalVerletRowF fl64 dt agent).position.1 - (agent.position.1 + ((agent.velocity.1 +
        (agent.forcePrev.1 / agent.mass + agent.force.1 / agent.mass) / 2 * dt) * dt +
        agent.force.1 / agent.mass / 2 * dt ^ 2))| ≤
      2 ^ (-49 : ℤ) * (|agent.position.1| + ((|agent.velocity.1| +
        (|agent.forcePrev.1 / agent.mass| + |agent.force.1 / agent.mass|) / 2 * dt) * dt +
        |agent.force.1 / agent.mass / 2 * dt ^ 2|)) + 2 ^ (-1070 : ℤ) ∧
    |(translationalVerletRowF fl64 dt agent).position.2 - (agent.position.2 + ((agent.velocity.2 +
        (agent.forcePrev.2 / agent.mass + agent.force.2 / agent.mass) / 2 * dt) * dt +
        agent.force.2 / agent.mass / 2 * dt ^ 2))| ≤
      2 ^ (-49 : ℤ) * (|agent.position.2| + ((|agent.velocity.2| +
        (|agent.forcePrev.2 / agent.mass| + |agent.force.2 / agent.mass|) / 2 * dt) * dt +
        |agent.force.2 / agent.mass / 2 * dt ^ 2|)) + 2 ^ (-1070 : ℤ) ∧
    (translationalVerletRowF fl64 dt agent).forcePrev = agent.force := by
  have hp : 0 < dt := (two_zpow_pos _).trans_le h0
  have key : ∀ v a b : ℝ, |v + (a + b) / 2 * dt| ≤ |v| + (|a| + |b|) / 2 * dt := by
    intro v a b
    refine (abs_add_le _ _).trans (add_le_add le_rfl ?_)
    rw [abs_mul, abs_div, abs_of_pos hp, abs_of_pos (by norm_num : (0 : ℝ) < 2)]
    exact mul_le_mul_of_nonneg_right
      (div_le_div_of_nonneg_right (abs_add_le _ _) (by norm_num)) hp.le
  refine ⟨?_, ?_, ?_, ?_, rfl⟩
  · exact (speed_verlet_err _ _ hp.le h1).trans (units_le (by positivity) (by norm_num) (by norm_num))
  · exact (speed_verlet_err _ _ hp.le h1).trans (units_le (by positivity) (by norm_num) (by norm_num))
  · exact (move_err _ h0 h1 (speed_verlet_err _ _ hp.le h1) (key _ _ _) (by norm_num) (by norm_num)
      (by norm_num) (by norm_num)).trans (units_le (by positivity) (by norm_num) (by norm_num))
  · exact (move_err _ h0 h1 (speed_verlet_err _ _ hp.le h1) (key _ _ _) (by norm_num) (by norm_num)
      (by norm_num) (by norm_num)).trans (units_le (by positivity) (by norm_num) (by norm_num))

/-- The default step, and one second. -/
example : (2 : ℝ) ^ (-500 : ℤ) ≤ 1 / 100 ∧ (1 : ℝ) / 100 ≤ 1 := by
  refine ⟨?_, by norm_num⟩
  exact (zpow_le_zpow_right₀ (by norm_num) (by norm_num : (-500 : ℤ) ≤ -7)).trans (by norm_num)

/-- **C179** Without a force the velocity stays exactly what it is, and an agent at rest stays where it
is, exactly, for ever. Both methods. -/
theorem C179_free (dt : ℝ) (agent : Agent) (hf : agent.force = 0) (hv1 : Binary64 agent.velocity.1)
    (hv2 : Binary64 agent.velocity.2) :
    (translationalEulerRowF fl64 dt agent).velocity = agent.velocity ∧
    (agent.forcePrev = 0 → (translationalVerletRowF fl64 dt agent).velocity = agent.velocity) ∧
    (Binary64 agent.position.1 → Binary64 agent.position.2 → agent.velocity = 0 →
      (∀ n, (translationalEulerRowF fl64 dt)^[n] agent = agent) ∧
      (agent.forcePrev = 0 → ∀ n, (translationalVerletRowF fl64 dt)^[n] agent = agent)) := by
  rw [binary64_iff] at hv1 hv2
  have f1 : agent.force.1 = 0 := by rw [hf]; rfl
  have f2 : agent.force.2 = 0 := by rw [hf]; rfl
  refine ⟨?_, fun hp => ?_, fun hx1 hx2 hv => ⟨fun n => ?_, fun hp n => ?_⟩⟩
  · simp [translationalEulerRowF, f1, f2, fl64_zero, hv1, hv2]
  · simp [translationalVerletRowF, f1, f2, hp, fl64_zero, hv1, hv2]
  · rw [binary64_iff] at hx1 hx2
    refine Function.iterate_fixed ?_ n
    have : agent = { agent with position := (agent.position.1, agent.position.2), velocity := 0 } := by
      rw [← hv]
    rw [this]
    simp [translationalEulerRowF, halfSquareF, f1, f2, fl64_zero, hx1, hx2]
  · rw [binary64_iff] at hx1 hx2
    refine Function.iterate_fixed ?_ n
    have : agent = { agent with
        position := (agent.position.1, agent.position.2)
        velocity := 0
        force := 0
        forcePrev := 0 } := by
      cases agent
      simp only at hv hf hp
      rw [hv, hf, hp]
    rw [this]
    simp [translationalVerletRowF, halfSquareF, hf, fl64_zero, hx1, hx2]

/-- A walking agent without a force. -/
example : ∃ agent : Agent, agent.force = 0 ∧ Binary64 agent.velocity.1 ∧
    Binary64 agent.velocity.2 ∧ agent.velocity ≠ 0 :=
  ⟨{ Agent.zero with velocity := (3 / 2, -1) }, rfl, ⟨3, -1, by norm_num, by norm_num, by norm_num⟩,
    ⟨-1, 0, by norm_num, by norm_num, by norm_num⟩, by simp⟩

/-- **C179** (partial) An agent that moves without a force for `n` steps is at `x + n v dt` up to an
error that grows linearly with the number of steps, in each coordinate; `M` bounds the coordinates
of the path. Missing: equality, which is false. -/
theorem C179_drift_partial (dt : ℝ) (agent : Agent) (h0 : (2 : ℝ) ^ (-500 : ℤ) ≤ dt) (h1 : dt ≤ 1)
    (hf : agent.force = 0) (hv1 : Binary64 agent.velocity.1) (hv2 : Binary64 agent.velocity.2)
    (n : ℕ) (hn : n ≤ 2 ^ 40) (M : ℝ) (hM1 : |agent.position.1| + n * (|agent.velocity.1| * dt) ≤ M)
    (hM2 : |agent.position.2| + n * (|agent.velocity.2| * dt) ≤ M) :
    |((translationalEulerRowF fl64 dt)^[n] agent).position.1 -
        (agent.position.1 + n * (agent.velocity.1 * dt))| ≤
      n * (2 ^ (-47 : ℤ) * M + 2 ^ (-1070 : ℤ)) ∧
    |((translationalEulerRowF fl64 dt)^[n] agent).position.2 -
        (agent.position.2 + n * (agent.velocity.2 * dt))| ≤
      n * (2 ^ (-47 : ℤ) * M + 2 ^ (-1070 : ℤ)) := by
  have hp : 0 < dt := (two_zpow_pos _).trans_le h0
  have key : ∀ j, (translationalEulerRowF fl64 dt)^[j] agent = { agent with
      position := (freeSteps dt agent.velocity.1 agent.position.1 j,
        freeSteps dt agent.velocity.2 agent.position.2 j) } := by
    intro j
    induction j with
    | zero => rfl
    | succ j ih =>
      rw [Function.iterate_succ_apply', ih]
      rw [binary64_iff] at hv1 hv2
      simp [translationalEulerRowF, freeSteps, hf, hv1, hv2, fl64_zero]
  have hM0 : 0 ≤ M := le_trans (by positivity) hM1
  have hE := units_le (S := M) (c := 64) (k := 32) (p := -47) hM0 (by norm_num) le_rfl
  have hn0 : (0 : ℝ) ≤ n := Nat.cast_nonneg n
  rw [key]
  exact ⟨(freeSteps_err h0 h1 hn hM1 n le_rfl).trans (mul_le_mul_of_nonneg_left hE hn0),
    (freeSteps_err h0 h1 hn hM2 n le_rfl).trans (mul_le_mul_of_nonneg_left hE hn0)⟩

/-- A walk of 1000 steps. -/
example : |(5 : ℝ)| + (1000 : ℕ) * (|(-3 / 2 : ℝ)| * (1 / 128)) ≤ 20 := by
  norm_num [abs_of_pos, abs_of_neg]

/-- **C179** After a step of either method the orientation lies in `[-np.pi, np.pi]`, whatever the
torque. -/
theorem C179_orientation (dt : ℝ) (agent : Agent) :
    |(rotationalEulerRowF fl64 dt agent).orientation| ≤ fl64 π ∧
    |(rotationalVerletRowF fl64 dt agent).orientation| ≤ fl64 π :=
  ⟨(wrapToPiF_mem (binary64_fl64 _)).2, (wrapToPiF_mem (binary64_fl64 _)).2⟩

/-- **C179** (partial) The new orientation is `φ + ω dt + M/I dt^2/2` up to whole turns and a few
rounding errors; the new angular velocity is `ω + M/I dt` up to rounding errors. -/
theorem C179_rotation_partial (dt : ℝ) (agent : Agent) (h0 : (2 : ℝ) ^ (-500 : ℤ) ≤ dt)
    (h1 : dt ≤ 1) :
    (∃ k : ℤ, |(rotationalEulerRowF fl64 dt agent).orientation - (agent.orientation +
        (agent.angularVelocity * dt + agent.torque / agent.inertiaRot / 2 * dt ^ 2) +
        k * (2 * π))| ≤
      2 ^ (-48 : ℤ) * (1 + (|agent.orientation| + (|agent.angularVelocity| * dt +
        |agent.torque / agent.inertiaRot / 2 * dt ^ 2|)))) ∧
    |(rotationalEulerRowF fl64 dt agent).angularVelocity -
        (agent.angularVelocity + agent.torque / agent.inertiaRot * dt)| ≤
      2 ^ (-50 : ℤ) * (|agent.angularVelocity| + |agent.torque / agent.inertiaRot| * dt) +
        2 ^ (-1070 : ℤ) := by
  have hp : 0 < dt := (two_zpow_pos _).trans_le h0
  refine ⟨?_, (speed_err _ hp.le h1).trans (units_le (by positivity) (by norm_num) (by norm_num))⟩
  refine wrap_err (binary64_fl64 _) ?_ (move_err' _ h0 h1) (by norm_num) (by norm_num)
  refine (abs_add_le _ _).trans (add_le_add le_rfl ((abs_add_le _ _).trans (add_le_add ?_ le_rfl)))
  rw [abs_mul, abs_of_pos hp]

/-- **C179** (partial) The same for the Verlet method. -/
theorem C179_rotation_verlet_partial (dt : ℝ) (agent : Agent) (h0 : (2 : ℝ) ^ (-500 : ℤ) ≤ dt)
    (h1 : dt ≤ 1) :
    (∃ k : ℤ, |(rotationalVerletRowF fl64 dt agent).orientation - (agent.orientation +
        ((agent.angularVelocity + (agent.torquePrev / agent.inertiaRot +
          agent.torque / agent.inertiaRot) / 2 * dt) * dt +
          agent.torque / agent.inertiaRot / 2 * dt ^ 2) + k * (2 * π))| ≤
      2 ^ (-48 : ℤ) * (1 + (|agent.orientation| + ((|agent.angularVelocity| +
        (|agent.torquePrev / agent.inertiaRot| + |agent.torque / agent.inertiaRot|) / 2 * dt) * dt +
        |agent.torque / agent.inertiaRot / 2 * dt ^ 2|)))) ∧
    |(rotationalVerletRowF fl64 dt agent).angularVelocity - (agent.angularVelocity +
        (agent.torquePrev / agent.inertiaRot + agent.torque / agent.inertiaRot) / 2 * dt)| ≤
      2 ^ (-49 : ℤ) * (|agent.angularVelocity| +
        (|agent.torquePrev / agent.inertiaRot| + |agent.torque / agent.inertiaRot|) / 2 * dt) +
        2 ^ (-1070 : ℤ) ∧
    (rotationalVerletRowF fl64 dt agent).torquePrev = agent.torque := by
  have hp : 0 < dt := (two_zpow_pos _).trans_le h0
  have key : ∀ v a b : ℝ, |v + (a + b) / 2 * dt| ≤ |v| + (|a| + |b|) / 2 * dt := by
    intro v a b
    refine (abs_add_le _ _).trans (add_le_add le_rfl ?_)
    rw [abs_mul, abs_div, abs_of_pos hp, abs_of_pos (by norm_num : (0 : ℝ) < 2)]
    exact mul_le_mul_of_nonneg_right
      (div_le_div_of_nonneg_right (abs_add_le _ _) (by norm_num)) hp.le
  refine ⟨?_, (speed_verlet_err _ _ hp.le h1).trans (units_le (by positivity) (by norm_num)
    (by norm_num)), rfl⟩
  refine wrap_err (binary64_fl64 _) ?_ (move_err _ h0 h1 (speed_verlet_err _ _ hp.le h1) (key _ _ _)
    (by norm_num) (by norm_num) (by norm_num) (by norm_num)) (by norm_num) (by norm_num)
  refine (abs_add_le _ _).trans (add_le_add le_rfl ((abs_add_le _ _).trans (add_le_add ?_ le_rfl)))
  rw [abs_mul, abs_of_pos hp]
  exact mul_le_mul_of_nonneg_right (key _ _ _) hp.le

/-- **C179** Without rounding, these are the methods of the exact model. -/
theorem C179_exact (dt : ℝ) (agent : Agent) :
    translationalEulerRowF id dt agent = translationalEulerRow dt agent ∧
    translationalVerletRowF id dt agent = translationalVerletRow dt agent ∧
    rotationalEulerRowF id dt agent = rotationalEulerRow dt agent ∧
    rotationalVerletRowF id dt agent = rotationalVerletRow dt agent := by
  refine ⟨?_, ?_, ?_, ?_⟩
  · simp only [translationalEulerRowF, translationalEulerRow, halfSquareF, id_eq, Agent.mk.injEq,
      true_and, and_true]
    refine ⟨Prod.ext ?_ ?_, Prod.ext ?_ ?_⟩ <;> simp <;> ring
  · simp only [translationalVerletRowF, translationalVerletRow, halfSquareF, id_eq, Agent.mk.injEq,
      true_and, and_true]
    refine ⟨Prod.ext ?_ ?_, Prod.ext ?_ ?_⟩ <;> simp <;> ring
  · simp only [rotationalEulerRowF, rotationalEulerRow, halfSquareF, id_eq, C162_exact, sq]
  · simp only [rotationalVerletRowF, rotationalVerletRow, halfSquareF, id_eq, C162_exact, sq]

end CrowdDynamics
