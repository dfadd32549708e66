import Verif.Proofs.TurningCases

/-!
# Limits of the velocities of three-circle agents
-/

namespace CrowdDynamics

open Spec

variable {n : ℕ}

/-! ## C189: limits of velocity and angular velocity -/

/-- **C189** In every run of a shipped simulation (other than `TestMovement`) of any length: if the
force that acts on a three-circle agent besides its adjusting force never exceeds `F`, its speed never
exceeds `targetVelocity + tauAdj * F / mass`, provided it does not start faster. -/
theorem C189_speed {env : SimEnv n} {e : LogicExpr} {order : List Node} {s : SimState n} {N : ℕ}
    {S : ℕ → SimState n} (h : ShippedBodyRun env e order s N S) (i : Fin n)
    (hf : (s.agents.rows i).forcePrev = 0)
    (ht : 1 / 30 ≤ (s.agents.rows i).tauAdj) (hv : 0 ≤ (s.agents.rows i).targetVelocity)
    (hd : ∀ j < N, len ((S (j + 1)).agents.rows i).targetDirection ≤ 1) (F : ℝ)
    (hF : ∀ j < N, ∀ d, DisturbsBody env order (S j) (S (j + 1)) i d → len d.1 ≤ F)
    (h0 : len (s.agents.rows i).velocity ≤ (s.agents.rows i).targetVelocity +
      (s.agents.rows i).tauAdj * F / (s.agents.rows i).mass) :
    ∀ j ≤ N, len ((S j).agents.rows i).velocity ≤ (s.agents.rows i).targetVelocity +
      (s.agents.rows i).tauAdj * F / (s.agents.rows i).mass := by
  obtain ⟨A, U, hD, hU⟩ := body_moves h i hf
  have htau : 0 < (s.agents.rows i).tauAdj := by linarith
  have hm := h.regular.mass i
  refine drive_bound hD (by norm_num) htau ?_ (fun j hj => ?_) (by rw [h.completed.first]; exact h0)
  · rw [div_le_iff₀ htau]
    linarith
  · obtain ⟨d, h1, h2⟩ := hU j hj
    rw [h2]
    refine (len_add_le' _ _).trans ?_
    rw [len_smul', len_smul', abs_of_nonneg hv, abs_of_nonneg (div_pos htau hm).le]
    have a1 := mul_le_mul_of_nonneg_left (hd j hj) hv
    have a2 := mul_le_mul_of_nonneg_left (hF j hj d h1) (div_pos htau hm).le
    rw [mul_one] at a1
    rw [mul_div_right_comm]
    exact add_le_add a1 a2

/-- The adult that turns in `Outdoor`, disturbed by nothing. -/
example (N : ℕ) := C189_speed (turning_run (4 * Real.pi) N) 0 rfl
  (by norm_num [turnerState, turner, Agent.default])
  (by
    obtain ⟨b, hb, -, -, -, -, v1, -⟩ := C16_shipped_values middle middle_range "adult" (by decide)
    change 0 ≤ adultBody.val .targetVelocity
    unfold adultBody
    rw [hb]
    linarith)
  (fun j _ => by rw [turning_direction]; norm_num [len]) 0
  (fun j hj d hd => by
    have h1 := (disturbs_body_alone ((turning_alone (4 * Real.pi) N).apart j hj) hd).1
    have hb := (completed_body order_walk (turning_run (4 * Real.pi) N).completed j hj.le).2 0
    rw [← hb.stdRandForce] at h1
    have e : ((turnerState (4 * Real.pi)).agents.rows 0).stdRandForce = 0 := rfl
    rw [e, mul_zero] at h1
    exact h1)
  (by
    obtain ⟨b, hb, -, -, -, -, v1, -⟩ := C16_shipped_values middle middle_range "adult" (by decide)
    have hv : 0 ≤ adultBody.val .targetVelocity := by
      unfold adultBody
      rw [hb]
      linarith
    rw [mul_zero, zero_div, add_zero]
    change len (0, 0) ≤ adultBody.val .targetVelocity
    simpa [len] using hv)

/-- **C189** If the torque that acts on it besides its adjusting torque never exceeds `M`, its angular
velocity never exceeds `targetAngularVelocity + tauRot * M / inertiaRot`, whatever orientations it
wants. -/
theorem C189_spin {env : SimEnv n} {e : LogicExpr} {order : List Node} {s : SimState n} {N : ℕ}
    {S : ℕ → SimState n} (h : ShippedBodyRun env e order s N S) (i : Fin n)
    (hf : (s.agents.rows i).torquePrev = 0)
    (ht : 1 / 30 ≤ (s.agents.rows i).tauRot) (hv : 0 ≤ (s.agents.rows i).targetAngularVelocity) (M : ℝ)
    (hM : ∀ j < N, ∀ d, DisturbsBody env order (S j) (S (j + 1)) i d → |d.2| ≤ M)
    (h0 : |(s.agents.rows i).angularVelocity| ≤ (s.agents.rows i).targetAngularVelocity +
      (s.agents.rows i).tauRot * M / (s.agents.rows i).inertiaRot) :
    ∀ j ≤ N, |((S j).agents.rows i).angularVelocity| ≤ (s.agents.rows i).targetAngularVelocity +
      (s.agents.rows i).tauRot * M / (s.agents.rows i).inertiaRot := by
  obtain ⟨A, U, hD, hU⟩ := body_spins h i hf
  have htau : 0 < (s.agents.rows i).tauRot := by linarith
  have hm := h.regular.inertia i
  have hlen : ∀ x : ℝ, len (x, 0) = |x| := fun x => by simp [len, Real.sqrt_sq_eq_abs]
  have := drive_bound hD (by norm_num) htau (V := (s.agents.rows i).targetAngularVelocity +
      (s.agents.rows i).tauRot * M / (s.agents.rows i).inertiaRot) ?_ (fun j hj => ?_)
    (by rw [h.completed.first, hlen]; exact h0)
  · intro j hj
    have := this j hj
    rwa [hlen] at this
  · rw [div_le_iff₀ htau]
    linarith
  · obtain ⟨f, d, h1, h2, h3⟩ := hU j hj
    rw [h3, hlen]
    refine (abs_add_le _ _).trans ?_
    rw [abs_mul, abs_mul, abs_of_nonneg hv, abs_of_nonneg (div_pos htau hm).le, abs_div,
      abs_of_pos Real.pi_pos]
    have a1 := mul_le_mul_of_nonneg_right ((div_le_one Real.pi_pos).2 h2) hv
    have a2 := mul_le_mul_of_nonneg_left (hM j hj f h1) (div_pos htau hm).le
    rw [one_mul] at a1
    rw [mul_div_right_comm]
    exact add_le_add a1 a2

example (N : ℕ) := C189_spin (turning_run (4 * Real.pi) N) 0 rfl
  (by norm_num [turnerState, turner, Agent.default])
  (by change 0 ≤ 4 * Real.pi; have := Real.pi_pos; linarith) 0
  (fun j hj d hd => by
    have h1 := (disturbs_body_alone ((turning_alone (4 * Real.pi) N).apart j hj) hd).2
    have hb := (completed_body order_walk (turning_run (4 * Real.pi) N).completed j hj.le).2 0
    rw [← hb.stdRandTorque] at h1
    have e : ((turnerState (4 * Real.pi)).agents.rows 0).stdRandTorque = 0 := rfl
    rw [e, mul_zero] at h1
    exact h1)
  (by
    rw [mul_zero, zero_div, add_zero]
    change |(0 : ℝ)| ≤ 4 * Real.pi
    have := Real.pi_pos
    rw [abs_zero]
    linarith)

/-- **C189** In particular for agents who stay out of reach of others and touch no wall: only the random
force and the random torque can exceed what they want, by three standard deviations times the
relaxation time. -/
theorem C189_alone {env : SimEnv n} {e : LogicExpr} {order : List Node} {s : SimState n} {N : ℕ}
    {S : ℕ → SimState n} (h : ShippedBodyRun env e order s N S) (i : Fin n)
    (hu : ∀ j < N, BodyOutOfReach env (S j).agents.rows i) :
    ((s.agents.rows i).forcePrev = 0 → 1 / 30 ≤ (s.agents.rows i).tauAdj →
      0 ≤ (s.agents.rows i).targetVelocity →
      (∀ j < N, len ((S (j + 1)).agents.rows i).targetDirection ≤ 1) →
      len (s.agents.rows i).velocity ≤ (s.agents.rows i).targetVelocity +
        3 * (s.agents.rows i).tauAdj * (s.agents.rows i).stdRandForce →
      ∀ j ≤ N, len ((S j).agents.rows i).velocity ≤ (s.agents.rows i).targetVelocity +
        3 * (s.agents.rows i).tauAdj * (s.agents.rows i).stdRandForce) ∧
    ((s.agents.rows i).torquePrev = 0 → 1 / 30 ≤ (s.agents.rows i).tauRot →
      0 ≤ (s.agents.rows i).targetAngularVelocity →
      |(s.agents.rows i).angularVelocity| ≤ (s.agents.rows i).targetAngularVelocity +
        3 * (s.agents.rows i).tauRot * (s.agents.rows i).stdRandTorque →
      ∀ j ≤ N, |((S j).agents.rows i).angularVelocity| ≤ (s.agents.rows i).targetAngularVelocity +
        3 * (s.agents.rows i).tauRot * (s.agents.rows i).stdRandTorque) := by
  have hm := (h.regular.mass i).ne'
  have hi := (h.regular.inertia i).ne'
  have e1 : (s.agents.rows i).tauAdj * (3 * (s.agents.rows i).mass * (s.agents.rows i).stdRandForce) /
      (s.agents.rows i).mass = 3 * (s.agents.rows i).tauAdj * (s.agents.rows i).stdRandForce := by
    field_simp
  have e2 : (s.agents.rows i).tauRot *
      (3 * (s.agents.rows i).inertiaRot * (s.agents.rows i).stdRandTorque) /
      (s.agents.rows i).inertiaRot = 3 * (s.agents.rows i).tauRot * (s.agents.rows i).stdRandTorque := by
    field_simp
  rw [← e1, ← e2]
  constructor
  · intro hf ht hv hd h0
    refine C189_speed h i hf ht hv hd _ (fun j hj d hdj => ?_) h0
    have := (disturbs_body_alone (hu j hj) hdj).1
    have hb := (completed_body h.order h.completed j hj.le).2 i
    rwa [← hb.mass, ← hb.stdRandForce] at this
  · intro hf ht hv h0
    refine C189_spin h i hf ht hv _ (fun j hj d hdj => ?_) h0
    have := (disturbs_body_alone (hu j hj) hdj).2
    have hb := (completed_body h.order h.completed j hj.le).2 i
    rwa [← hb.inertiaRot, ← hb.stdRandTorque] at this

/-- The adult that turns in `Outdoor`: it never walks faster than it wants, and never turns faster than
`4 π`. -/
example (N : ℕ) : ∀ j ≤ N,
    len ((turning (4 * Real.pi) j).agents.rows 0).velocity ≤ adultBody.val .targetVelocity ∧
    |((turning (4 * Real.pi) j).agents.rows 0).angularVelocity| ≤ 4 * Real.pi := by
  have hpi := Real.pi_pos
  obtain ⟨b, hb, -, -, -, -, v1, -⟩ := C16_shipped_values middle middle_range "adult" (by decide)
  have hv : 0 ≤ adultBody.val .targetVelocity := by
    unfold adultBody
    rw [hb]
    linarith
  obtain ⟨h1, h2⟩ := C189_alone (turning_run (4 * Real.pi) N) 0 (turning_alone (4 * Real.pi) N).apart
  have e1 : ((turnerState (4 * Real.pi)).agents.rows 0).targetVelocity +
      3 * ((turnerState (4 * Real.pi)).agents.rows 0).tauAdj *
        ((turnerState (4 * Real.pi)).agents.rows 0).stdRandForce = adultBody.val .targetVelocity := by
    change adultBody.val .targetVelocity + 3 * _ * 0 = _
    ring
  have e2 : ((turnerState (4 * Real.pi)).agents.rows 0).targetAngularVelocity +
      3 * ((turnerState (4 * Real.pi)).agents.rows 0).tauRot *
        ((turnerState (4 * Real.pi)).agents.rows 0).stdRandTorque = 4 * Real.pi := by
    change 4 * Real.pi + 3 * _ * 0 = _
    ring
  rw [e1] at h1
  rw [e2] at h2
  intro j hj
  refine ⟨h1 rfl (by norm_num [turnerState, turner, Agent.default]) hv
    (fun j _ => by rw [turning_direction]; norm_num [len])
    (by change len (0, 0) ≤ _; simpa [len] using hv) j hj,
    h2 rfl (by norm_num [turnerState, turner, Agent.default]) (by change 0 ≤ 4 * Real.pi; linarith)
    (by change |(0 : ℝ)| ≤ _; rw [abs_zero]; linarith) j hj⟩

/-- **C189** Without random force and out of reach, three-circle agents who keep their direction take
the velocity they want as circular agents do (C131), whether they turn or not: the difference keeps its
direction and shrinks at least by the factor `1 - dt / (2 tauAdj)` per update. -/
theorem C189_relaxes {env : SimEnv n} {e : LogicExpr} {order : List Node} {s : SimState n} {N : ℕ}
    {S : ℕ → SimState n} (h : ShippedBodyRun env e order s N S) (i : Fin n)
    (hf : (s.agents.rows i).forcePrev = 0)
    (ht : 1 / 30 ≤ (s.agents.rows i).tauAdj) (hs : (s.agents.rows i).stdRandForce = 0) (dir : ℝ × ℝ)
    (hd : ∀ j < N, ((S (j + 1)).agents.rows i).targetDirection = dir)
    (hu : ∀ j < N, BodyOutOfReach env (S j).agents.rows i) :
    ∀ j ≤ N, ∃ c, 0 ≤ c ∧ c ≤ (1 - 0.01 / (2 * (s.agents.rows i).tauAdj)) ^ j ∧
      ((S j).agents.rows i).velocity - (s.agents.rows i).targetVelocity • dir =
        c • ((s.agents.rows i).velocity - (s.agents.rows i).targetVelocity • dir) := by
  obtain ⟨A, U, hD, hU⟩ := body_moves h i hf
  have htau : 0 < (s.agents.rows i).tauAdj := by linarith
  have := drive_relax hD (by norm_num) htau (by rw [div_le_iff₀ htau]; linarith)
    (u := (s.agents.rows i).targetVelocity • dir) (fun j hj => by
      obtain ⟨d, h1, h2⟩ := hU j hj
      have h3 := (disturbs_body_alone (hu j hj) h1).1
      have hb := (completed_body h.order h.completed j hj.le).2 i
      rw [← hb.stdRandForce, hs, mul_zero] at h3
      rw [h2, len_eq_zero' (le_antisymm h3 (Real.sqrt_nonneg _)), smul_zero, add_zero, hd j hj])
  intro j hj
  obtain ⟨c, c0, c1, c2⟩ := this j hj
  refine ⟨c, c0, by rw [show 0.01 / (2 * (s.agents.rows i).tauAdj) =
    0.01 / (s.agents.rows i).tauAdj / 2 by rw [div_div, mul_comm]]; exact c1, ?_⟩
  rw [h.completed.first] at c2
  exact c2

/-- The adult that turns in `Outdoor`, after 300 updates (three seconds). -/
example : ∃ c, 0 ≤ c ∧ c ≤ (0.99 : ℝ) ^ 300 ∧
    ((turning (4 * Real.pi) 300).agents.rows 0).velocity -
        adultBody.val .targetVelocity • ((1, 0) : ℝ × ℝ) =
      c • ((0, 0) - adultBody.val .targetVelocity • ((1, 0) : ℝ × ℝ)) := by
  obtain ⟨c, h0, h1, h2⟩ := C189_relaxes (turning_run (4 * Real.pi) 300) 0 rfl
    (by norm_num [turnerState, turner, Agent.default]) rfl (1, 0) (fun j _ => turning_direction _ _)
    (turning_alone (4 * Real.pi) 300).apart 300 le_rfl
  refine ⟨c, h0, h1.trans (le_of_eq ?_), h2⟩
  norm_num [turnerState, turner, Agent.default]

end CrowdDynamics
