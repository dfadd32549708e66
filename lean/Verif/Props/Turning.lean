import Verif.Proofs.TurningCases

/-!
# Three-circle agents turn to the orientation they want
-/

namespace CrowdDynamics

open Spec Filter Topology

variable {n : ℕ}

/-! ## C188: turning -/

/-- **C188** in full: in every run of a shipped simulation, a three-circle agent with the body of a
shipped body type that is left alone and wants to keep an orientation turns to it. -/
def C188_statement : Prop :=
  ∀ (n : ℕ) (env : SimEnv n) (e : LogicExpr) (order : List Node) (s : SimState n) (S : ℕ → SimState n)
    (i : Fin n) (phi0 : ℝ) (d : ℕ → ℝ), (∀ N, ShippedBodyRun env e order s N S) →
    HasShippedBody (s.agents.rows i) → (∀ N, LeftAlone env s N S i) →
    (∀ j, ((S (j + 1)).agents.rows i).targetOrientation = phi0) →
    (∀ j, ShortestTurn ((S j).agents.rows i).orientation phi0 (d j)) →
    Tendsto d atTop (𝓝 0)

/-- **C188** The reason why it fails: no shipped body type sets the angular velocity that an agent
wants, so that it is 0. -/
theorem C188_body_types (z : ℕ → ℝ → ℝ → ℝ) (name : String) (hname : name ∈ shippedNames) :
    (construct bodyTypesCfg z [.bodyType name]).obj.val .targetAngularVelocity = 0 := by
  obtain ⟨hn, a, b, c, rm, rs, vm, vs, mm, ms, hl, -⟩ := lookup_shipped name hname
  rw [construct_bodyType z name hn _ hl, spin_setAll]
  · rfl
  · simp [cfgItems]

/-- Adults with radius, mass and velocity in the middle of their ranges. -/
example : "adult" ∈ shippedNames ∧ 0.195 ≤ adultBody.val .radius ∧
    adultBody.val .targetAngularVelocity = 0 := by
  obtain ⟨b, hb, r1, -⟩ := C16_shipped_values middle middle_range "adult" (by decide)
  refine ⟨by decide, ?_, C188_body_types _ _ (by decide)⟩
  unfold adultBody
  rw [hb]
  exact r1

/-- **C188** Whoever wants no angular velocity and is left alone keeps its orientation for ever (up to
full turns), whatever orientation it wants. -/
theorem C188_stays (env : SimEnv n) (e : LogicExpr) (order : List Node) (s : SimState n) (N : ℕ)
    (S : ℕ → SimState n) (i : Fin n) (h : ShippedBodyRun env e order s N S)
    (hl : LeftAlone env s N S i) (h0 : (s.agents.rows i).targetAngularVelocity = 0) (j : ℕ)
    (hj : j ≤ N) :
    ((S j).agents.rows i).angularVelocity = 0 ∧
    ∃ k : ℤ, ((S j).agents.rows i).orientation =
      (s.agents.rows i).orientation + k * (2 * Real.pi) :=
  let h := alone_still h hl h0 j hj
  ⟨h.1, h.2.2⟩

/-- An adult that walks sideways in `Outdoor`. -/
example (N : ℕ) : ShippedBodyRun openEnv walkLogic
      [.fluctuation, .orientation, .adjusting, .agentAgent (3.0 + 2 * 0.3), .integrator 0.01 0.01,
        .reset] (turnerState 0) N (turning 0) ∧
    LeftAlone openEnv (turnerState 0) N (turning 0) 0 ∧
    ((turnerState 0).agents.rows 0).targetAngularVelocity = 0 ∧
    ((turning 0 (N + 1)).agents.rows 0).targetOrientation = 0 ∧
    ((turnerState 0).agents.rows 0).orientation = Real.pi / 2 :=
  ⟨turning_run 0 N, turning_alone 0 N, rfl, turning_aim 0 N, rfl⟩

/-- **C188** fails: an adult that is turned by a right angle from the direction in which it wants to
walk in `Outdoor` never turns. -/
theorem C188_fails : ¬ C188_statement := by
  intro h
  obtain ⟨d, hd⟩ : ∃ d : ℕ → ℝ, ∀ j, ShortestTurn ((turning 0 j).agents.rows 0).orientation 0 (d j) :=
    ⟨_, fun j => (shortestTurn_exists _ 0).choose_spec.1⟩
  have hlim := h 1 openEnv walkLogic _ (turnerState 0) (turning 0) 0 0 d (turning_run 0)
    ⟨middle, "adult", middle_range, by decide, turner_stores 0,
      (C188_body_types middle "adult" (by decide)).symm⟩ (turning_alone 0) (turning_aim 0) hd
  have hconst : ∀ j, |d j| = Real.pi / 2 := by
    intro j
    obtain ⟨-, k, hk⟩ := C188_stays openEnv walkLogic _ (turnerState 0) j (turning 0) 0 (turning_run 0 j)
      (turning_alone 0 j) rfl j le_rfl
    have h1 := hd j
    rw [hk] at h1
    rw [shortestTurn_abs h1 (shortestTurn_shift turner_turn k), abs_neg, abs_of_pos]
    linarith [Real.pi_pos]
  have habs := hlim.abs
  simp only [hconst, abs_zero] at habs
  have := tendsto_nhds_unique habs tendsto_const_nhds
  linarith [Real.pi_pos]

/-- **C188**, what holds: an agent with a positive desired angular velocity of at most `12.5 π` and a
relaxation time of at least 0.08, which is left alone and wants to keep an orientation, turns to it at
least geometrically. -/
theorem C188_turns_partial (env : SimEnv n) (e : LogicExpr) (order : List Node) (s : SimState n)
    (N : ℕ) (S : ℕ → SimState n) (i : Fin n) (phi0 : ℝ) (h : ShippedBodyRun env e order s N S)
    (hl : LeftAlone env s N S i)
    (hphi : ∀ j < N, ((S (j + 1)).agents.rows i).targetOrientation = phi0)
    (ht : 0.08 ≤ (s.agents.rows i).tauRot) (ho : 0 < (s.agents.rows i).targetAngularVelocity)
    (ho' : (s.agents.rows i).targetAngularVelocity ≤ 12.5 * Real.pi) (d0 d : ℝ)
    (hd0 : ShortestTurn (s.agents.rows i).orientation phi0 d0) (j : ℕ) (hj : j ≤ N)
    (hd : ShortestTurn ((S j).agents.rows i).orientation phi0 d) :
    d ^ 2 ≤ 16 / 15 * (1 - min (0.01 / (s.agents.rows i).tauRot)
      (0.01 * (s.agents.rows i).targetAngularVelocity / Real.pi) / 4) ^ j * d0 ^ 2 := by
  obtain ⟨D, u, r, hD, hs⟩ := alone_seq h hl hphi
  have hpi := Real.pi_pos
  have e0 : |d0| = |D 0| := shortestTurn_abs hd0 (by
    have := hD 0 (Nat.zero_le _)
    rwa [h.completed.first] at this)
  have ej : |d| = |D j| := shortestTurn_abs hd (hD j hj)
  have := turnSeq_bound hs (by positivity) (by rw [div_le_div_iff₀ (by linarith) (by norm_num)]; linarith)
    (by positivity) (by rw [div_le_div_iff₀ hpi (by norm_num)]; linarith) j hj
  rwa [← sq_abs (D j), ← sq_abs (D 0), ← e0, ← ej, sq_abs, sq_abs] at this

/-- An adult that wants to turn with an angular velocity up to `4 π`, as in the literature, and that is
turned by a right angle at first. -/
example (N : ℕ) : ShippedBodyRun openEnv walkLogic
      [.fluctuation, .orientation, .adjusting, .agentAgent (3.0 + 2 * 0.3), .integrator 0.01 0.01,
        .reset] (turnerState (4 * Real.pi)) N (turning (4 * Real.pi)) ∧
    LeftAlone openEnv (turnerState (4 * Real.pi)) N (turning (4 * Real.pi)) 0 ∧
    (∀ j < N, ((turning (4 * Real.pi) (j + 1)).agents.rows 0).targetOrientation = 0) ∧
    0.08 ≤ ((turnerState (4 * Real.pi)).agents.rows 0).tauRot ∧
    0 < ((turnerState (4 * Real.pi)).agents.rows 0).targetAngularVelocity ∧
    ((turnerState (4 * Real.pi)).agents.rows 0).targetAngularVelocity ≤ 12.5 * Real.pi ∧
    ShortestTurn ((turnerState (4 * Real.pi)).agents.rows 0).orientation 0 (-(Real.pi / 2)) := by
  have hpi := Real.pi_pos
  refine ⟨turning_run _ N, turning_alone _ N, fun j _ => turning_aim _ j, ?_, ?_, ?_, turner_turn⟩
  · norm_num [turnerState, turner, Agent.default]
  · change 0 < 4 * Real.pi
    linarith
  · change 4 * Real.pi ≤ _
    linarith

/-- **C188**, what holds in the limit: under the same assumptions on the agent, what is left to turn
tends to 0 in the course of an unlimited run. -/
theorem C188_limit_partial (env : SimEnv n) (e : LogicExpr) (order : List Node) (s : SimState n)
    (S : ℕ → SimState n) (i : Fin n) (phi0 : ℝ) (d : ℕ → ℝ)
    (h : ∀ N, ShippedBodyRun env e order s N S) (hl : ∀ N, LeftAlone env s N S i)
    (hphi : ∀ j, ((S (j + 1)).agents.rows i).targetOrientation = phi0)
    (ht : 0.08 ≤ (s.agents.rows i).tauRot) (ho : 0 < (s.agents.rows i).targetAngularVelocity)
    (ho' : (s.agents.rows i).targetAngularVelocity ≤ 12.5 * Real.pi)
    (hd : ∀ j, ShortestTurn ((S j).agents.rows i).orientation phi0 (d j)) : Tendsto d atTop (𝓝 0) := by
  have hpi := Real.pi_pos
  have hb := fun j => C188_turns_partial env e order s j S i phi0 (h j) (hl j) (fun k _ => hphi k) ht ho
    ho' (d 0) (d j) (by have := hd 0; rwa [(h 0).completed.first] at this) j le_rfl (hd j)
  obtain ⟨m, hm⟩ : ∃ m, min (0.01 / (s.agents.rows i).tauRot)
      (0.01 * (s.agents.rows i).targetAngularVelocity / Real.pi) = m := ⟨_, rfl⟩
  simp only [hm] at hb
  have hm0 : 0 < m := hm ▸ lt_min (by positivity) (by positivity)
  have hm1 : m ≤ 1 / 8 := by
    rw [← hm]
    refine (min_le_left _ _).trans ?_
    rw [div_le_div_iff₀ (by linarith) (by norm_num)]
    linarith
  have hp := tendsto_pow_atTop_nhds_zero_of_lt_one (show 0 ≤ 1 - m / 4 by linarith)
    (show 1 - m / 4 < 1 by linarith)
  have hsq : Tendsto (fun j => d j ^ 2) atTop (𝓝 0) := by
    refine squeeze_zero (fun j => sq_nonneg _) hb ?_
    have := (hp.const_mul (16 / 15)).mul_const (d 0 ^ 2)
    simpa using this
  have hs := (Real.continuous_sqrt.tendsto 0).comp hsq
  simp only [Real.sqrt_zero] at hs
  refine (tendsto_zero_iff_abs_tendsto_zero d).2 (hs.congr fun j => ?_)
  exact Real.sqrt_sq_eq_abs _

/-- The same adult, in the run that never ends. -/
example : (∀ N, ShippedBodyRun openEnv walkLogic
      [.fluctuation, .orientation, .adjusting, .agentAgent (3.0 + 2 * 0.3), .integrator 0.01 0.01,
        .reset] (turnerState (4 * Real.pi)) N (turning (4 * Real.pi))) ∧
    (∀ N, LeftAlone openEnv (turnerState (4 * Real.pi)) N (turning (4 * Real.pi)) 0) ∧
    (∀ j, ((turning (4 * Real.pi) (j + 1)).agents.rows 0).targetOrientation = 0) ∧
    (0 : ℝ) < 4 * Real.pi ∧ 4 * Real.pi ≤ 12.5 * Real.pi ∧
    ∃ d : ℕ → ℝ, d 0 ≠ 0 ∧
      ∀ j, ShortestTurn ((turning (4 * Real.pi) j).agents.rows 0).orientation 0 (d j) := by
  have hpi := Real.pi_pos
  refine ⟨turning_run _, turning_alone _, turning_aim _, by linarith, by linarith, _, ?_,
    fun j => (shortestTurn_exists _ 0).choose_spec.1⟩
  rw [← abs_pos, shortestTurn_abs (shortestTurn_exists
    ((turning (4 * Real.pi) 0).agents.rows 0).orientation 0).choose_spec.1 turner_turn, abs_neg,
    abs_of_pos (by linarith)]
  linarith

end CrowdDynamics
