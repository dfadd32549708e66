import Verif.Proofs.BodyIsolationCases
import Verif.Props.LongRun

/-!
# Cases and helper lemmas for `Verif.Props.BodyStride`
-/

namespace CrowdDynamics

open Spec

/-- The wall in front of the fast agent. -/
theorem bullet_wall (z : ℝ × ℝ) (hz : z ∈ segment ℝ ((0.5, -1) : ℝ × ℝ) (0.5, 1)) : z.1 = 0.5 := by
  obtain ⟨a, b, ha, hb, hab, rfl⟩ := hz
  simp only [Prod.smul_mk, smul_eq_mul, Prod.mk_add_mk]
  linear_combination 0.5 * hab

theorem bullet_far (z : ℝ × ℝ) (hz : z ∈ segment ℝ ((0.5, -1) : ℝ × ℝ) (0.5, 1)) :
    (0.5 : ℝ) ≤ Spec.dist (0, 0) z := by
  unfold Spec.dist len
  refine Real.le_sqrt_of_sq_le ?_
  simp only [Prod.fst_sub, bullet_wall z hz]
  nlinarith [sq_nonneg ((0, 0) - z : ℝ × ℝ).2]

/-- A three-circle agent that walks very fast or turns very fast, half a metre in front of a wall. -/
noncomputable def bulletBody (v w : ℝ) : Crowd 1 := fun _ =>
  { Agent.default with
    mass := 80, inertiaRot := 4, rT := 0.2, rS := 0.1, rTs := 0.3, tauAdj := 0.5, tauRot := 0.2
    position := (0, 0), positionLs := (0, 0.3), positionRs := (0, -0.3)
    velocity := (v, 0), angularVelocity := w, targetVelocity := 0, stdRandForce := 0
    stdRandTorque := 0 }

/-- This agent at the start of a simulation. -/
noncomputable def bulletBodyState (v w : ℝ) : SimState 1 :=
  { demoState (bulletBody v w) with agents := ⟨.const .threeCircle, bulletBody v w⟩ }

/-- The order in which the nodes of a closed room are updated. -/
noncomputable def closedOrder : List Node := [.fluctuation, .herding 10.0 5, .orientation, .adjusting,
  .agentAgent (3.0 + 2 * 0.3), .agentObstacle, .integrator 0.01 0.01, .reset]

theorem bulletBody_within (v w : ℝ) (i : Fin 1) :
    BodyWithin .threeCircle (bulletBody v w i) 0.4 := by
  intro d hd
  simp only [discs, List.mem_cons, List.not_mem_nil, or_false] at hd
  rcases hd with rfl | rfl | rfl
  · change Spec.dist ((0 : ℝ), (0 : ℝ)) (0, 0) + 0.2 ≤ _
    rw [show Spec.dist ((0 : ℝ), (0 : ℝ)) (0, 0) = 0 by unfold Spec.dist len; simp]
    norm_num
  · change Spec.dist ((0 : ℝ), (0 : ℝ)) (0, 0.3) + 0.1 ≤ _
    rw [show Spec.dist ((0 : ℝ), (0 : ℝ)) (0, 0.3) = 0.3 by
      unfold Spec.dist len
      rw [Real.sqrt_eq_iff_mul_self_eq (by positivity) (by norm_num)]; norm_num]
    norm_num
  · change Spec.dist ((0 : ℝ), (0 : ℝ)) (0, -0.3) + 0.1 ≤ _
    rw [show Spec.dist ((0 : ℝ), (0 : ℝ)) (0, -0.3) = 0.3 by
      unfold Spec.dist len
      rw [Real.sqrt_eq_iff_mul_self_eq (by positivity) (by norm_num)]; norm_num]
    norm_num

theorem bullet_supported : ∀ g, bulletEnv.field.obstacles = some g → Supported g := by
  intro g hg
  cases hg
  exact .lineString _

theorem bulletBody_run (v w : ℝ) : ∃ S : ℕ → SimState 1,
    ShippedBodyRun bulletEnv closedRoomLogic closedOrder (bulletBodyState v w) 1 S := by
  obtain ⟨t, ht⟩ := herding_total bulletEnv (bulletBodyState v w) bullet_supported closedRoomLogic (by simp)
  refine ⟨fun j => if j = 0 then bulletBodyState v w else t,
    ⟨⟨0, 1, 7, by norm_num, by norm_num, rfl⟩, order_closed, by simp [SimEnv.field, bulletEnv],
    ?_, fun i => ⟨rfl, rfl⟩, ⟨rfl, fun k hk => ?_, fun k _ h => ?_⟩,
    fun j _ => lonely_cells _ rfl _⟩⟩
  · refine ⟨rfl, fun k p => ?_, fun k => ?_, ?_, ?_, ?_, ?_, ?_, ?_,
      fun d k a b h => ⟨le_rfl, h⟩, fun d k a b h => ⟨le_rfl, h⟩, bullet_supported, fun c hc => ?_⟩
    · fin_cases p <;> norm_num [Agent.radii, bulletBodyState, bulletBody]
    · constructor <;> simp [bulletBodyState, bulletBody, Agent.default, Agent.zero]
    iterate 6 exact fun k => by norm_num [bulletBodyState, bulletBody]
    rw [List.mem_singleton] at hc
    cases hc
    exact ⟨by norm_num, ⟨fun _ => 0.4, bulletBody_within v w,
      fun i j hij => absurd (Subsingleton.elim i j) hij⟩, lonely_cells _ rfl _⟩
  · have : k = 0 := by omega
    subst this
    simpa using ht
  · obtain ⟨c, hc, -⟩ := h
    cases hc

theorem bulletBody_clear (v w : ℝ) : BodyOutOfReach bulletEnv (bulletBodyState v w).agents.rows 0 := by
  refine ⟨fun j hj => absurd (Subsingleton.elim j 0) hj, fun y hy => ?_⟩
  have hy : y = ((0.5, -1), (0.5, 1)) := by
    simpa [fieldWalls, SimEnv.field, bulletEnv, fillHoles, outline, consecutive] using hy
  subst hy
  intro d hd z hz
  have h1 := bullet_wall z hz
  have h2 : ∀ x : ℝ × ℝ, x.1 = 0 → (0.5 : ℝ) ≤ Spec.dist x z := by
    intro x hx
    unfold Spec.dist len
    refine Real.le_sqrt_of_sq_le ?_
    simp only [Prod.fst_sub, h1, hx]
    nlinarith [sq_nonneg (x - z : ℝ × ℝ).2]
  simp only [discs, List.mem_cons, List.not_mem_nil, or_false] at hd
  rcases hd with rfl | rfl | rfl
  · have := h2 (0, 0) rfl
    change (0.2 : ℝ) ≤ Spec.dist (0, 0) z
    linarith
  · have := h2 (0, 0.3) rfl
    change (0.1 : ℝ) ≤ Spec.dist (0, 0.3) z
    linarith
  · have := h2 (0, -0.3) rfl
    change (0.1 : ℝ) ≤ Spec.dist (0, -0.3) z
    linarith

/-- Where the fast agent is after one update. -/
theorem bulletBody_moves (v w : ℝ) {S : ℕ → SimState 1}
    (h : ShippedBodyRun bulletEnv closedRoomLogic closedOrder (bulletBodyState v w) 1 S) :
    ((S 1).agents.rows 0).position = (0.0098 * v, 0) := by
  obtain ⟨f, d, hf, -, h1, h2, -⟩ := body_drive h 0 (j := 0) (by norm_num)
  have h3 := body_position h 0 (j := 0) (by norm_num)
  simp only [h.completed.first, zero_add] at h1 h2 h3 hf
  have hf0 := (disturbs_body_alone (bulletBody_clear v w) hf).1
  have hz : f.1 = 0 := len_eq_zero' (le_antisymm (hf0.trans (le_of_eq (by
    norm_num [bulletBodyState, bulletBody]))) (len_nonneg' _))
  obtain ⟨A, hA⟩ : ∃ A, A = (1 / ((bulletBodyState v w).agents.rows 0).mass) •
    ((S 1).agents.rows 0).forcePrev := ⟨_, rfl⟩
  rw [← hA] at h1 h2 h3
  rw [hz] at h1
  have hA' : A = (-(2 * v), 0) := by
    have e1 := congrArg Prod.fst h1
    have e2 := congrArg Prod.snd h1
    simp [bulletBodyState, bulletBody] at e1 e2
    ext
    · norm_num at e1 ⊢; linarith
    · norm_num at e2 ⊢; linarith
  have hv : ((S 1).agents.rows 0).velocity = (0.99 * v, 0) := by
    rw [h2, hA']
    ext
    · simp [bulletBodyState, bulletBody, Agent.default, Agent.zero]; ring
    · simp [bulletBodyState, bulletBody, Agent.default, Agent.zero]
  rw [h3, hv, hA']
  ext
  · simp [bulletBodyState, bulletBody]; ring
  · simp [bulletBodyState, bulletBody]

end CrowdDynamics
