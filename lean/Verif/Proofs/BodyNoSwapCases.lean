import Verif.Proofs.BodyNoSwap
import Verif.Proofs.BodyIsolationCases

/-!
# Cases for C201
-/

namespace CrowdDynamics

open Spec

/-- Two three-circle agents behind each other, 0.6 apart; the one behind has speed `v`. -/
noncomputable def chasing (v : ℝ) : Crowd 2 := fun i =>
  { Agent.default with
    mass := 80, inertiaRot := 4, rT := 0.15, rS := 0.1, rTs := 0.15, tauAdj := 0.5, tauRot := 0.2
    targetVelocity := 0, stdRandForce := 0, stdRandTorque := 0, orientation := 0
    position := ((if i = 0 then 0 else 0.6 : ℝ), 0)
    positionLs := ((if i = 0 then 0 else 0.6 : ℝ), 0.15)
    positionRs := ((if i = 0 then 0 else 0.6 : ℝ), -0.15)
    velocity := ((if i = 0 then v else 0 : ℝ), 0) }

/-- These two at the start of a simulation. -/
noncomputable def chasingState (v : ℝ) : SimState 2 :=
  { demoState (chasing v) with agents := ⟨.const .threeCircle, chasing v⟩ }

/-- Updates of `Outdoor` with these two. -/
noncomputable def chase (v : ℝ) (k : ℕ) : SimState 2 :=
  (fun s => (walkLogic.update (orderEnv (0, 1)) s).2)^[k] (chasingState v)

theorem chasing_circles (v : ℝ) (i : Fin 2) (p : Fin 3) :
    (chasing v i).circles p = ((if i = 0 then 0 else 0.6 : ℝ), (![0, 0.15, -0.15] p : ℝ)) := by
  fin_cases p <;> simp [Agent.circles, chasing]

theorem chasing_radii (v : ℝ) (i : Fin 2) (p : Fin 3) : 0 ≤ (chasing v i).radii p ∧
    (chasing v i).radii p ≤ 0.15 := by
  fin_cases p <;> norm_num [Agent.radii, chasing]

theorem chasing_within (v : ℝ) (i : Fin 2) : BodyWithin .threeCircle (chasing v i) 0.25 := by
  intro d hd
  have key : ∀ y r : ℝ, |y| + r ≤ 0.25 →
      Spec.dist (chasing v i).position ((if i = 0 then 0 else 0.6 : ℝ), y) + r ≤ 0.25 := by
    intro y r hy
    have : Spec.dist (chasing v i).position ((if i = 0 then 0 else 0.6 : ℝ), y) = |y| := by
      unfold Spec.dist len
      simp only [chasing, Prod.mk_sub_mk, sub_self, zero_sub]
      rw [neg_sq, zero_pow two_ne_zero, zero_add, Real.sqrt_sq_eq_abs]
    rw [this]
    exact hy
  simp only [discs, List.mem_cons, List.not_mem_nil, or_false] at hd
  rcases hd with rfl | rfl | rfl
  · exact key 0 0.15 (by norm_num)
  · exact key 0.15 0.1 (by norm_num [abs_of_pos])
  · exact key (-0.15) 0.1 (by norm_num [abs_of_pos])

theorem chase_run (v : ℝ) (N : ℕ) : ShippedBodyRun (orderEnv (0, 1)) walkLogic walkOrder
    (chasingState v) N (chase v) := by
  refine ⟨⟨0, 1, 0, by norm_num, by norm_num, rfl⟩, order_walk, by simp [SimEnv.field, orderEnv], ?_,
    fun i => ⟨rfl, rfl⟩, ⟨rfl, fun k _ => ?_, fun k _ h => ?_⟩,
    fun j _ => order_cells _ (.inl rfl) _⟩
  · refine ⟨rfl, fun k p => ?_, fun k => ?_, ?_, ?_, ?_, ?_, ?_, ?_,
      fun d k a b h => ⟨le_rfl, h⟩, fun d k a b h => ⟨le_rfl, h⟩,
      fun g hg => by simp [SimEnv.field, orderEnv] at hg, fun c hc => ?_⟩
    · change 0 ≤ (chasing v k).radii p
      exact (chasing_radii v k p).1
    · constructor <;> simp [chasingState, chasing]
    iterate 6 exact fun k => by norm_num [chasingState, chasing]
    rw [List.mem_singleton] at hc
    cases hc
    exact ⟨by norm_num, ⟨fun _ => 0.25, fun _ => chasing_within v _, fun i j _ => by norm_num⟩,
      order_cells _ (.inl rfl) _⟩
  · obtain ⟨t, ht⟩ := walk_total (orderEnv (0, 1)) (chase v k)
    rw [show chase v (k + 1) = (walkLogic.update (orderEnv (0, 1)) (chase v k)).2 from
      Function.iterate_succ_apply' _ _ _, ht]
  · obtain ⟨c, hc, -⟩ := h
    cases hc

theorem chasing_apart (v : ℝ) (i j : Fin 2) (hj : j ≠ i) (p q : Fin 3) :
    (0.6 : ℝ) ≤ Spec.dist ((chasing v i).circles p) ((chasing v j).circles q) := by
  rw [chasing_circles, chasing_circles]
  unfold Spec.dist len
  refine Real.le_sqrt_of_sq_le ?_
  simp only [Prod.mk_sub_mk]
  have : ((if i = 0 then 0 else 0.6 : ℝ) - (if j = 0 then 0 else 0.6 : ℝ)) ^ 2 = 0.6 ^ 2 := by
    fin_cases i <;> fin_cases j <;> first | exact absurd rfl hj | norm_num
  rw [this]
  nlinarith [sq_nonneg ((![0, 0.15, -0.15] p : ℝ) - (![0, 0.15, -0.15] q : ℝ))]

theorem chasing_untouched (v : ℝ) (i : Fin 2) :
    BodyTouchesNothing (orderEnv (0, 1)) (chasing v) i := by
  refine ⟨fun j hj p q => ?_, fun w hw => by simp [fieldWalls, SimEnv.field, orderEnv] at hw⟩
  have := chasing_apart v i j hj p q
  have := (chasing_radii v i p).2
  have := (chasing_radii v j q).2
  linarith

/-- Where the agents are after one update. -/
theorem chase_far (m : Fin 2) : |((chase 100 1).agents.rows m).position.1 -
    ((chasing 100 m).position.1 + 0.01 * (chasing 100 m).velocity.1 * 0.98)| ≤ 0.005 := by
  have hrun := chase_run 100 1
  obtain ⟨f, d, hf, -, hA, hv, -⟩ := body_drive hrun m (j := 0) (by norm_num)
  have hp := body_position hrun m (j := 0) (by norm_num)
  have hd0 : len f.1 ≤ 2000 := by
    have := disturbs_body_untouched (chasing_untouched 100 m) hf
    have e : ((chase 100 0).agents.rows m).stdRandForce = 0 := rfl
    rw [e] at this
    norm_num at this
    exact this
  obtain ⟨A, hAd⟩ : ∃ A, A = (1 / ((chasingState 100).agents.rows m).mass) •
    ((chase 100 (0 + 1)).agents.rows m).forcePrev := ⟨_, rfl⟩
  have e0 : ((chase 100 0).agents.rows m).forcePrev = 0 := rfl
  have e1 : ((chasingState 100).agents.rows m).tauAdj = 0.5 := rfl
  have e2 : ((chasingState 100).agents.rows m).mass = 80 := rfl
  have e3 : ((chasingState 100).agents.rows m).targetVelocity = 0 := rfl
  have e4 : ((chase 100 0).agents.rows m).velocity = (chasing 100 m).velocity := rfl
  have e5 : ((chase 100 0).agents.rows m).position = (chasing 100 m).position := rfl
  rw [← hAd] at hA hv hp
  rw [e0, smul_zero, e4] at hv
  rw [e1, e2, e3, e4, zero_smul, zero_add] at hA
  rw [e5] at hp
  have hA1 := congrArg Prod.fst hA
  have hv1 := congrArg Prod.fst hv
  have hp1 := congrArg Prod.fst hp
  simp only [Prod.smul_fst, Prod.fst_sub, Prod.fst_add, Prod.fst_zero, smul_eq_mul] at hA1 hv1 hp1
  rw [show (0 : ℕ) + 1 = 1 from rfl] at hp1 hv1
  have hx := abs_le.1 ((abs_fst_le_len f.1).trans hd0)
  rw [abs_le]
  constructor <;> linarith

end CrowdDynamics
