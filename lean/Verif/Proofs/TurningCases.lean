import Verif.Proofs.TurningRun
import Verif.Proofs.LongRunCases
import Mathlib.Analysis.SpecificLimits.Basic

/-!
# Cases and helper lemmas for `Verif.Props.Turning`
-/

namespace CrowdDynamics

open Spec

variable {n : ℕ}

/-- In `Outdoor` the orientation that three-circle agents want is that of their target direction. -/
theorem walk_orientation (env : SimEnv n) (s t : SimState n) (h : walkLogic.update env s = (.ok (), t))
    (hk : s.agents.dtype.kind = .threeCircle) (k : Fin n) :
    (t.agents.rows k).targetOrientation = angle (s.agents.rows k).targetDirection := by
  obtain ⟨u, hu, ea⟩ := update_order order_walk env s t _ h
  rw [ea]
  simp only [updateNodes] at hu
  obtain ⟨s1, h1⟩ : ∃ s1, Node.fluctuation.update env s = (.ok (), s1) := ⟨_, rfl⟩
  obtain ⟨s2, h2⟩ : ∃ s2, Node.orientation.update env s1 = (.ok (), s2) := ⟨_, rfl⟩
  obtain ⟨s3, h3⟩ : ∃ s3, Node.adjusting.update env s2 = (.ok (), s3) := ⟨_, rfl⟩
  obtain ⟨s4, h4⟩ := agentAgent_total env (3.0 + 2 * 0.3) s3
  obtain ⟨s5, h5⟩ : ∃ s5, (Node.integrator 0.01 0.01).update env s4 = (.ok (), s5) := ⟨_, rfl⟩
  obtain ⟨s6, h6⟩ : ∃ s6, Node.reset.update env s5 = (.ok (), s6) := ⟨_, rfl⟩
  rw [h1] at hu
  simp only at hu
  rw [h2] at hu
  simp only at hu
  rw [h3] at hu
  simp only at hu
  rw [h4] at hu
  simp only at hu
  rw [h5] at hu
  simp only at hu
  rw [h6] at hu
  cases hu
  have k1 : s1.agents.dtype.kind = .threeCircle := by
    cases h1
    rw [← hk]
    exact congrArg _ (fluctuation_frame _ _ _ _).1
  have d1 := ((node_still_body env _ _ _ _ h1 (by simp [Moves]) k).2 (by simp [Steers])).1
  have d2 : (s2.agents.rows k).targetOrientation = angle (s1.agents.rows k).targetDirection := by
    cases h2
    simp [orientationUpdate, isModel, k1, orientTowardsTargetDirection]
  have d3 := ((node_still_body env _ _ _ _ h3 (by simp [Moves]) k).2 (by simp [Steers])).2
  have d4 := ((node_still_body env _ _ _ _ h4 (by simp [Moves]) k).2 (by simp [Steers])).2
  have d5 : (s5.agents.rows k).targetOrientation = (s4.agents.rows k).targetOrientation := by
    cases h5
    obtain ⟨-, h2⟩ := verlet_frame s4.agents 0.01 0.01
    obtain ⟨_, _, _, _, _, _, _, _, e⟩ := h2 k
    exact (congrArg Agent.targetOrientation e).trans rfl
  have d6 := ((node_still_body env _ _ _ _ h6 (by simp [Moves]) k).2 (by simp [Steers])).2
  rw [d6, d5, d4, d3, d2, d1]

/-- The middles of the ranges, as random numbers. -/
noncomputable def middle : ℕ → ℝ → ℝ → ℝ := fun _ a b => (a + b) / 2

theorem middle_range : InTruncRange middle := fun _ a b h => by
  unfold middle
  constructor <;> linarith

/-- The body of an adult. -/
noncomputable def adultBody : BodyObj := (construct bodyTypesCfg middle [.bodyType "adult"]).obj

/-- An adult at the origin that wants to walk in the direction `(1, 0)` and is turned by a right angle
from it; `omega0` is the largest angular velocity it wants. -/
noncomputable def turner (omega0 : ℝ) : Crowd 1 := fun _ =>
  { Agent.default with
    radius := adultBody.val .radius, rT := adultBody.val .rT, rS := adultBody.val .rS
    rTs := adultBody.val .rTs, mass := adultBody.val .mass, inertiaRot := adultBody.val .inertiaRot
    targetVelocity := adultBody.val .targetVelocity
    targetAngularVelocity := omega0
    orientation := Real.pi / 2
    positionLs := ((0 : ℝ) - adultBody.val .rTs * Real.sin (Real.pi / 2),
      (0 : ℝ) + adultBody.val .rTs * Real.cos (Real.pi / 2))
    positionRs := ((0 : ℝ) + adultBody.val .rTs * Real.sin (Real.pi / 2),
      (0 : ℝ) - adultBody.val .rTs * Real.cos (Real.pi / 2))
    targetDirection := (1, 0), stdRandForce := 0, stdRandTorque := 0 }

/-- This agent at the start of a simulation. -/
noncomputable def turnerState (omega0 : ℝ) : SimState 1 :=
  { demoState (turner omega0) with agents := ⟨.const .threeCircle, turner omega0⟩ }

/-- The states of `Outdoor` with this agent. -/
noncomputable def turning (omega0 : ℝ) (k : ℕ) : SimState 1 :=
  (fun s => (walkLogic.update openEnv s).2)^[k] (turnerState omega0)

theorem turner_stores (omega0 : ℝ) : StoresBody (turner omega0 0)
    (construct bodyTypesCfg middle [.bodyType "adult"]).obj :=
  ⟨rfl, rfl, rfl, rfl, rfl, rfl, rfl⟩

theorem turner_attached (omega0 : ℝ) (i : Fin 1) : ShouldersAttached (turner omega0 i) := ⟨rfl, rfl⟩

theorem turner_regular (omega0 : ℝ) :
    RegularBody openEnv [.agentAgent (3.0 + 2 * 0.3)] (turnerState omega0) := by
  obtain ⟨b, hb, r1, r2, m1, m2, -, -, t1, t2, s1, ts1, hsum, hi⟩ :=
    C16_shipped_values middle middle_range "adult" (by decide)
  have hb' : adultBody = b := by unfold adultBody; rw [hb]
  refine ⟨rfl, fun k p => ?_, turner_attached omega0, fun k => ?_, fun k => ?_,
    fun k => by norm_num [turnerState, turner, Agent.default],
    fun k => by norm_num [turnerState, turner, Agent.default],
    fun k => by norm_num [turnerState, turner, Agent.default],
    fun k => by norm_num [turnerState, turner, Agent.default],
    fun d k a b h => ⟨le_rfl, h⟩, fun d k a b h => ⟨le_rfl, h⟩,
    fun g hg => by simp [SimEnv.field, openEnv] at hg, fun c hc => ?_⟩
  · fin_cases p
    · change 0 ≤ adultBody.val .rT
      rw [hb']; exact t1.le
    · change 0 ≤ adultBody.val .rS
      rw [hb']; exact s1.le
    · change 0 ≤ adultBody.val .rS
      rw [hb']; exact s1.le
  · change 0 < adultBody.val .mass
    rw [hb']; linarith
  · change 0 < adultBody.val .inertiaRot
    rw [hb', hi]
    unfold bodyInertia
    have : 0 < b.val .mass := by linarith
    have : 0 < b.val .radius := by linarith
    positivity
  · rw [List.mem_singleton] at hc
    cases hc
    refine ⟨by norm_num, ⟨fun _ => 0.29, fun k => ?_,
      fun i j hij => absurd (Subsingleton.elim i j) hij⟩, lonely_cells _ rfl _⟩
    rw [Subsingleton.elim k 0]
    exact C16_body_within middle middle_range "adult" (by decide) .threeCircle _ (turner_stores omega0)
      fun _ => turner_attached omega0 0

theorem turning_succ (omega0 : ℝ) (k : ℕ) :
    walkLogic.update openEnv (turning omega0 k) = (.ok (), turning omega0 (k + 1)) := by
  obtain ⟨t, ht⟩ := walk_total openEnv (turning omega0 k)
  rw [show turning omega0 (k + 1) = (walkLogic.update openEnv (turning omega0 k)).2 from
    Function.iterate_succ_apply' _ _ _, ht]

theorem turning_run (omega0 : ℝ) (N : ℕ) : ShippedBodyRun openEnv walkLogic
    [.fluctuation, .orientation, .adjusting, .agentAgent (3.0 + 2 * 0.3), .integrator 0.01 0.01, .reset]
    (turnerState omega0) N (turning omega0) := by
  refine ⟨⟨0, 1, 0, by norm_num, by norm_num, rfl⟩, order_walk, by simp [SimEnv.field, openEnv],
    turner_regular omega0, fun i => ⟨rfl, rfl⟩, ⟨rfl, fun k _ => turning_succ omega0 k, fun k _ h => ?_⟩,
    fun j _ => lonely_cells _ rfl _⟩
  obtain ⟨c, hc, -⟩ := h
  cases hc

theorem turning_alone (omega0 : ℝ) (N : ℕ) :
    LeftAlone openEnv (turnerState omega0) N (turning omega0) 0 :=
  ⟨⟨rfl, rfl⟩, rfl, fun _ _ => ⟨fun j hj => absurd (Subsingleton.elim j 0) hj, fun w hw => by
    simp [fieldWalls, SimEnv.field, openEnv] at hw⟩⟩

/-- The agent wants to walk in the same direction all the time. -/
theorem turning_direction (omega0 : ℝ) (k : ℕ) :
    ((turning omega0 k).agents.rows 0).targetDirection = (1, 0) := by
  induction k with
  | zero => rfl
  | succ k ih => rw [walk_direction _ _ _ (turning_succ omega0 k) 0, ih]

/-- The agent wants to face the direction of angle 0 all the time. -/
theorem turning_aim (omega0 : ℝ) (k : ℕ) :
    ((turning omega0 (k + 1)).agents.rows 0).targetOrientation = 0 := by
  have hd := turning_direction omega0 k
  have hk := (completed_body order_walk (turning_run omega0 k).completed k le_rfl).1
  rw [walk_orientation _ _ _ (turning_succ omega0 k) (by rw [hk]; rfl) 0, hd]
  unfold angle
  exact Complex.arg_one

theorem turner_turn : ShortestTurn (Real.pi / 2) 0 (-(Real.pi / 2)) := by
  have hpi := Real.pi_pos
  refine ⟨⟨0, by simp⟩, fun e ⟨k, hk⟩ => ?_⟩
  rw [abs_neg, abs_of_pos (by linarith)]
  have he : e = (k - 1 / 4) * (2 * Real.pi) := by linarith
  rcases le_or_gt k 0 with h | h
  · have : (k : ℝ) ≤ 0 := by exact_mod_cast h
    rw [he, abs_of_nonpos (by nlinarith)]
    nlinarith
  · have : (1 : ℝ) ≤ k := by exact_mod_cast h
    rw [he, abs_of_nonneg (by nlinarith)]
    nlinarith

end CrowdDynamics
