import Verif.Proofs.RandomAngles

/-!
# Property C156: fluctuations have no preferred direction
-/

namespace CrowdDynamics

open Spec MeasureTheory

variable {n : ℕ}

/-- **C156** The change of the force of agent `k` depends on the random number of this agent
only; its length does not depend on this number, and if the number is uniformly distributed,
the distribution of the change is not altered by a rotation. -/
theorem C156_isotropic (z w : Fin n → ℝ → ℝ → ℝ) (A : AgentArray n) (k : Fin n) :
    ∃ v : ℝ → Vec, Isotropic v ∧
      (∀ x, Spec.len (v x) = |(A.rows k).mass * (A.rows k).stdRandForce * z k 0 3|) ∧
      ∀ u : Fin n → ℝ, ((fluctuationDrawn u z w A).rows k).force = (A.rows k).force + v (u k) := by
  refine ⟨fun x => ((A.rows k).mass * ((A.rows k).stdRandForce * z k 0 3)) •
    (Real.cos (2 * Real.pi * x), Real.sin (2 * Real.pi * x)),
    isotropic_circle _ _ fun _ => rfl, fun x => ?_, fun u => ?_⟩
  · have h := Real.sin_sq_add_cos_sq (2 * Real.pi * x)
    rw [Spec.len, ← Real.sqrt_sq_eq_abs]
    congr 1
    simp only [Prod.smul_mk, smul_eq_mul]
    linear_combination ((A.rows k).mass * (A.rows k).stdRandForce * z k 0 3) ^ 2 * h
  · have := fluctuationDrawn_force u z w A k
    simp only
    rw [← this]
    abel

/-- **C156** On average the force of an agent is not changed. -/
theorem C156_mean (z w : Fin n → ℝ → ℝ → ℝ) (A : AgentArray n) (k : Fin n) (u : Fin n → ℝ) :
    (∫ x in (0 : ℝ)..1, (((fluctuationDrawn (Function.update u k x) z w A).rows k).force -
      (A.rows k).force).1) = 0 ∧
    (∫ x in (0 : ℝ)..1, (((fluctuationDrawn (Function.update u k x) z w A).rows k).force -
      (A.rows k).force).2) = 0 := by
  have hpi : (2 * Real.pi) ≠ 0 := by positivity
  simp only [fluctuationDrawn_force, Function.update_self, Prod.smul_mk, smul_eq_mul]
  constructor
  · rw [intervalIntegral.integral_const_mul, intervalIntegral.integral_comp_mul_left _ hpi,
      integral_cos]
    simp
  · rw [intervalIntegral.integral_const_mul, intervalIntegral.integral_comp_mul_left _ hpi,
      integral_sin]
    simp

/-- The fluctuation is really random: with mass 80 and a scale of 0.1 the drawn numbers 0 and
1/4 lead to different forces. -/
example : ∃ (A : AgentArray 1) (z w : Fin 1 → ℝ → ℝ → ℝ),
    ((fluctuationDrawn (fun _ => 0) z w A).rows 0).force ≠
      ((fluctuationDrawn (fun _ => 1 / 4) z w A).rows 0).force := by
  refine ⟨⟨.const .circular, fun _ => { Agent.default with mass := 80, stdRandForce := 1 / 10 }⟩,
    fun _ _ _ => 1, fun _ _ _ => 1, fun h => ?_⟩
  have h0 := fluctuationDrawn_force (n := 1) (fun _ => 0) (fun _ _ _ => 1) (fun _ _ _ => 1)
    ⟨.const .circular, fun _ => { Agent.default with mass := 80, stdRandForce := 1 / 10 }⟩ 0
  have h1 := fluctuationDrawn_force (n := 1) (fun _ => 1 / 4) (fun _ _ _ => 1) (fun _ _ _ => 1)
    ⟨.const .circular, fun _ => { Agent.default with mass := 80, stdRandForce := 1 / 10 }⟩ 0
  rw [h, h1] at h0
  have := congrArg Prod.fst h0
  simp only [Prod.smul_mk, smul_eq_mul] at this
  rw [show 2 * Real.pi * (1 / 4) = Real.pi / 2 by ring] at this
  norm_num at this

/-- **C156** Each row of `random_vector` with the default angles has the length of `mag`,
depends on one random number only and has no preferred direction. -/
theorem C156_random_vector (mag : ℝ) :
    ∃ v : ℝ → Vec, Isotropic v ∧ (∀ x, Spec.len (v x) = |mag|) ∧
      ∀ u : List ℝ, randomVectorDrawn u randomVectorOrient mag = u.map v := by
  refine ⟨fun x => mag • (Real.cos (2 * Real.pi * x), Real.sin (2 * Real.pi * x)),
    isotropic_circle _ _ fun _ => rfl, fun x => ?_, fun u => ?_⟩
  · have h := Real.sin_sq_add_cos_sq (2 * Real.pi * x)
    rw [Spec.len, ← Real.sqrt_sq_eq_abs]
    congr 1
    simp only [Prod.smul_mk, smul_eq_mul]
    linear_combination mag ^ 2 * h
  · unfold randomVectorDrawn randomVector randomVectorOrient uniformDraw
    rw [List.map_map]
    refine List.map_congr_left fun x _ => ?_
    norm_num [Function.comp]

/-- **C156** If the drawn standardised torque is distributed symmetrically about 0, the torque
of the node vanishes on average. -/
theorem C156_torque (inertia scale : ℝ) (μ : Measure ℝ) (hμ : μ.map (fun x => -x) = μ) :
    ∫ x, torqueFluctuation inertia scale (fun _ _ => x) ∂μ = 0 := by
  have hmeas : MeasurePreserving (fun x : ℝ => -x) μ μ := ⟨measurable_neg, hμ⟩
  have h := hmeas.integral_comp (MeasurableEquiv.neg ℝ).measurableEmbedding
    (fun x => torqueFluctuation inertia scale fun _ _ => x)
  have e : ∀ x : ℝ, torqueFluctuation inertia scale (fun _ _ => -x) =
      -torqueFluctuation inertia scale (fun _ _ => x) := by
    intro x
    simp only [torqueFluctuation, truncnorm]
    ring
  simp only [e, integral_neg] at h
  linarith

/-- The uniform distribution on `[-3, 3]`. -/
example : (volume.restrict (Set.Icc (-3 : ℝ) 3)).map (fun x => -x) =
    volume.restrict (Set.Icc (-3 : ℝ) 3) := by
  have := (Measure.measurePreserving_neg (volume : Measure ℝ)).restrict_preimage
    (measurableSet_Icc (a := (-3 : ℝ)) (b := 3))
  have e : (Neg.neg : ℝ → ℝ) ⁻¹' Set.Icc (-3) 3 = Set.Icc (-3) 3 := by
    ext x; simp [neg_le, and_comm]
  rw [e] at this
  exact this.map_eq

end CrowdDynamics
