import Verif.Model.RandomAngles
import Verif.Spec.RandomAngles
import Verif.Proofs.Sampling
import Mathlib.MeasureTheory.Integral.IntervalIntegral.Periodic
import Mathlib.Analysis.SpecialFunctions.Integrals.Basic
import Mathlib.MeasureTheory.Measure.Haar.Unique

/-!
# Lemmas about random angles
-/

namespace CrowdDynamics

open Spec MeasureTheory

/-- Random numbers can be shifted in a circle. -/
lemma prob_shift {A : Set ℝ} (hA : MeasurableSet A) (hper : ∀ (k : ℤ) (x : ℝ), x + k ∈ A ↔ x ∈ A)
    (a : ℝ) : prob (fun u => u + a ∈ A) = prob (fun u => u ∈ A) := by
  have hinv : ∀ g : AddSubgroup.zmultiples (1 : ℝ), (fun x => g +ᵥ x) ⁻¹' A = A := by
    rintro ⟨g, hg⟩
    obtain ⟨k, rfl⟩ := AddSubgroup.mem_zmultiples_iff.1 hg
    ext x
    simp only [Set.mem_preimage, AddSubgroup.mk_vadd, vadd_eq_add, zsmul_eq_mul, mul_one]
    rw [add_comm]
    exact hper k x
  have key := (isAddFundamentalDomain_Ioc one_pos a volume).measure_set_eq
    (isAddFundamentalDomain_Ioc one_pos 0 volume) hA hinv
  have h1 : prob (fun u => u + a ∈ A) = volume (A ∩ Set.Ioc a (a + 1)) := by
    unfold prob
    rw [← measure_preimage_add_right volume a (A ∩ Set.Ioc a (a + 1))]
    have e1 : {x : ℝ | x ∈ Set.Ico (0 : ℝ) 1 ∧ x + a ∈ A} =
        ((fun x => x + a) ⁻¹' A) ∩ Set.Ico 0 1 := by
      ext x; exact and_comm
    have e2 : (fun x => x + a) ⁻¹' (A ∩ Set.Ioc a (a + 1)) =
        ((fun x => x + a) ⁻¹' A) ∩ Set.Ioc 0 1 := by
      ext x
      simp [add_comm a 1]
    rw [e1, e2]
    exact measure_congr ((Filter.EventuallyEq.refl _ _).inter Ico_ae_eq_Ioc)
  have h2 : prob (fun u => u ∈ A) = volume (A ∩ Set.Ioc 0 (0 + 1)) := by
    unfold prob
    have e1 : {x : ℝ | x ∈ Set.Ico (0 : ℝ) 1 ∧ x ∈ A} = A ∩ Set.Ico 0 1 := by
      ext x; exact and_comm
    rw [e1, zero_add]
    exact measure_congr ((Filter.EventuallyEq.refl _ _).inter Ico_ae_eq_Ioc)
  rw [h1, h2, key]

lemma isotropic_circle (m : ℝ) (v : ℝ → Vec)
    (hv : ∀ u, v u = m • (Real.cos (2 * Real.pi * u), Real.sin (2 * Real.pi * u))) :
    Isotropic v := by
  intro a S hS
  have hv' : v = fun u => m • (Real.cos (2 * Real.pi * u), Real.sin (2 * Real.pi * u)) :=
    funext hv
  have hcont : Continuous v := by
    rw [hv']; fun_prop
  have hturn : ∀ u, rotatedBy a (v u) = v (u + a / (2 * Real.pi)) := by
    intro u
    have e : 2 * Real.pi * (u + a / (2 * Real.pi)) = a + 2 * Real.pi * u := by
      have := Real.pi_pos
      field_simp
      ring
    rw [hv, hv, e, Real.cos_add, Real.sin_add]
    unfold rotatedBy
    ext <;> simp <;> ring
  have hper : ∀ (k : ℤ) (x : ℝ), x + k ∈ v ⁻¹' S ↔ x ∈ v ⁻¹' S := by
    intro k x
    have e : 2 * Real.pi * (x + k) = 2 * Real.pi * x + k * (2 * Real.pi) := by ring
    have : v (x + k) = v x := by
      rw [hv, hv, e, Real.cos_add_int_mul_two_pi, Real.sin_add_int_mul_two_pi]
    simp only [Set.mem_preimage, this]
  have := prob_shift (hcont.measurable hS) hper (a / (2 * Real.pi))
  simp only [Set.mem_preimage] at this
  simp only [hturn]
  exact this

/-- The change of the force of agent `k` by the node `Fluctuation`, as a vector on a circle. -/
lemma fluctuationDrawn_force {n : ℕ} (u : Fin n → ℝ) (z w : Fin n → ℝ → ℝ → ℝ) (A : AgentArray n)
    (k : Fin n) :
    ((fluctuationDrawn u z w A).rows k).force - (A.rows k).force =
      ((A.rows k).mass * ((A.rows k).stdRandForce * z k 0 3)) •
        (Real.cos (2 * Real.pi * u k), Real.sin (2 * Real.pi * u k)) := by
  have hangle : fluctuationAngle (u k) = 2 * Real.pi * u k := by
    unfold fluctuationAngle uniformDraw
    norm_num
  unfold fluctuationDrawn fluctuation
  simp only
  split_ifs <;>
  · simp only [forceFluctuation, truncnorm, hangle, zero_add]
    rw [add_sub_cancel_left]

end CrowdDynamics
