import Verif.Proofs.CoreTests
import Verif.Props.Integrator

/-!
# Cases and helper lemmas for `Verif.Props.CoreTests`
-/

namespace CrowdDynamics

open Spec

theorem realsNear_half : RealsNear fl64 0 1 (1 / 2) := by
  have b : fl64 (1 / 2) = 1 / 2 := by
    have := fl64_of_mul (m := 1) (e := -1) (by norm_num) (by norm_num); norm_num at this; exact this
  refine ⟨b, by norm_num, by norm_num, fun hc => ?_⟩
  unfold isCloseF at hc
  rw [sub_zero, b, abs_zero, mul_zero, fl64_zero, add_zero, fl64_idem] at hc
  have : fl64 (1 / 10 ^ 8) ≤ 2 ^ (-2 : ℤ) := fl64_le_two_zpow (by norm_num) (by norm_num)
  norm_num at this hc
  linarith

theorem realsNear_one : RealsNear fl64 0 1 1 := by
  refine ⟨fl64_one, by norm_num, by norm_num, fun hc => ?_⟩
  unfold isCloseF at hc
  rw [sub_zero, fl64_one, abs_zero, mul_zero, fl64_zero, add_zero, fl64_idem] at hc
  have : fl64 (1 / 10 ^ 8) ≤ 2 ^ (-2 : ℤ) := fl64_le_two_zpow (by norm_num) (by norm_num)
  norm_num at this hc
  linarith

theorem accurate_machine : AccurateHypot Arith.machine.hypot where
  nonneg _ _ := fl64_nonneg (Real.sqrt_nonneg _)
  zero := by simp [Arith.machine, fl64_zero]
  near x y := by
    have h1 := fl64_err_gen (√(x ^ 2 + y ^ 2))
    rw [abs_of_nonneg (Real.sqrt_nonneg (x ^ 2 + y ^ 2))] at h1
    refine h1.trans (add_le_add (mul_le_mul_of_nonneg_left (by norm_num) (Real.sqrt_nonneg _)) ?_)
    exact tiny_le' (by norm_num)

theorem not_close_diagonal : ¬ isCloseF fl64 (lengthF Arith.machine
    (vecSubF fl64 ((1 : ℝ), (1 : ℝ)) ((1 / 2 : ℝ), (1 / 2 : ℝ)))) 0 := by
  have b : fl64 (1 - 1 / 2) = 1 / 2 := by
    have := realsNear_half.1
    norm_num at this ⊢; exact this
  have hv : vecSubF fl64 ((1 : ℝ), (1 : ℝ)) ((1 / 2 : ℝ), (1 / 2 : ℝ)) = (1 / 2, 1 / 2) := by
    unfold vecSubF; rw [b]
  rw [hv]
  intro hc
  have hge : (2 : ℝ) ^ (-1 : ℤ) ≤ lengthF Arith.machine (1 / 2, 1 / 2) := by
    refine fl64_ge_two_zpow (by norm_num) ?_
    refine Real.le_sqrt_of_sq_le ?_
    norm_num
  unfold isCloseF at hc
  have hb : fl64 (lengthF Arith.machine (1 / 2, 1 / 2)) = lengthF Arith.machine (1 / 2, 1 / 2) :=
    fl64_idem _
  rw [sub_zero, hb, abs_zero, mul_zero, fl64_zero, add_zero, fl64_idem] at hc
  have : fl64 (1 / 10 ^ 8) ≤ 2 ^ (-2 : ℤ) := fl64_le_two_zpow (by norm_num) (by norm_num)
  have h2 := (le_abs_self _).trans hc
  norm_num at this hge h2
  linarith

theorem realsBetween_step : RealsBetween fl64 (fl64 (1 / 1000)) (fl64 (1 / 100)) (1 / 512) := by
  have b : fl64 (1 / 512) = 1 / 512 := by
    have := fl64_two_zpow (e := -9) (by norm_num); norm_num at this ⊢; exact this
  refine ⟨b, ?_, ?_⟩
  · have := fl64_mono (show (1 : ℝ) / 1000 ≤ 1 / 512 by norm_num); rwa [b] at this
  · have := fl64_mono (show (1 : ℝ) / 512 ≤ 1 / 100 by norm_num); rwa [b] at this

theorem ratio_one : fl64 (1 / 100) < fl64 (1 / 512 / (1 / 512)) ∧
    fl64 (1 / 512 / (1 / 512)) < 100 := by
  rw [show (1 : ℝ) / 512 / (1 / 512) = 1 by norm_num, fl64_one]
  refine ⟨?_, by norm_num⟩
  have : fl64 (1 / 100) ≤ 2 ^ (-1 : ℤ) := fl64_le_two_zpow (by norm_num) (by norm_num)
  norm_num at this ⊢; linarith

end CrowdDynamics
