import Verif.Proofs.RoundedArea
import Verif.Proofs.RoundedAngles

/-!
# Cases and helper lemmas for `Verif.Props.RoundedArea`
-/

namespace CrowdDynamics

open Spec Real

theorem needle_last : fl64 (1 + (2 : ℝ) ^ (-52 : ℤ)) = 1 + (2 : ℝ) ^ (-52 : ℤ) := by
  have := fl64_of_mul (m := 2 ^ 52 + 1) (e := -52) (by norm_num) (by norm_num)
  have e : (((2 ^ 52 + 1 : ℤ)) : ℝ) * (2 : ℝ) ^ (-52 : ℤ) = 1 + (2 : ℝ) ^ (-52 : ℤ) := by norm_num
  rwa [e] at this

theorem needle_area :
    polygonAreaF fl64 [(1, 1), (1, 0), (1 + (2 : ℝ) ^ (-52 : ℤ), 4)] = 0 ∧
    |signedArea [(1, 1), (1, 0), (1 + (2 : ℝ) ^ (-52 : ℤ), 4)]| = (2 : ℝ) ^ (-53 : ℤ) := by
  have h3 : fl64 3 = 3 := by simpa using fl64_int (n := 3) (by norm_num)
  have h1 : fl64 1 = 1 := by simpa using fl64_int (n := 1) (by norm_num)
  have h4 : fl64 (-4) = -4 := by simpa using fl64_int (n := -4) (by norm_num)
  have h0 : fl64 0 = 0 := fl64_zero
  have h5 : fl64 (3 + (1 + (2 : ℝ) ^ (-52 : ℤ))) = 4 := by
    have := fl64_eq_of_near (x := 3 + (1 + (2 : ℝ) ^ (-52 : ℤ))) (m := 2 ^ 52) (e := -50)
      (by norm_num) (by norm_num) (by norm_num) (by norm_num)
    rw [this]
    norm_num
  constructor
  · rw [← triangleAreaF_eq]
    unfold triangleAreaF
    simp only
    rw [show (4 : ℝ) - 1 = 3 by norm_num, show (1 : ℝ) - 0 = 1 by norm_num,
      show (0 : ℝ) - 4 = -4 by norm_num, h3, h1, h4, one_mul, one_mul, mul_one, h3, h4, zero_add, h3,
      needle_last, h5, show (4 : ℝ) + -4 = 0 by norm_num, h0, abs_zero, mul_zero, h0]
  · rw [← polygonArea_eq]
    norm_num [polygonArea, List.range', abs_of_pos]

end CrowdDynamics
