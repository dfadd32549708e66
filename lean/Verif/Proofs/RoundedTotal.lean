import Verif.Proofs.RoundedPairs
import Mathlib.Algebra.BigOperators.Fin
import Mathlib.Algebra.BigOperators.Group.Finset.Piecewise

/-!
# Lemmas on the total force in floating point
-/

namespace CrowdDynamics

open Spec

/-- Error of one rounding, whatever the size of the number. -/
theorem fl64_err_gen (x : ℝ) : |fl64 x - x| ≤ |x| * 2 ^ (-53 : ℤ) + 2 ^ (-1075 : ℤ) := by
  have hpos : (0 : ℝ) < 2 ^ (-1075 : ℤ) := two_zpow_pos _
  rcases le_or_gt ((2 : ℝ) ^ (-1022 : ℤ)) |x| with h | h
  · have := fl64_err_rel h; linarith
  · have hx := fl64_err_lt (j := -1021) (h.trans (zpow_lt_zpow_right₀ (by norm_num) (by norm_num)))
      (by norm_num)
    norm_num at hx
    have : (0 : ℝ) ≤ |x| * 2 ^ (-53 : ℤ) := by positivity
    have e : ((2 : ℝ) ^ 1075)⁻¹ = 2 ^ (-1075 : ℤ) := by norm_num
    rw [e] at hx
    linarith

/-- The rest of the crowd. -/
theorem sum_addForceF {n : ℕ} (rnd : ℝ → ℝ) (agents : Crowd n) (i : Fin n) (f : Vec) :
    ∑ k, ((addForceF rnd agents i f) k).force.1 =
      ∑ k, (agents k).force.1 + (rnd ((agents i).force.1 + f.1) - (agents i).force.1) := by
  unfold addForceF
  rw [← Finset.add_sum_erase _ _ (Finset.mem_univ i),
    ← Finset.add_sum_erase Finset.univ (fun k => (agents k).force.1) (Finset.mem_univ i)]
  simp only [Function.update_self]
  have : ∑ x ∈ Finset.univ.erase i, (Function.update agents i
      { agents i with force := (rnd ((agents i).force.1 + f.1), rnd ((agents i).force.2 + f.2)) }
        x).force.1 = ∑ x ∈ Finset.univ.erase i, (agents x).force.1 := by
    refine Finset.sum_congr rfl fun x hx => ?_
    rw [Function.update_of_ne (Finset.ne_of_mem_erase hx)]
  rw [this]; ring

/-- The force of two standing agents that overlap, the second to the right of the first. -/
theorem standing_pair {ai aj : Agent} {xi xj D R h : ℝ} (hpi : ai.position = (xi, 0))
    (hpj : aj.position = (xj, 0)) (hvi : ai.velocity = 0) (hvj : aj.velocity = 0)
    (hmi : ai.mu = 1) (hmj : aj.mu = 1) (hki : ai.kappa = 0) (hkj : aj.kappa = 0)
    (hdi : ai.damping = 0) (hdj : aj.damping = 0) (hD : fl64 (xi - xj) = -D) (hD0 : 0 < D)
    (hR : fl64 (ai.radius + aj.radius) = R) (hh : fl64 (D - R) = h) (hneg : h < 0) :
    pairForcesF Arith.machine ai aj = some ((h, 0), (-h, 0)) := by
  have hfD : fl64 D = D := by
    have := fl64_idem (xi - xj)
    rw [hD, fl64_neg] at this; linarith
  have hfh : fl64 h = h := by rw [← hh, fl64_idem]
  have h1 : fl64 1 = 1 := by have := fl64_int (n := 1) (by norm_num); simpa using this
  have hm1 : fl64 (-1) = -1 := by rw [fl64_neg, h1]
  have hdist : distanceCirclesF Arith.machine ai.position ai.radius aj.position aj.radius =
      (h, (-1, 0)) := by
    unfold distanceCirclesF lengthF vecSubF Arith.machine
    simp only [hpi, hpj, hD, sub_self, fl64_zero, hR]
    have hs : √((-D) ^ 2 + 0 ^ 2) = D := by
      rw [show (-D) ^ 2 + 0 ^ 2 = D ^ 2 by ring, Real.sqrt_sq hD0.le]
    rw [hs, hfD, hh, if_neg hD0.ne', neg_div, div_self hD0.ne', hm1, zero_div, fl64_zero]
  have hsoc : forceSocialCircularF Arith.machine ai aj = (0, 0) := by
    unfold forceSocialCircularF vecSubF dotF Arith.machine
    simp only [hvi, hvj, Prod.fst_zero, Prod.snd_zero, sub_self, fl64_zero, mul_zero, zero_mul,
      add_zero, neg_zero, lt_irrefl, if_false, Real.sqrt_zero]
    simp
  have hlt : h < sigthSoc := by unfold sigthSoc; linarith
  unfold pairForcesF
  rw [hdist, hsoc]
  simp only [if_pos hlt, if_pos hneg, Option.some.injEq]
  unfold forceContactF Arith.machine
  simp only [hmi, hmj, hki, hkj, hdi, hdj, zero_mul, fl64_zero, sub_zero, add_zero,
    hm1, Prod.fst_zero, Prod.snd_zero, zero_add, zero_sub, mul_zero, neg_zero, mul_neg, mul_one,
    neg_neg, hfh, fl64_neg]

end CrowdDynamics
