import Verif.Proofs.Rounded
import Mathlib.Analysis.Real.Pi.Bounds

/-!
# Lemmas on angles in floating point
-/

namespace CrowdDynamics

open Spec Real

/-! ## Evaluating `fl64` -/

/-- Rounding of a number whose binary exponent is known. -/
theorem fl64_eq_of_near {x : ℝ} {m e : ℤ} (h1 : (2 : ℝ) ^ (e + 52) ≤ |x|)
    (h2 : |x| < 2 ^ (e + 53)) (he : -1074 ≤ e) (h : |x / 2 ^ e - m| < 1 / 2) :
    fl64 x = m * 2 ^ e := by
  have hx : 0 < |x| := lt_of_lt_of_le (two_zpow_pos _) h1
  have hlog : Int.log 2 |x| = e + 52 := by
    apply le_antisymm
    · have : Int.log 2 |x| < e + 53 := by
        rw [← Int.lt_zpow_iff_log_lt (by norm_num) hx]; exact_mod_cast h2
      omega
    · rw [← Int.zpow_le_iff_le_log (by norm_num) hx]; exact_mod_cast h1
  have hE : fl64Exp x = e := by unfold fl64Exp; rw [hlog]; omega
  unfold fl64
  rw [hE, halfEven_eq h]

/-- Absolute error for numbers below a power of two. -/
theorem fl64_err_lt {x : ℝ} {j : ℤ} (h : |x| < 2 ^ j) (hj : -1021 ≤ j) :
    |fl64 x - x| ≤ 2 ^ (j - 54) := by
  rcases eq_or_ne x 0 with rfl | hx
  · rw [fl64_zero]; simp only [sub_zero, abs_zero]; exact (two_zpow_pos _).le
  have hlog : Int.log 2 |x| < j := by
    rw [← Int.lt_zpow_iff_log_lt (by norm_num) (abs_pos.2 hx)]; exact_mod_cast h
  have hE : fl64Exp x ≤ j - 53 := by unfold fl64Exp; omega
  refine (fl64_err x).trans ?_
  have h1 : (2 : ℝ) ^ fl64Exp x ≤ 2 ^ (j - 53) := zpow_le_zpow_right₀ (by norm_num) hE
  have h2 : (2 : ℝ) ^ (j - 53) = 2 ^ (j - 54) * 2 := by
    rw [show j - 53 = (j - 54) + 1 by ring, zpow_add₀ (by norm_num)]; norm_num
  rw [h2] at h1
  linarith

/-! ## The constant `np.pi` -/

/-- The value of `np.pi`. -/
theorem fl64_pi : fl64 π = 7074237752028440 * 2 ^ (-51 : ℤ) := by
  have h1 := Real.pi_gt_d20
  have h2 := Real.pi_lt_d20
  have := fl64_eq_of_near (x := π) (m := 7074237752028440) (e := -51)
    (by rw [abs_of_pos Real.pi_pos]; norm_num; linarith)
    (by rw [abs_of_pos Real.pi_pos]; norm_num; linarith) (by norm_num)
    (by rw [abs_lt]; norm_num; constructor <;> linarith)
  rw [this]; norm_num

theorem fl64_two_pi : fl64 (2 * fl64 π) = 2 * fl64 π := by
  rw [fl64_pi]
  have := fl64_of_mul (m := 7074237752028440) (e := -50) (by norm_num) (by norm_num)
  have e : (2 : ℝ) * (7074237752028440 * 2 ^ (-51 : ℤ)) =
      ((7074237752028440 : ℤ) : ℝ) * 2 ^ (-50 : ℤ) := by norm_num
  rw [e]; exact this

theorem npPi_pos : 0 < fl64 π := by rw [fl64_pi]; positivity

theorem npPi_gt : 3 < fl64 π := by rw [fl64_pi]; norm_num

theorem npPi_lt : fl64 π < 4 := by rw [fl64_pi]; norm_num

theorem npPi_lt_pi : fl64 π < π ∧ π < fl64 π + 13 / 10 ^ 17 := by
  have h1 := Real.pi_gt_d20
  have h2 := Real.pi_lt_d20
  rw [fl64_pi]
  norm_num
  constructor <;> linarith

theorem binary64_npPi : Binary64 (fl64 π) := binary64_fl64 π

theorem binary64_turn : Binary64 (2 * fl64 π) := by rw [← fl64_two_pi]; exact binary64_fl64 _

/-- Subtracting a turn from a float of the second half turn is exact. -/
theorem sub_turn_exact {a : ℝ} (ha : Binary64 a) (h1 : fl64 π ≤ a) (h2 : a ≤ 2 * fl64 π) :
    fl64 (a - 2 * fl64 π) = a - 2 * fl64 π := by
  have hp := npPi_gt
  have hl := npPi_lt
  obtain ⟨n, hn⟩ := binary64_multiple (j := 1) ha (by
    rw [abs_of_pos (by linarith)]; norm_num; linarith)
  have e : a - 2 * fl64 π = ((n - 14148475504056880 : ℤ) : ℝ) * 2 ^ (-51 : ℤ) := by
    rw [hn, fl64_pi]; push_cast; norm_num; ring
  rw [e]
  refine fl64_of_mul ?_ (by norm_num)
  have h3 : |((n - 14148475504056880 : ℤ) : ℝ) * 2 ^ (-51 : ℤ)| < 4 := by
    rw [← e, abs_lt]; constructor <;> linarith
  rw [abs_mul, abs_of_pos (two_zpow_pos _)] at h3
  have h4 : |((n - 14148475504056880 : ℤ) : ℝ)| < 2 ^ 53 := by norm_num at h3 ⊢; linarith
  exact_mod_cast h4

/-! ## `%` by a turn -/

/-- `rad % (2 * np.pi)` on floats. -/
theorem pyModF_turn (x : ℝ) :
    pyModF fl64 x (2 * fl64 π) =
      if cFmod x (2 * fl64 π) < 0 then fl64 (cFmod x (2 * fl64 π) + 2 * fl64 π)
      else cFmod x (2 * fl64 π) := by
  have hT : ¬ (2 * fl64 π < 0) := by have := npPi_pos; linarith
  unfold pyModF
  simp only [hT, false_iff, not_not]
  split_ifs with h1 h2 h2
  · rfl
  · rfl
  · exact absurd h2.ne h1
  · exact (by push Not at h1; exact h1.symm)

theorem cFmod_turn_abs (x : ℝ) : |cFmod x (2 * fl64 π)| < 2 * fl64 π := by
  have hT : 0 < 2 * fl64 π := by have := npPi_pos; linarith
  have hq : |cFmod x (2 * fl64 π) / (2 * fl64 π)| < 1 := by
    rw [cFmod_div hT.ne']
    unfold truncDiv
    split_ifs with h
    · have a := Int.floor_le (x / (2 * fl64 π))
      have b := Int.lt_floor_add_one (x / (2 * fl64 π))
      rw [abs_lt]; constructor <;> linarith
    · have a := Int.le_ceil (x / (2 * fl64 π))
      have b := Int.ceil_lt_add_one (x / (2 * fl64 π))
      rw [abs_lt]; constructor <;> linarith
  rwa [abs_div, abs_of_pos hT, div_lt_one hT] at hq

/-- The remainder is a float between zero and a full turn and nearly congruent. -/
theorem pyModF_turn_spec {x : ℝ} (hx : Binary64 x) :
    Binary64 (pyModF fl64 x (2 * fl64 π)) ∧ 0 ≤ pyModF fl64 x (2 * fl64 π) ∧
      pyModF fl64 x (2 * fl64 π) ≤ 2 * fl64 π ∧
      ∃ k : ℤ, |k - truncDiv x (2 * fl64 π)| ≤ 1 ∧ (0 ≤ x → k = truncDiv x (2 * fl64 π)) ∧
        (x < 0 → pyModF fl64 x (2 * fl64 π) ≠ 0 → k = truncDiv x (2 * fl64 π) - 1) ∧
        |pyModF fl64 x (2 * fl64 π) - (x - k * (2 * fl64 π))| ≤ 2 ^ (-51 : ℤ) ∧
        (0 ≤ x → pyModF fl64 x (2 * fl64 π) = x - k * (2 * fl64 π)) := by
  have hT : 0 < 2 * fl64 π := by have := npPi_pos; linarith
  have habs := abs_lt.1 (cFmod_turn_abs x)
  have hb := binary64_cFmod hx binary64_turn hT.ne'
  have he := cFmod_eq x (2 * fl64 π)
  rw [pyModF_turn]
  split_ifs with h
  · have hx0 : x < 0 := by
      by_contra hx0
      rw [not_lt] at hx0
      have h1 : cFmod x (2 * fl64 π) / (2 * fl64 π) < 0 := div_neg_of_neg_of_pos h hT
      rw [cFmod_div hT.ne'] at h1
      unfold truncDiv at h1
      rw [if_pos (div_nonneg hx0 hT.le)] at h1
      have := Int.floor_le (x / (2 * fl64 π))
      linarith
    have hlt : |cFmod x (2 * fl64 π) + 2 * fl64 π| < 2 ^ (3 : ℤ) := by
      have := npPi_lt
      rw [abs_lt]; norm_num; constructor <;> linarith
    have herr := fl64_err_lt hlt (by norm_num)
    refine ⟨binary64_fl64 _, fl64_nonneg (by linarith), ?_, truncDiv x (2 * fl64 π) - 1, ?_, ?_, ?_,
      ?_, ?_⟩
    · calc fl64 (cFmod x (2 * fl64 π) + 2 * fl64 π) ≤ fl64 (2 * fl64 π) :=
            fl64_mono (by linarith)
        _ = 2 * fl64 π := fl64_two_pi
    · rw [show truncDiv x (2 * fl64 π) - 1 - truncDiv x (2 * fl64 π) = -1 by ring]; norm_num
    · intro h0; exact absurd hx0 (not_lt.2 h0)
    · intro _ _; rfl
    · have e : x - ((truncDiv x (2 * fl64 π) - 1 : ℤ) : ℝ) * (2 * fl64 π) =
          cFmod x (2 * fl64 π) + 2 * fl64 π := by rw [he]; push_cast; ring
      rw [e]
      norm_num at herr ⊢
      exact herr
    · intro h0; exact absurd hx0 (not_lt.2 h0)
  · rw [not_lt] at h
    refine ⟨hb, h, habs.2.le, truncDiv x (2 * fl64 π), by simp, fun _ => rfl, ?_, ?_, ?_⟩
    · intro hx0 hne
      exfalso
      have h1 : 0 < cFmod x (2 * fl64 π) / (2 * fl64 π) := div_pos (lt_of_le_of_ne h hne.symm) hT
      rw [cFmod_div hT.ne'] at h1
      unfold truncDiv at h1
      rw [if_neg (not_le.2 (div_neg_of_neg_of_pos hx0 hT))] at h1
      have := Int.le_ceil (x / (2 * fl64 π))
      linarith
    · rw [he, show x - 2 * fl64 π * (truncDiv x (2 * fl64 π) : ℝ) -
        (x - (truncDiv x (2 * fl64 π) : ℝ) * (2 * fl64 π)) = 0 by ring, abs_zero]
      positivity
    · intro _; rw [he]; ring

/-! ## `wrap_to_pi` -/

theorem wrapToPiF_eq (x : ℝ) : wrapToPiF fl64 x =
    if x < 0 ∧ pyModF fl64 x (2 * fl64 π) = fl64 π then -fl64 π
    else if pyModF fl64 x (2 * fl64 π) > fl64 π then
      fl64 (pyModF fl64 x (2 * fl64 π) - 2 * fl64 π)
    else pyModF fl64 x (2 * fl64 π) := by
  unfold wrapToPiF
  simp only []
  rw [fl64_two_pi]

theorem wrapToPiF_mem {x : ℝ} (hx : Binary64 x) :
    Binary64 (wrapToPiF fl64 x) ∧ |wrapToPiF fl64 x| ≤ fl64 π := by
  obtain ⟨hb, h0, h1, _⟩ := pyModF_turn_spec hx
  have hp := npPi_pos
  rw [wrapToPiF_eq]
  split_ifs with ha hc
  · refine ⟨?_, by rw [abs_neg, abs_of_pos hp]⟩
    rw [← fl64_neg]; exact binary64_fl64 _
  · rw [sub_turn_exact hb hc.le h1]
    refine ⟨?_, by rw [abs_le]; constructor <;> linarith⟩
    rw [← sub_turn_exact hb hc.le h1]; exact binary64_fl64 _
  · rw [gt_iff_lt, not_lt] at hc
    exact ⟨hb, by rw [abs_of_nonneg h0]; exact hc⟩

/-- The wrapped angle and the angle differ by whole turns of `2 * np.pi` and one rounding. -/
theorem wrapToPiF_congr {x : ℝ} (hx : Binary64 x) :
    ∃ k : ℤ, |(k : ℝ)| ≤ |x / (2 * fl64 π)| + 1 ∧
      |wrapToPiF fl64 x - (x - k * (2 * fl64 π))| ≤ 2 ^ (-51 : ℤ) := by
  obtain ⟨hb, h0, h1, k, hk, hkp, hkn, herr, _⟩ := pyModF_turn_spec hx
  have hT : 0 < 2 * fl64 π := by have := npPi_pos; linarith
  have hp := npPi_pos
  have hq : ∀ l : ℤ, |l - truncDiv x (2 * fl64 π)| ≤ 1 → |(l : ℝ)| ≤ |x / (2 * fl64 π)| + 1 := by
    intro l hl
    have h2 := abs_truncDiv_le (x := x) (y := 2 * fl64 π)
    have h3 : |((l - truncDiv x (2 * fl64 π) : ℤ) : ℝ)| ≤ 1 := by exact_mod_cast hl
    push_cast at h3
    calc |(l : ℝ)| = |(l - truncDiv x (2 * fl64 π) : ℝ) + truncDiv x (2 * fl64 π)| := by ring_nf
      _ ≤ |(l - truncDiv x (2 * fl64 π) : ℝ)| + |(truncDiv x (2 * fl64 π) : ℝ)| := abs_add_le _ _
      _ ≤ _ := by linarith
  -- removing one more turn stays within the bound
  have hk1 : pyModF fl64 x (2 * fl64 π) ≠ 0 → |k + 1 - truncDiv x (2 * fl64 π)| ≤ 1 := by
    intro hne
    rcases lt_or_ge x 0 with hx0 | hx0
    · rw [hkn hx0 hne]; simp
    · rw [hkp hx0]; simp
  have hsub : ∀ w : ℝ, w = pyModF fl64 x (2 * fl64 π) - 2 * fl64 π →
      |w - (x - ((k + 1 : ℤ) : ℝ) * (2 * fl64 π))| ≤ 2 ^ (-51 : ℤ) := by
    intro w hw
    have e : w - (x - ((k + 1 : ℤ) : ℝ) * (2 * fl64 π)) =
        pyModF fl64 x (2 * fl64 π) - (x - k * (2 * fl64 π)) := by rw [hw]; push_cast; ring
    rw [e]; exact herr
  rw [wrapToPiF_eq]
  split_ifs with ha hc
  · refine ⟨k + 1, hq _ (hk1 (by rw [ha.2]; exact hp.ne')), hsub _ ?_⟩
    rw [ha.2]; ring
  · rw [sub_turn_exact hb hc.le h1]
    exact ⟨k + 1, hq _ (hk1 (by linarith [hc])), hsub _ rfl⟩
  · exact ⟨k, hq _ hk, herr⟩

/-- Angles between zero and `np.pi` are not changed. -/
theorem wrapToPiF_nonneg {x : ℝ} (h0 : 0 ≤ x) (h1 : x ≤ fl64 π) : wrapToPiF fl64 x = x := by
  have hp := npPi_pos
  have hc : cFmod x (2 * fl64 π) = x := by
    rw [cFmod_eq]
    have : truncDiv x (2 * fl64 π) = 0 := by
      unfold truncDiv
      rw [if_pos (by positivity)]
      rw [Int.floor_eq_iff]
      push_cast
      refine ⟨by positivity, ?_⟩
      rw [div_lt_iff₀ (by linarith)]; linarith
    rw [this]; simp
  have hm : pyModF fl64 x (2 * fl64 π) = x := by
    rw [pyModF_turn, hc, if_neg (not_lt.2 h0)]
  rw [wrapToPiF_eq, hm, if_neg (fun h => absurd h.1 (not_lt.2 h0)), if_neg (not_lt.2 h1)]

theorem cFmod_neg_range {x : ℝ} (h0 : x < 0) (h1 : -fl64 π ≤ x) : cFmod x (2 * fl64 π) = x := by
  have hp := npPi_pos
  rw [cFmod_eq]
  have : truncDiv x (2 * fl64 π) = 0 := by
    unfold truncDiv
    rw [if_neg (not_le.2 (div_neg_of_neg_of_pos h0 (by linarith)))]
    rw [Int.ceil_eq_iff]
    push_cast
    refine ⟨?_, (div_neg_of_neg_of_pos h0 (by linarith)).le⟩
    rw [lt_div_iff₀ (by linarith)]; linarith
  rw [this]; simp

/-- Negative angles in range are moved by at most one rounding. -/
theorem wrapToPiF_neg_range {x : ℝ} (h0 : x < 0) (h1 : -fl64 π ≤ x) :
    wrapToPiF fl64 x = fl64 (x + 2 * fl64 π) - 2 * fl64 π := by
  have hp := npPi_pos
  have hm : pyModF fl64 x (2 * fl64 π) = fl64 (x + 2 * fl64 π) := by
    rw [pyModF_turn, cFmod_neg_range h0 h1, if_pos h0]
  have hge : fl64 π ≤ fl64 (x + 2 * fl64 π) := by
    calc fl64 π = fl64 (fl64 π) := (fl64_idem π).symm
      _ ≤ _ := fl64_mono (by linarith)
  have hle : fl64 (x + 2 * fl64 π) ≤ 2 * fl64 π := by
    calc fl64 (x + 2 * fl64 π) ≤ fl64 (2 * fl64 π) := fl64_mono (by linarith)
      _ = _ := fl64_two_pi
  rw [wrapToPiF_eq, hm]
  split_ifs with ha hc
  · rw [ha.2]; ring
  · rw [sub_turn_exact (binary64_fl64 _) hge hle]
  · exact absurd ⟨h0, le_antisymm (not_lt.1 hc) hge⟩ ha

theorem wrapToPiF_idem {x : ℝ} (hx : Binary64 x) :
    wrapToPiF fl64 (wrapToPiF fl64 x) = wrapToPiF fl64 x := by
  obtain ⟨hb, h0, h1, _⟩ := pyModF_turn_spec hx
  have hp := npPi_pos
  obtain ⟨w, hw⟩ : ∃ w, wrapToPiF fl64 x = w := ⟨_, rfl⟩
  have hmem := (wrapToPiF_mem hx).2
  rw [hw] at hmem ⊢
  rw [abs_le] at hmem
  rcases le_or_gt 0 w with hw0 | hw0
  · exact wrapToPiF_nonneg hw0 hmem.2
  · rw [wrapToPiF_neg_range hw0 hmem.1]
    rw [wrapToPiF_eq] at hw
    split_ifs at hw with ha hc
    · rw [← hw, show -fl64 π + 2 * fl64 π = fl64 π by ring, fl64_idem]; ring
    · rw [sub_turn_exact hb hc.le h1] at hw
      rw [← hw, sub_add_cancel, (binary64_iff _).1 hb]
    · linarith

end CrowdDynamics
