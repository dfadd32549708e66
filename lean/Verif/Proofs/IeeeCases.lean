import Verif.Proofs.IeeeLength
import Verif.Props.CoreTests

/-!
# Cases and helper lemmas for `Verif.Props.Ieee`
-/

namespace CrowdDynamics

open Spec Real

theorem small_pow {k n : ℤ} (h : -1074 ≤ n) (hk : n ≤ k) : SmallFloat k (2 ^ n) :=
  ⟨fl64_two_zpow h, by rw [abs_of_pos (two_zpow_pos n)]; exact p_le hk⟩

theorem small_neg {k : ℤ} {x : ℝ} (h : SmallFloat k x) : SmallFloat k (-x) :=
  ⟨by rw [fl64_neg, h.1], by rw [abs_neg]; exact h.2⟩

theorem small_zero {k : ℤ} : SmallFloat k 0 :=
  ⟨fl64_zero, by rw [abs_zero]; exact (two_zpow_pos k).le⟩

theorem small_of_mul {k m e : ℤ} (hm : |m| < 2 ^ 53) (he : -1074 ≤ e)
    (h : |(m : ℝ) * 2 ^ e| ≤ 2 ^ k) : SmallFloat k ((m : ℝ) * 2 ^ e) := ⟨fl64_of_mul hm he, h⟩

theorem small_one : SmallFloat 20 1 := by
  simpa using small_pow (k := 20) (n := 0) (by norm_num) (by norm_num)

theorem small_half : SmallFloat 10 (1 / 2) := by
  have := small_pow (k := 10) (n := -1) (by norm_num) (by norm_num)
  norm_num at this ⊢
  exact this

theorem small_eighty : SmallFloat 10 80 := by
  have := small_of_mul (k := 10) (m := 80) (e := 0) (by norm_num) (by norm_num) (by norm_num [abs_le])
  norm_num at this
  exact this

theorem small_one_half : SmallFloat 10 1.5 := by
  have := small_of_mul (k := 10) (m := 3) (e := -1) (by norm_num) (by norm_num) (by norm_num [abs_le])
  norm_num at this ⊢
  exact this

theorem small_three : SmallFloat 10 3 ∧ (2 : ℝ) ^ (-10 : ℤ) ≤ 3 := by
  have := small_of_mul (k := 10) (m := 3) (e := 0) (by norm_num) (by norm_num) (by norm_num [abs_le])
  norm_num at this ⊢
  exact this

theorem slider_small {T : ℤ} (h0 : 0 ≤ T) (h1 : T ≤ 50) : SmallAgent (slider T) where
  position := ⟨small_one, small_zero⟩
  velocity := ⟨small_neg ⟨fl_creep, by
      rw [abs_of_pos (show (0 : ℝ) < 1048577 * 2 ^ (-550 : ℤ) from creep_pos)]
      exact creep_lt.le.trans (p_le (by norm_num))⟩, small_pow (by omega) (by omega)⟩
  radius := small_half
  mass := small_eighty
  kSoc := small_one_half
  tau0 := small_three

theorem stander_small : SmallAgent stander where
  position := ⟨small_zero, small_zero⟩
  velocity := ⟨small_zero, small_zero⟩
  radius := small_half
  mass := small_eighty
  kSoc := small_one_half
  tau0 := small_three

/-- An agent that walks towards the origin. -/
noncomputable def comer : Agent :=
  { Agent.zero with
    position := (2, 1)
    velocity := (-(5 / 4), -(1 / 2))
    radius := 1 / 4
    mass := 73.5
    kSoc := 1.5
    tau0 := 3 }

theorem moderate_of {k m : ℤ} {x : ℝ} (h : |x| ≤ 2 ^ k) (hm : x = m / 2 ^ 60) :
    ModerateNumber k x := ⟨h, m, by rw [hm]; norm_num; ring⟩

theorem comer_moderate : ModerateAgent comer where
  position := ⟨moderate_of (m := 2 * 2 ^ 60) (by norm_num [comer, abs_le]) (by norm_num [comer]),
    moderate_of (m := 2 ^ 60) (by norm_num [comer, abs_le]) (by norm_num [comer])⟩
  velocity := ⟨moderate_of (m := -5 * 2 ^ 58) (by norm_num [comer, abs_le]) (by norm_num [comer]),
    moderate_of (m := -2 ^ 59) (by norm_num [comer, abs_le]) (by norm_num [comer])⟩
  radius := moderate_of (m := 2 ^ 58) (by norm_num [comer, abs_le]) (by norm_num [comer])
  mass := by norm_num [comer, abs_le]
  kSoc := by norm_num [comer, abs_le]
  tau0 := by norm_num [comer]

theorem stander_moderate : ModerateAgent stander where
  position := ⟨moderate_of (m := 0) (by norm_num [stander]) (by norm_num [stander]),
    moderate_of (m := 0) (by norm_num [stander]) (by norm_num [stander])⟩
  velocity := ⟨moderate_of (m := 0) (by norm_num [stander]) (by norm_num [stander]),
    moderate_of (m := 0) (by norm_num [stander]) (by norm_num [stander])⟩
  radius := moderate_of (m := 2 ^ 59) (by norm_num [stander, abs_le]) (by norm_num [stander])
  mass := by norm_num [stander, abs_le]
  kSoc := by norm_num [stander, abs_le]
  tau0 := by norm_num [stander]

theorem sane_machine : SaneExp Arith.machine.exp := by
  intro x hx
  have f1 : fl64 1 = 1 := by simpa using fl64_int (n := 1) (by norm_num)
  refine ⟨fl64_nonneg (Real.exp_pos x).le, ?_⟩
  have := fl64_mono (Real.exp_le_one_iff.2 hx)
  rwa [f1] at this

end CrowdDynamics
