import Verif.Model.RoundedWalk
import Verif.Props.RoundedMotion
import Mathlib.Topology.Order.IntermediateValue

/-!
# Convergence of the velocity with rounding errors
-/

namespace CrowdDynamics

open Spec

/-- The roots of the characteristic polynomial of the recursion. -/
theorem walk_root {h : ℝ} (h0 : 0 ≤ h) (h1 : h ≤ 3 / 10) :
    ∃ b, 0 ≤ b ∧ b ≤ 1 / 4 ∧ b * (1 - h / 2 - b) = h / 2 := by
  have hc : ContinuousOn (fun b : ℝ => b * (1 - h / 2 - b)) (Set.Icc 0 (1 / 4)) := by fun_prop
  obtain ⟨b, ⟨hb0, hb1⟩, hb⟩ := intermediate_value_Icc (by norm_num) hc
    (show h / 2 ∈ Set.Icc _ _ from ⟨by norm_num; linarith, by norm_num; linarith⟩)
  exact ⟨b, hb0, hb1, hb⟩

/-- A disturbed recursion of second order. -/
theorem walk_bound {h e c d0 : ℝ} (h0 : 0 < h) (h1 : h ≤ 3 / 10) (he : 0 ≤ e) (hc0 : 0 ≤ c)
    (hc : 16 * c ≤ h) {D : ℕ → ℝ} (hD0 : D 0 = 0) (hD1 : |D 1| ≤ d0)
    (hD : ∀ j, |D (j + 2) - (D (j + 1) - h / 2 * (D (j + 1) + D j))| ≤
      e + c * (|D (j + 1)| + |D j|)) (j : ℕ) :
    |D (j + 1)| ≤ 2 * (1 - h) ^ j * d0 + (3 * e + 16 * c * d0) / h := by
  obtain ⟨b, hb0, hb1, hb⟩ := walk_root h0.le h1
  obtain ⟨l, hl⟩ : ∃ l, 1 - h / 2 - b = l := ⟨_, rfl⟩
  rw [hl] at hb
  have hl0 : 1 / 2 ≤ l := by linarith
  have hl1 : l ≤ 1 - h := by nlinarith
  have hd0 : 0 ≤ d0 := (abs_nonneg _).trans hD1
  obtain ⟨B, hB⟩ : ∃ B, 4 * d0 + 4 * (e / h) = B := ⟨_, rfl⟩
  have heh : 0 ≤ e / h := by positivity
  have hB0 : 0 ≤ B := by rw [← hB]; positivity
  obtain ⟨E, hE⟩ : ∃ E, e + 2 * c * B = E := ⟨_, rfl⟩
  have hE0 : 0 ≤ E := by rw [← hE]; positivity
  have hEh : E / h ≤ 3 / 2 * (e / h) + d0 / 2 := by
    rw [← hE, add_div]
    have : 2 * c * B / h ≤ B / 8 := by
      rw [div_le_iff₀ h0]
      nlinarith
    linarith
  have hEh0 : 0 ≤ E / h := by positivity
  have hEe : E / h * h = E := div_mul_cancel₀ _ h0.ne'
  -- the difference that shrinks
  have step : ∀ j, D (j + 2) - b * D (j + 1) = l * (D (j + 1) - b * D j) +
      (D (j + 2) - (D (j + 1) - h / 2 * (D (j + 1) + D j))) := by
    intro j
    have e1 : h / 2 = b * l := hb.symm
    have e2 : h = 2 * (b * l) := by linarith
    have e3 : 1 - b * l - b = l := by rw [← e1]; exact hl
    rw [e1]
    linear_combination (D (j + 1)) * e3
  have bound : ∀ j, |D j| ≤ B ∧ |D (j + 1)| ≤ B ∧ |D (j + 1) - b * D j| ≤ d0 + E / h := by
    intro j
    induction j with
    | zero =>
      rw [hD0, mul_zero, sub_zero, abs_zero]
      refine ⟨hB0, hD1.trans ?_, hD1.trans ?_⟩ <;> linarith
    | succ j ih =>
      obtain ⟨i1, i2, i3⟩ := ih
      have hp : |D (j + 2) - b * D (j + 1)| ≤ d0 + E / h := by
        rw [step j]
        refine (abs_add_le _ _).trans ?_
        rw [abs_mul, abs_of_nonneg (by linarith : (0 : ℝ) ≤ l)]
        have a1 := mul_le_mul_of_nonneg_left i3 (by linarith : (0 : ℝ) ≤ l)
        have a2 := mul_le_mul_of_nonneg_left (add_le_add i2 i1) hc0
        have a3 := hD j
        have a4 : l * (d0 + E / h) ≤ (1 - h) * (d0 + E / h) :=
          mul_le_mul_of_nonneg_right hl1 (by positivity)
        nlinarith
      refine ⟨i2, ?_, hp⟩
      have : D (j + 1 + 1) = b * D (j + 1) + (D (j + 2) - b * D (j + 1)) := by ring
      rw [this]
      refine (abs_add_le _ _).trans ?_
      rw [abs_mul, abs_of_nonneg hb0]
      have := mul_le_mul hb1 i2 (abs_nonneg _) (by norm_num)
      linarith
  have hr : ∀ j, |D (j + 2) - (D (j + 1) - h / 2 * (D (j + 1) + D j))| ≤ E := by
    intro j
    obtain ⟨i1, i2, -⟩ := bound j
    have a2 := mul_le_mul_of_nonneg_left (add_le_add i2 i1) hc0
    have a3 := hD j
    linarith
  have hpl : ∀ j, 0 ≤ l ^ j * d0 := fun j => mul_nonneg (pow_nonneg (by linarith) _) hd0
  have decay : ∀ j, |D (j + 1) - b * D j| ≤ l ^ j * d0 + E / h := by
    intro j
    induction j with
    | zero =>
      rw [hD0, mul_zero, sub_zero, pow_zero, one_mul]
      linarith
    | succ j ih =>
      rw [step j]
      refine (abs_add_le _ _).trans ?_
      rw [abs_mul, abs_of_nonneg (by linarith : (0 : ℝ) ≤ l)]
      have a1 := mul_le_mul_of_nonneg_left ih (by linarith : (0 : ℝ) ≤ l)
      have a4 : l * (E / h) ≤ (1 - h) * (E / h) := mul_le_mul_of_nonneg_right hl1 hEh0
      have a3 := hr j
      rw [pow_succ]
      nlinarith
  have final : |D (j + 1)| ≤ 2 * (l ^ j * d0) + 2 * (E / h) := by
    induction j with
    | zero =>
      rw [pow_zero, one_mul]
      linarith
    | succ j ih =>
      have : D (j + 1 + 1) = b * D (j + 1) + (D (j + 2) - b * D (j + 1)) := by ring
      rw [this]
      refine (abs_add_le _ _).trans ?_
      rw [abs_mul, abs_of_nonneg hb0]
      have a1 := mul_le_mul_of_nonneg_left ih hb0
      have a2 := decay (j + 1)
      have a3 : b * (2 * (l ^ j * d0)) ≤ l ^ (j + 1) * d0 := by
        rw [pow_succ]
        have := mul_le_mul_of_nonneg_right (by linarith : 2 * b ≤ l) (hpl j)
        nlinarith
      have a4 := mul_le_mul_of_nonneg_right hb1 hEh0
      nlinarith
  have hpow : l ^ j * d0 ≤ (1 - h) ^ j * d0 :=
    mul_le_mul_of_nonneg_right (pow_le_pow_left₀ (by linarith) hl1 _) hd0
  have hlast : 2 * (E / h) ≤ (3 * e + 16 * c * d0) / h := by
    rw [← mul_div_assoc]
    refine div_le_div_of_nonneg_right ?_ h0.le
    rw [← hE, ← hB]
    have : c * (e / h) ≤ e / 16 := by
      rw [mul_div_assoc', div_le_iff₀ h0]
      nlinarith
    nlinarith
  linarith

theorem binary64_sub_grid {x y : ℝ} (hx : Binary64 x) (hy : Binary64 y) :
    ∃ n : ℤ, x - y = n * (2 : ℝ) ^ (-1074 : ℤ) := by
  obtain ⟨a, ha⟩ := binary64_grid hx
  obtain ⟨b, hb⟩ := binary64_grid hy
  refine ⟨a - b, ?_⟩
  push_cast
  linarith

/-- The rounded acceleration of the adjusting force. -/
theorem adjust_err {m τ v0 e v : ℝ} (hm : (2 : ℝ) ^ (-100 : ℤ) ≤ m) (hτ0 : 0 < τ)
    (hτ : τ ≤ 2 ^ (100 : ℤ)) (hv : Binary64 v) :
    |forceAdjustF fl64 m τ v0 e v / m - (fl64 (v0 * e) - v) / τ| ≤
      2 ^ (-51 : ℤ) * |fl64 (v0 * e) - v| / τ + 2 ^ (-970 : ℤ) := by
  have hm0 : 0 < m := (two_zpow_pos _).trans_le hm
  unfold forceAdjustF
  obtain ⟨d, hd⟩ : ∃ d, fl64 (v0 * e) - v = d := ⟨_, rfl⟩
  have r2 : |fl64 d - d| ≤ |d| * 2 ^ (-53 : ℤ) := by
    rw [← hd]
    exact fl64_err_grid (binary64_sub_grid (binary64_fl64 _) hv)
  rw [hd]
  obtain ⟨M, hM⟩ : ∃ M, m / τ = M := ⟨_, rfl⟩
  have hM0 : 0 < M := by rw [← hM]; positivity
  have r1 : |fl64 M - M| ≤ M * 2 ^ (-53 : ℤ) := by
    have hM1 : (2 : ℝ) ^ (-200 : ℤ) ≤ M := by
      rw [← hM, le_div_iff₀ hτ0]
      calc (2 : ℝ) ^ (-200 : ℤ) * τ ≤ 2 ^ (-200 : ℤ) * 2 ^ (100 : ℤ) :=
            mul_le_mul_of_nonneg_left hτ (two_zpow_pos _).le
        _ = 2 ^ (-100 : ℤ) := by rw [← zpow_add₀ (by norm_num)]; norm_num
        _ ≤ m := hm
    have := fl64_err_rel (x := M) (by
      rw [abs_of_pos hM0]
      exact (zpow_le_zpow_right₀ (by norm_num) (by norm_num)).trans hM1)
    rwa [abs_of_pos hM0] at this
  have r3 := fl64_err_gen (fl64 M * fl64 d)
  rw [hM]
  obtain ⟨F, hF⟩ : ∃ F, fl64 (fl64 M * fl64 d) = F := ⟨_, rfl⟩
  rw [hF] at r3 ⊢
  obtain ⟨K, hK⟩ : ∃ K, fl64 M = K := ⟨_, rfl⟩
  obtain ⟨d', hd'⟩ : ∃ d', fl64 d = d' := ⟨_, rfl⟩
  rw [hK] at r1 r3
  rw [hd'] at r2 r3
  obtain ⟨t, ht⟩ : ∃ t, (2 : ℝ) ^ (-1075 : ℤ) = t := ⟨_, rfl⟩
  have ht0 : 0 < t := by rw [← ht]; exact two_zpow_pos _
  rw [ht] at r3
  obtain ⟨U, hU⟩ : ∃ U, (2 : ℝ) ^ (-53 : ℤ) = U := ⟨_, rfl⟩
  have hU0 : 0 < U := by rw [← hU]; exact two_zpow_pos _
  have hU1 : U ≤ 1 / 1000 := by rw [← hU]; norm_num
  rw [hU] at r1 r2 r3
  have k1 : |K| ≤ M * (1 + U) := by
    have := abs_add_le (K - M) M
    rw [sub_add_cancel, abs_of_pos hM0] at this
    linarith
  have k2 : |d'| ≤ |d| * (1 + U) := by
    have := abs_add_le (d' - d) d
    rw [sub_add_cancel] at this
    linarith
  obtain ⟨A, hA⟩ : ∃ A, |d| = A := ⟨_, rfl⟩
  have hA0 : 0 ≤ A := by rw [← hA]; exact abs_nonneg d
  rw [hA] at r2 k2
  have hMA : 0 ≤ M * A := by positivity
  have k3 : |K * d'| ≤ M * (1 + U) * (A * (1 + U)) := by
    rw [abs_mul]
    exact mul_le_mul k1 k2 (abs_nonneg _) (by positivity)
  have k4 : |K * d' - M * d| ≤ M * U * (A * (1 + U)) + M * (A * U) := by
    rw [show K * d' - M * d = (K - M) * d' + M * (d' - d) by ring]
    refine (abs_add_le _ _).trans ?_
    rw [abs_mul, abs_mul, abs_of_pos hM0]
    exact add_le_add (mul_le_mul r1 k2 (abs_nonneg _) (by positivity))
      (mul_le_mul_of_nonneg_left r2 hM0.le)
  have k5 : |F - M * d| ≤ 4 * U * (M * A) + t := by
    have := abs_add_le (F - K * d') (K * d' - M * d)
    rw [sub_add_sub_cancel] at this
    have k6 := mul_le_mul_of_nonneg_right k3 hU0.le
    have k7 : M * (1 + U) * (A * (1 + U)) * U + (M * U * (A * (1 + U)) + M * (A * U)) ≤
        4 * U * (M * A) := by
      have : (1 + U) * (1 + U) + (1 + U) + 1 ≤ 4 := by nlinarith
      have := mul_le_mul_of_nonneg_left this (by positivity : 0 ≤ U * (M * A))
      nlinarith
    linarith
  have e1 : F / m - d / τ = (F - M * d) / m := by
    rw [← hM]
    field_simp
  rw [e1, abs_div, abs_of_pos hm0, div_le_iff₀ hm0]
  refine k5.trans ?_
  have e2 : (2 ^ (-51 : ℤ) * A / τ + 2 ^ (-970 : ℤ)) * m =
      4 * U * (M * A) + 2 ^ (-970 : ℤ) * m := by
    rw [← hM, ← hU]
    norm_num
    field_simp
  rw [hA, e2]
  have e3 : t ≤ 2 ^ (-970 : ℤ) * m := by
    calc t ≤ 2 ^ (-970 : ℤ) * 2 ^ (-100 : ℤ) := by
          rw [← ht, ← zpow_add₀ (by norm_num)]
          exact zpow_le_zpow_right₀ (by norm_num) (by norm_num)
      _ ≤ _ := mul_le_mul_of_nonneg_left hm (two_zpow_pos _).le
  linarith

/-- The error of one step of the velocity. -/
theorem walk_err {dt τ h η q z o w x y u v v' : ℝ} (hτ : 0 < τ) (hdt0 : 0 < dt) (hdt : dt ≤ 1)
    (hd : dt = h * τ) (hh0 : 0 ≤ h) (hh : h ≤ 3 / 10) (hq0 : 0 < q) (hq : q ≤ 1 / 1000)
    (hη : 0 ≤ η) (a0 : |o - x / τ| ≤ q / 4 * |x| / τ + η) (a1 : |w - y / τ| ≤ q / 4 * |y| / τ + η)
    (s : |v' - (v + (o + w) / 2 * dt)| ≤ q * (|v| + (|o| + |w|) / 2 * dt) + z) (hv : v = u - y) :
    |u - v' - (y - h / 2 * (y + x))| ≤ q * |u| + (4 * η + z) + 2 * q * (|y| + |x|) := by
  have scale : ∀ o x : ℝ, |o - x / τ| ≤ q / 4 * |x| / τ + η →
      |o * dt - h * x| ≤ q / 4 * (h * |x|) + η := by
    intro o x a
    have e1 : o * dt - h * x = (o - x / τ) * dt := by
      rw [hd]
      field_simp
    have e2 : (q / 4 * |x| / τ + η) * dt = q / 4 * (h * |x|) + η * dt := by
      rw [hd]
      field_simp
    rw [e1, abs_mul, abs_of_pos hdt0]
    have := mul_le_mul_of_nonneg_right a hdt0.le
    rw [e2] at this
    have := mul_le_mul_of_nonneg_left hdt hη
    linarith
  have size : ∀ O x : ℝ, |O - h * x| ≤ q / 4 * (h * |x|) + η → |O| ≤ 4 / 10 * |x| + η := by
    intro O x a
    have := abs_add_le (O - h * x) (h * x)
    rw [sub_add_cancel, abs_mul, abs_of_nonneg hh0] at this
    have hx := abs_nonneg x
    have c := mul_le_mul_of_nonneg_right hh hx
    have c2 : q / 4 * (h * |x|) ≤ 1 / 1000 * (3 / 10 * |x|) :=
      mul_le_mul (by linarith) c (by positivity) (by norm_num)
    linarith
  have b0 := scale o x a0
  have b1 := scale w y a1
  have c0 := size _ _ b0
  have c1 := size _ _ b1
  rw [abs_mul, abs_of_pos hdt0] at c0 c1
  have hx := abs_nonneg x
  have hy := abs_nonneg y
  have d0 := mul_le_mul_of_nonneg_right hh hx
  have d1 := mul_le_mul_of_nonneg_right hh hy
  have e0 : q / 4 * (h * |x|) ≤ q / 4 * (3 / 10 * |x|) :=
    mul_le_mul_of_nonneg_left d0 (by linarith)
  have e1 : q / 4 * (h * |y|) ≤ q / 4 * (3 / 10 * |y|) :=
    mul_le_mul_of_nonneg_left d1 (by linarith)
  have hv1 : |v| ≤ |u| + |y| := by
    rw [hv]
    exact abs_sub _ _
  have s1 : |v' - (v + (o + w) / 2 * dt)| ≤
      q * (|u| + |y| + (4 / 10 * |x| + η + (4 / 10 * |y| + η)) / 2) + z := by
    refine s.trans (add_le_add (mul_le_mul_of_nonneg_left ?_ hq0.le) le_rfl)
    have : (|o| + |w|) / 2 * dt = (|o| * dt + |w| * dt) / 2 := by ring
    rw [this]
    linarith
  have split : u - v' - (y - h / 2 * (y + x)) =
      -(v' - (v + (o + w) / 2 * dt)) - ((o * dt - h * x) / 2 + (w * dt - h * y) / 2) := by
    rw [hv]
    ring
  rw [split]
  refine (abs_sub _ _).trans ?_
  rw [abs_neg]
  have t1 : |(o * dt - h * x) / 2 + (w * dt - h * y) / 2| ≤
      (q / 4 * (3 / 10 * |x|) + η) / 2 + (q / 4 * (3 / 10 * |y|) + η) / 2 := by
    refine (abs_add_le _ _).trans ?_
    rw [abs_div, abs_div, abs_of_pos (by norm_num : (0 : ℝ) < 2)]
    linarith
  have qx := mul_nonneg hq0.le hx
  have qy := mul_nonneg hq0.le hy
  have qη : q * η ≤ η := by nlinarith
  nlinarith

/-- Velocities and previous forces of an undisturbed walk, in one coordinate. -/
structure WalkSeq (dt m τ v0 e : ℝ) (V P : ℕ → ℝ) : Prop where
  float : ∀ j, Binary64 (V j)
  first : P 0 = 0
  force : ∀ j, P (j + 1) = forceAdjustF fl64 m τ v0 e (V j)
  speed : ∀ j, |V (j + 1) - (V j + (P j / m + P (j + 1) / m) / 2 * dt)| ≤
    2 ^ (-49 : ℤ) * (|V j| + (|P j / m| + |P (j + 1) / m|) / 2 * dt) + 2 ^ (-1070 : ℤ)

theorem walkSeq_bound {dt m τ v0 e : ℝ} {V P : ℕ → ℝ} (H : WalkSeq dt m τ v0 e V P)
    (hm : (2 : ℝ) ^ (-100 : ℤ) ≤ m) (hτ0 : 0 < τ) (hτ : τ ≤ 2 ^ (100 : ℤ)) (hdt0 : 0 < dt)
    (hdt : dt ≤ 1) (hlo : (2 : ℝ) ^ (-40 : ℤ) ≤ dt / τ) (hhi : dt / τ ≤ 3 / 10) (j : ℕ) :
    |V j - fl64 (v0 * e)| ≤ 2 * (1 - dt / τ) ^ j * |V 0 - fl64 (v0 * e)| +
      (3 * (2 ^ (-49 : ℤ) * |fl64 (v0 * e)| + 2 ^ (-900 : ℤ)) +
        16 * 2 ^ (-48 : ℤ) * |V 0 - fl64 (v0 * e)|) / (dt / τ) := by
  obtain ⟨u, hu⟩ : ∃ u, fl64 (v0 * e) = u := ⟨_, rfl⟩
  obtain ⟨D, hD⟩ : ∃ D : ℕ → ℝ, D = fun j => if j = 0 then 0 else u - V (j - 1) := ⟨_, rfl⟩
  have D0 : D 0 = 0 := by rw [hD]; rfl
  have D1 : ∀ j, D (j + 1) = u - V j := fun j => by rw [hD]; simp
  obtain ⟨h, hh⟩ : ∃ h, dt / τ = h := ⟨_, rfl⟩
  have hh0 : 0 < h := by rw [← hh]; positivity
  have hdh : dt = h * τ := by rw [← hh]; field_simp
  obtain ⟨η, hη⟩ : ∃ η, (2 : ℝ) ^ (-970 : ℤ) = η := ⟨_, rfl⟩
  have hη0 : 0 < η := by rw [← hη]; exact two_zpow_pos _
  have tiny : 4 * η + 2 ^ (-1070 : ℤ) ≤ 2 ^ (-900 : ℤ) := by
    rw [← hη]
    have h1 : (2 : ℝ) ^ (-1070 : ℤ) ≤ 2 ^ (-970 : ℤ) :=
      zpow_le_zpow_right₀ (by norm_num) (by norm_num)
    have h2 : (2 : ℝ) ^ (-970 : ℤ) * 8 ≤ 2 ^ (-900 : ℤ) := by
      rw [show (8 : ℝ) = 2 ^ (3 : ℤ) by norm_num, ← zpow_add₀ (by norm_num)]
      exact zpow_le_zpow_right₀ (by norm_num) (by norm_num)
    have h3 := two_zpow_pos (-970)
    linarith
  -- accelerations
  have acc : ∀ j, |P j / m - D j / τ| ≤ 2 ^ (-51 : ℤ) * |D j| / τ + η := by
    intro j
    cases j with
    | zero =>
      rw [H.first, D0]
      simp only [zero_div, sub_zero, abs_zero, mul_zero, zero_add]
      exact hη0.le
    | succ j =>
      rw [H.force, D1, ← hu, ← hη]
      exact adjust_err hm hτ0 hτ (H.float j)
  have key : ∀ j, |D (j + 2) - (D (j + 1) - h / 2 * (D (j + 1) + D j))| ≤
      (2 ^ (-49 : ℤ) * |u| + 2 ^ (-900 : ℤ)) + 2 ^ (-48 : ℤ) * (|D (j + 1)| + |D j|) := by
    intro j
    have s := H.speed j
    have a0 := acc j
    have a1 := acc (j + 1)
    obtain ⟨o, ho⟩ : ∃ o, P j / m = o := ⟨_, rfl⟩
    obtain ⟨w, hw⟩ : ∃ w, P (j + 1) / m = w := ⟨_, rfl⟩
    rw [ho] at a0
    rw [hw] at a1
    rw [ho, hw] at s
    have hv : V j = u - D (j + 1) := by rw [D1]; ring
    rw [D1 (j + 1)]
    refine (walk_err hτ0 hdt0 hdt hdh hh0.le (hh ▸ hhi) (two_zpow_pos (-49)) (by norm_num) hη0.le
      (a0.trans (le_of_eq ?_)) (a1.trans (le_of_eq ?_)) s hv).trans ?_
    · norm_num
    · norm_num
    · have p1 : (2 : ℝ) ^ (-48 : ℤ) = 2 * 2 ^ (-49 : ℤ) := by norm_num
      rw [p1]
      linarith
  have main := walk_bound (d0 := |V 0 - u|) hh0 (hh ▸ hhi)
    (by positivity : (0 : ℝ) ≤ 2 ^ (-49 : ℤ) * |u| + 2 ^ (-900 : ℤ)) (two_zpow_pos (-48)).le
    (by
      refine le_trans ?_ (hh ▸ hlo)
      norm_num) D0 (by rw [D1, abs_sub_comm]) key j
  rw [D1, abs_sub_comm] at main
  rw [hu, hh]
  exact main

end CrowdDynamics
