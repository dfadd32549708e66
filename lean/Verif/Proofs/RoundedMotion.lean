import Verif.Model.RoundedMotion
import Verif.Proofs.RoundedGrid
import Verif.Props.RoundedAngles

/-!
# The motion of agents with rounding
-/

namespace CrowdDynamics

open Spec Real

/-- Unit roundoff. -/
noncomputable def uu : ℝ := 2 ^ (-53 : ℤ)

/-- Half of the smallest positive number. -/
noncomputable def eta : ℝ := 2 ^ (-1075 : ℤ)

theorem uu_pos : 0 < uu := two_zpow_pos _
theorem eta_pos : 0 < eta := two_zpow_pos _

theorem uu_small : 2 ^ 40 * uu ≤ 1 := by unfold uu; norm_num

/-- One more rounding: the error grows by two units. -/
theorem fl_err_step {y Y S c k : ℝ} (hY : |Y| ≤ S) (h : |y - Y| ≤ c * S * uu + k * eta)
    (hc : c ≤ 2 ^ 40) (hk : k ≤ 2 ^ 40) :
    |fl64 y - Y| ≤ (c + 2) * S * uu + (k + 2) * eta := by
  have hu := uu_pos
  have he := eta_pos
  have hus := uu_small
  have hS : 0 ≤ S := (abs_nonneg _).trans hY
  have e1 : |fl64 y - y| ≤ |y| * uu + eta := fl64_err_gen y
  have hy : |y| ≤ S + (c * S * uu + k * eta) := by
    calc |y| = |Y + (y - Y)| := by congr 1; ring
      _ ≤ _ := (abs_add_le _ _).trans (add_le_add hY h)
  have h1 : c * uu ≤ 1 := (mul_le_mul_of_nonneg_right hc hu.le).trans hus
  have h2 : k * uu ≤ 1 := (mul_le_mul_of_nonneg_right hk hu.le).trans hus
  have h3 : c * S * uu * uu ≤ S * uu := by
    have := mul_le_mul_of_nonneg_right h1 (mul_nonneg hS hu.le)
    linarith
  have h4 : k * eta * uu ≤ eta := by
    have := mul_le_mul_of_nonneg_right h2 he.le
    linarith
  have h5 := mul_le_mul_of_nonneg_right hy hu.le
  calc |fl64 y - Y| = |(fl64 y - y) + (y - Y)| := by congr 1; ring
    _ ≤ (|y| * uu + eta) + (c * S * uu + k * eta) := (abs_add_le _ _).trans (add_le_add e1 h)
    _ ≤ _ := by linarith

/-- Rounding of a single number. -/
theorem fl_err_one (Y : ℝ) : |fl64 Y - Y| ≤ 2 * |Y| * uu + 2 * eta := by
  have := fl_err_step (y := Y) (Y := Y) (c := 0) (k := 0) le_rfl (by simp) (by norm_num)
    (by norm_num)
  simpa using this

/-- The product with a number of at most one. -/
theorem err_mul {y Y S c k t : ℝ} (h : |y - Y| ≤ c * S * uu + k * eta) (ht : 0 ≤ t) (ht1 : t ≤ 1)
    (hk : 0 ≤ k) : |y * t - Y * t| ≤ c * (S * t) * uu + k * eta := by
  rw [← sub_mul, abs_mul, abs_of_nonneg ht]
  calc |y - Y| * t ≤ (c * S * uu + k * eta) * t := mul_le_mul_of_nonneg_right h ht
    _ = c * (S * t) * uu + k * eta * t := by ring
    _ ≤ c * (S * t) * uu + k * eta * 1 := by
      have := mul_le_mul_of_nonneg_left ht1 (mul_nonneg hk eta_pos.le)
      linarith
    _ = _ := by ring

/-- A sum of two terms. -/
theorem err_add {x X S c k y Y T d l e : ℝ} (h : |x - X| ≤ c * S * uu + k * eta)
    (h' : |y - Y| ≤ d * T * uu + l * eta) (hS : 0 ≤ S) (hT : 0 ≤ T) (hc : c ≤ e) (hd : d ≤ e) :
    |x + y - (X + Y)| ≤ e * (S + T) * uu + (k + l) * eta := by
  have hu := uu_pos
  have h1 := mul_le_mul_of_nonneg_right hc (mul_nonneg hS hu.le)
  have h2 := mul_le_mul_of_nonneg_right hd (mul_nonneg hT hu.le)
  calc |x + y - (X + Y)| = |(x - X) + (y - Y)| := by congr 1; ring
    _ ≤ (c * S * uu + k * eta) + (d * T * uu + l * eta) :=
        (abs_add_le _ _).trans (add_le_add h h')
    _ ≤ _ := by linarith

theorem fl_sq {dt : ℝ} (h0 : (2 : ℝ) ^ (-500 : ℤ) ≤ dt) :
    |fl64 (dt * dt) - dt * dt| ≤ dt * dt * uu := by
  have hp : 0 < dt := (two_zpow_pos _).trans_le h0
  have h : (2 : ℝ) ^ (-1022 : ℤ) ≤ |dt * dt| := by
    rw [abs_of_pos (mul_pos hp hp)]
    calc (2 : ℝ) ^ (-1022 : ℤ) ≤ 2 ^ (-500 : ℤ) * 2 ^ (-500 : ℤ) := by
          rw [← zpow_add₀ (by norm_num)]
          exact zpow_le_zpow_right₀ (by norm_num) (by norm_num)
      _ ≤ _ := mul_le_mul h0 h0 (two_zpow_pos _).le hp.le
  have := fl64_err_rel h
  rwa [abs_of_pos (mul_pos hp hp)] at this

/-- The term of the acceleration, of a force over a mass. -/
theorem halfSquare_err {dt : ℝ} (alpha : ℝ) (h0 : (2 : ℝ) ^ (-500 : ℤ) ≤ dt) (h1 : dt ≤ 1) :
    |halfSquareF fl64 dt (fl64 alpha) - alpha / 2 * dt ^ 2| ≤
      11 * |alpha / 2 * dt ^ 2| * uu + 8 * eta := by
  have hu := uu_pos
  have he := eta_pos
  have hus := uu_small
  have hp : 0 < dt := (two_zpow_pos _).trans_le h0
  have a1 := fl_err_one alpha
  have a2 : |fl64 (fl64 alpha / 2) - alpha / 2| ≤ 4 * |alpha / 2| * uu + 3 * eta := by
    have := fl_err_step (y := fl64 alpha / 2) (Y := alpha / 2) (S := |alpha / 2|) (c := 2) (k := 1)
      le_rfl (by
        rw [← sub_div, abs_div, abs_div, abs_of_pos (by norm_num : (0 : ℝ) < 2)]
        linarith) (by norm_num) (by norm_num)
    norm_num at this ⊢
    exact this
  have a3 := fl_sq h0
  unfold halfSquareF
  obtain ⟨s, hs⟩ : ∃ s, fl64 (dt * dt) = s := ⟨_, rfl⟩
  obtain ⟨g, hg⟩ : ∃ g, fl64 (fl64 alpha / 2) = g := ⟨_, rfl⟩
  rw [hs] at a3 ⊢
  rw [hg] at a2 ⊢
  have hd2 : 0 ≤ dt * dt := mul_nonneg hp.le hp.le
  have hd1 : dt * dt ≤ 1 := by nlinarith
  have hs2 : |s| ≤ 2 * (dt * dt) := by
    have h := abs_le.1 a3
    have : dt * dt * uu ≤ dt * dt := by nlinarith
    rw [abs_le]; constructor <;> linarith
  have hs1 : |s| ≤ 2 := hs2.trans (by linarith)
  have key : |g * s - alpha / 2 * (dt * dt)| ≤ 9 * |alpha / 2 * (dt * dt)| * uu + 6 * eta := by
    calc |g * s - alpha / 2 * (dt * dt)|
        = |(g - alpha / 2) * s + alpha / 2 * (s - dt * dt)| := by congr 1; ring
      _ ≤ |g - alpha / 2| * |s| + |alpha / 2| * |s - dt * dt| := by
          refine (abs_add_le _ _).trans_eq ?_
          rw [abs_mul, abs_mul]
      _ ≤ (4 * |alpha / 2| * uu * (2 * (dt * dt)) + 3 * eta * 2) +
          |alpha / 2| * (dt * dt * uu) := by
          refine add_le_add ?_ (mul_le_mul_of_nonneg_left a3 (abs_nonneg _))
          refine (mul_le_mul_of_nonneg_right a2 (abs_nonneg _)).trans ?_
          rw [add_mul]
          refine add_le_add (mul_le_mul_of_nonneg_left hs2 (by positivity))
            (mul_le_mul_of_nonneg_left hs1 (by positivity))
      _ = 9 * |alpha / 2 * (dt * dt)| * uu + 6 * eta := by
          rw [abs_mul, abs_of_nonneg hd2]; ring
  have := fl_err_step le_rfl key (by norm_num) (by norm_num)
  rw [sq]
  norm_num at this ⊢
  exact this

/-- The new coordinate, from an approximate velocity. -/
theorem move_err {dt x v V W c k : ℝ} (alpha : ℝ) (h0 : (2 : ℝ) ^ (-500 : ℤ) ≤ dt) (h1 : dt ≤ 1)
    (hv : |v - V| ≤ c * W * uu + k * eta) (hVW : |V| ≤ W) (hc : 9 ≤ c) (hc' : c ≤ 2 ^ 30)
    (hk : 0 ≤ k) (hk' : k ≤ 2 ^ 30) :
    |fl64 (x + fl64 (fl64 (v * dt) + halfSquareF fl64 dt (fl64 alpha))) -
        (x + (V * dt + alpha / 2 * dt ^ 2))| ≤
      (c + 6) * (|x| + (W * dt + |alpha / 2 * dt ^ 2|)) * uu + (k + 14) * eta := by
  have hp : 0 < dt := (two_zpow_pos _).trans_le h0
  have hW : 0 ≤ W := (abs_nonneg _).trans hVW
  have hVd : |V * dt| ≤ W * dt := by
    rw [abs_mul, abs_of_pos hp]; exact mul_le_mul_of_nonneg_right hVW hp.le
  have b1 := fl_err_step hVd (err_mul hv hp.le h1 hk) (by linarith) (by linarith)
  have b2 := halfSquare_err alpha h0 h1
  have b3 := err_add b1 b2 (mul_nonneg hW hp.le) (abs_nonneg _) le_rfl (by linarith)
  have hT : |V * dt + alpha / 2 * dt ^ 2| ≤ W * dt + |alpha / 2 * dt ^ 2| :=
    (abs_add_le _ _).trans (add_le_add hVd le_rfl)
  have b4 := fl_err_step hT b3 (by linarith) (by linarith)
  have hT0 := (abs_nonneg _).trans hT
  have b5 := err_add (x := x) (X := x) (S := |x|) (c := 0) (k := 0) (by simp) b4 (abs_nonneg _) hT0
    (by linarith) le_rfl
  have b6 := fl_err_step ((abs_add_le _ _).trans (add_le_add le_rfl hT)) b5 (by linarith)
    (by linarith)
  refine b6.trans_eq ?_
  ring

/-- The new coordinate, from the velocity before the step. -/
theorem move_err' {dt x v : ℝ} (alpha : ℝ) (h0 : (2 : ℝ) ^ (-500 : ℤ) ≤ dt) (h1 : dt ≤ 1) :
    |fl64 (x + fl64 (fl64 (v * dt) + halfSquareF fl64 dt (fl64 alpha))) -
        (x + (v * dt + alpha / 2 * dt ^ 2))| ≤
      15 * (|x| + (|v| * dt + |alpha / 2 * dt ^ 2|)) * uu + 14 * eta := by
  have hu := uu_pos
  have he := eta_pos
  have := move_err (x := x) (v := v) (V := v) (W := |v|) (c := 9) (k := 0) alpha h0 h1
    (by rw [sub_self, abs_zero]; positivity) le_rfl le_rfl (by norm_num) le_rfl (by norm_num)
  norm_num at this ⊢
  exact this

/-- The new velocity of Euler's method. -/
theorem speed_err {dt v : ℝ} (alpha : ℝ) (h0 : 0 ≤ dt) (h1 : dt ≤ 1) :
    |fl64 (v + fl64 (fl64 alpha * dt)) - (v + alpha * dt)| ≤
      6 * (|v| + |alpha| * dt) * uu + 6 * eta := by
  have b1 := err_mul (fl_err_one alpha) h0 h1 (by norm_num)
  have hA : |alpha * dt| ≤ |alpha| * dt := by rw [abs_mul, abs_of_nonneg h0]
  have b2 := fl_err_step hA b1 (by norm_num) (by norm_num)
  have b3 := err_add (x := v) (X := v) (S := |v|) (c := 0) (k := 0) (e := 4) (by simp) b2
    (abs_nonneg _) ((abs_nonneg _).trans hA) (by norm_num) (by norm_num)
  have b4 := fl_err_step ((abs_add_le _ _).trans (add_le_add le_rfl hA)) b3 (by norm_num)
    (by norm_num)
  refine b4.trans_eq ?_
  ring

/-- The new velocity of the Verlet method. -/
theorem speed_verlet_err {dt v : ℝ} (alpha beta : ℝ) (h0 : 0 ≤ dt) (h1 : dt ≤ 1) :
    |fl64 (v + fl64 (fl64 (fl64 (fl64 alpha + fl64 beta) / 2) * dt)) -
        (v + (alpha + beta) / 2 * dt)| ≤
      10 * (|v| + (|alpha| + |beta|) / 2 * dt) * uu + 9 * eta := by
  have hab : |alpha + beta| ≤ |alpha| + |beta| := abs_add_le _ _
  have b1 := err_add (fl_err_one alpha) (fl_err_one beta) (abs_nonneg _) (abs_nonneg _)
    (le_refl (2 : ℝ)) le_rfl
  have b2 := fl_err_step hab b1 (by norm_num) (by norm_num)
  have b3 : |fl64 (fl64 alpha + fl64 beta) / 2 - (alpha + beta) / 2| ≤
      4 * ((|alpha| + |beta|) / 2) * uu + 3 * eta := by
    rw [← sub_div, abs_div, abs_of_pos (by norm_num : (0 : ℝ) < 2)]
    norm_num at b2 ⊢
    linarith
  have hab2 : |(alpha + beta) / 2| ≤ (|alpha| + |beta|) / 2 := by
    rw [abs_div, abs_of_pos (by norm_num : (0 : ℝ) < 2)]; linarith
  have b4 := fl_err_step hab2 b3 (by norm_num) (by norm_num)
  have b5 := err_mul b4 h0 h1 (by norm_num)
  have hA : |(alpha + beta) / 2 * dt| ≤ (|alpha| + |beta|) / 2 * dt := by
    rw [abs_mul, abs_of_nonneg h0]; exact mul_le_mul_of_nonneg_right hab2 h0
  have b6 := fl_err_step hA b5 (by norm_num) (by norm_num)
  have b7 := err_add (x := v) (X := v) (S := |v|) (c := 0) (k := 0) (e := 8) (by simp) b6
    (abs_nonneg _) ((abs_nonneg _).trans hA) (by norm_num) (by norm_num)
  have b8 := fl_err_step ((abs_add_le _ _).trans (add_le_add le_rfl hA)) b7 (by norm_num)
    (by norm_num)
  refine b8.trans_eq ?_
  ring

/-- An error in units becomes a power of two. -/
theorem units_le {S c k : ℝ} {p : ℤ} (hS : 0 ≤ S) (hc : c * 2 ^ (-53 : ℤ) ≤ 2 ^ p) (hk : k ≤ 32) :
    c * S * uu + k * eta ≤ 2 ^ p * S + 2 ^ (-1070 : ℤ) := by
  have h1 := mul_le_mul_of_nonneg_right hc hS
  have h2 : k * eta ≤ 2 ^ (-1070 : ℤ) := by
    calc k * eta ≤ 32 * eta := mul_le_mul_of_nonneg_right hk eta_pos.le
      _ = 2 ^ (5 : ℤ) * 2 ^ (-1075 : ℤ) := by unfold eta; norm_num
      _ = _ := by rw [← zpow_add₀ (by norm_num)]; norm_num
  have h3 : c * S * uu = c * 2 ^ (-53 : ℤ) * S := by unfold uu; ring
  rw [h3]
  exact add_le_add h1 h2

/-- Wrapping of an approximate angle. -/
theorem wrap_err {phi Phi S c k : ℝ} (hb : Binary64 phi) (hP : |Phi| ≤ S)
    (h : |phi - Phi| ≤ c * S * uu + k * eta) (hc : c ≤ 16) (hk : k ≤ 32) :
    ∃ n : ℤ, |wrapToPiF fl64 phi - (Phi + n * (2 * π))| ≤ 2 ^ (-48 : ℤ) * (1 + S) := by
  have hu := uu_pos
  have he := eta_pos
  have hS : 0 ≤ S := (abs_nonneg _).trans hP
  obtain ⟨n, hn⟩ := C162_congruent phi hb
  refine ⟨n, ?_⟩
  have e50 : (2 : ℝ) ^ (-50 : ℤ) = 8 * uu := by unfold uu; norm_num
  have e48 : (2 : ℝ) ^ (-48 : ℤ) = 32 * uu := by unfold uu; norm_num
  have hu1 : uu ≤ 1 / 2 ^ 53 := by unfold uu; norm_num
  have he1 : k * eta ≤ uu := by
    have := units_le (S := 0) (c := 0) (k := k) (p := 0) le_rfl (by norm_num) hk
    rw [mul_zero, zero_mul, zero_add, mul_zero, zero_add] at this
    exact this.trans (zpow_le_zpow_right₀ (by norm_num) (by norm_num))
  have h' : |phi - Phi| ≤ 16 * (S * uu) + uu := by
    have := mul_le_mul_of_nonneg_right hc (mul_nonneg hS hu.le)
    linarith
  have hSu : S * uu ≤ S / 2 ^ 53 := by
    have := mul_le_mul_of_nonneg_left hu1 hS
    linarith
  have hphi : |phi| ≤ 2 * S + 1 := by
    calc |phi| = |(phi - Phi) + Phi| := by congr 1; ring
      _ ≤ (16 * (S * uu) + uu) + S := (abs_add_le _ _).trans (add_le_add h' hP)
      _ ≤ _ := by norm_num at hSu hu1 ⊢; linarith
  rw [e50] at hn
  rw [e48]
  have hfin : (1 + |phi|) * (8 * uu) ≤ (2 + 2 * S) * (8 * uu) :=
    mul_le_mul_of_nonneg_right (by linarith) (by linarith)
  have hSu0 : 0 ≤ S * uu := mul_nonneg hS hu.le
  calc |wrapToPiF fl64 phi - (Phi + n * (2 * π))|
      = |(wrapToPiF fl64 phi - (phi + n * (2 * π))) + (phi - Phi)| := by congr 1; ring
    _ ≤ (2 + 2 * S) * (8 * uu) + (16 * (S * uu) + uu) :=
        (abs_add_le _ _).trans (add_le_add (hn.trans hfin) h')
    _ ≤ _ := by linarith

/-- Repeated steps of one coordinate without a force. -/
noncomputable def freeSteps (dt v x : ℝ) : ℕ → ℝ
  | 0 => x
  | n + 1 => fl64 (freeSteps dt v x n + fl64 (fl64 (v * dt) + halfSquareF fl64 dt (fl64 0)))

theorem freeSteps_err {dt v x M : ℝ} {n : ℕ} (h0 : (2 : ℝ) ^ (-500 : ℤ) ≤ dt) (h1 : dt ≤ 1)
    (hn : n ≤ 2 ^ 40) (hM : |x| + n * (|v| * dt) ≤ M) (j : ℕ) (hj : j ≤ n) :
    |freeSteps dt v x j - (x + j * (v * dt))| ≤ j * (64 * M * uu + 32 * eta) := by
  have hu := uu_pos
  have he := eta_pos
  have hp : 0 < dt := (two_zpow_pos _).trans_le h0
  have hvd : 0 ≤ |v| * dt := by positivity
  have hM0 : 0 ≤ M := le_trans (by positivity) hM
  obtain ⟨E, hE⟩ : ∃ E, 64 * M * uu + 32 * eta = E := ⟨_, rfl⟩
  have hE0 : 0 ≤ E := by rw [← hE]; positivity
  rw [hE]
  induction j with
  | zero => simp [freeSteps]
  | succ j ih =>
    have ih := ih (by omega)
    have hjn : ((j : ℝ) + 1) ≤ n := by exact_mod_cast hj
    have hj40 : (j : ℝ) ≤ 2 ^ 40 := by
      have : j ≤ 2 ^ 40 := by omega
      exact_mod_cast this
    have hj0 : (0 : ℝ) ≤ j := Nat.cast_nonneg j
    have e := move_err' (x := freeSteps dt v x j) (v := v) 0 h0 h1
    have z : (0 : ℝ) / 2 * dt ^ 2 = 0 := by simp
    rw [z, abs_zero, add_zero, add_zero] at e
    have hb : (j : ℝ) * (|v| * dt) + |v| * dt ≤ n * (|v| * dt) := by
      have := mul_le_mul_of_nonneg_right hjn hvd
      linarith
    have hjv : 0 ≤ (j : ℝ) * (|v| * dt) := mul_nonneg hj0 hvd
    have hxj : |freeSteps dt v x j| ≤ M + j * E := by
      calc |freeSteps dt v x j|
          = |(freeSteps dt v x j - (x + j * (v * dt))) + (x + j * (v * dt))| := by congr 1; ring
        _ ≤ j * E + (|x| + j * (|v| * dt)) := by
            refine (abs_add_le _ _).trans (add_le_add ih ((abs_add_le _ _).trans ?_))
            rw [abs_mul, abs_mul, abs_of_nonneg hj0, abs_of_pos hp]
        _ ≤ _ := by linarith
    have hv : |v| * dt ≤ M := by linarith [abs_nonneg x]
    have hsum : |freeSteps dt v x j| + |v| * dt ≤ 2 * M + j * E := by linarith
    have hju : 15 * (j * E) * uu ≤ E / 4 := by
      have a1 : (j : ℝ) * E ≤ 2 ^ 40 * E := mul_le_mul_of_nonneg_right hj40 hE0
      have a2 := mul_le_mul_of_nonneg_right a1 hu.le
      have a3 : 2 ^ 40 * E * uu = E * (2 ^ 40 * uu) := by ring
      have a4 : (2 : ℝ) ^ 40 * uu ≤ 1 / 64 := by unfold uu; norm_num
      have a5 := mul_le_mul_of_nonneg_left a4 hE0
      linarith
    have hstep : 15 * (|freeSteps dt v x j| + |v| * dt) * uu + 14 * eta ≤ E := by
      have := mul_le_mul_of_nonneg_right hsum hu.le
      have hMu : 0 ≤ M * uu := mul_nonneg hM0 hu.le
      linarith
    have e' := e.trans hstep
    simp only [freeSteps]
    calc _ = |(fl64 (freeSteps dt v x j + fl64 (fl64 (v * dt) + halfSquareF fl64 dt (fl64 0))) -
          (freeSteps dt v x j + v * dt)) + (freeSteps dt v x j - (x + j * (v * dt)))| := by
            congr 1; push_cast; ring
      _ ≤ E + j * E := (abs_add_le _ _).trans (add_le_add e' ih)
      _ = _ := by push_cast; ring

end CrowdDynamics
