import Verif.Proofs.WallWalk
import Verif.Proofs.VectorTests
import Verif.Model.RoundedUpdate

/-!
# Walking against a wall with rounding errors
-/

namespace CrowdDynamics

open Spec

/-! ## The recursion with errors -/

/-- The pull of the wall contact and of the adjusting force with the constants of the code. -/
noncomputable def pressPull (c : ℝ) : ℝ := (c - 2) * 2.7 + 3.5

/-- What is known after an update: the distance `y` from the wall, the velocity `v`, the acceleration `o` of
the update, the velocity `w` with which the last step was taken, and the mean `t` of the last two of them, all
away from the wall. -/
structure PressState (r c y v o w t : ℝ) : Prop where
  walk : WalkState r 0.02 1.75 (pressPull c) 2.7 0.05 0.15 0.53 y t w
  near : |w - (v + 0.005 * o)| ≤ 1e-10
  mean : |t - v| ≤ 1e-9
  prev : (w - 2.8) / 2 ≤ t
  top : w ≤ 25
  top' : t ≤ 25
  slow : y < r → w ≤ 16
  acc : |o| ≤ 1000
  far : 0.99 * w + 2 * y - 0.02 * t ≤ 2010

lemma press_constants {m : ℝ} (hm : 50 ≤ m) (hm' : m ≤ 90) :
    WalkConstants 0.02 1.75 (pressPull (500 / m)) 2.7 0.05 0.15 0.53 (1.2e5 / m) := by
  have m0 : 0 < m := by linarith
  obtain ⟨x, hx⟩ : ∃ x, 1 / m = x := ⟨_, rfl⟩
  have x1 : x ≤ 0.02 := by rw [← hx, div_le_iff₀ m0]; linarith
  have x2 : 1 / 90 ≤ x := by rw [← hx, div_le_div_iff₀ (by norm_num) m0]; linarith
  have e1 : (500 : ℝ) / m = 500 * x := by rw [← hx]; ring
  have e2 : (1.2e5 : ℝ) / m = 1.2e5 * x := by rw [← hx]; ring
  unfold pressPull
  rw [e1, e2]
  constructor <;> norm_num <;> linarith

/-- One update. -/
lemma press_step {r K c V y v o w t v' o' y' : ℝ} (r1 : r ≤ 1)
    (hC : WalkConstants 0.02 1.75 (pressPull c) 2.7 0.05 0.15 0.53 K) (K1 : K ≤ 2400)
    (c0 : 5 ≤ c) (c1 : c ≤ 10) (V0 : 0.4 ≤ V) (V1 : V ≤ 1.7)
    (h : PressState r c y v o w t)
    (hv : |v' - (v + 0.005 * (o + o'))| ≤ 1e-12)
    (hy : |y' - (y + 0.01 * v' + 0.00005 * o')| ≤ 1e-12)
    (ho : |o' - (-2 * (V + v) + if y < r then K * (r - y) + c * v else 0)| ≤ 1e-7) :
    PressState r c y' v' o' (100 * (y' - y)) ((w + 100 * (y' - y)) / 2) := by
  obtain ⟨w', hw'⟩ : ∃ w', 100 * (y' - y) = w' := ⟨_, rfl⟩
  rw [hw']
  have ey : y' = y + 0.01 * w' := by linarith
  obtain ⟨hB1, hB2, hB3⟩ := h.walk.bounds hC
  have n1 := abs_le.1 h.near
  have n2 := abs_le.1 h.mean
  have n3 := abs_le.1 hv
  have n4 := abs_le.1 hy
  have n5 := abs_le.1 ho
  have t1 := h.top
  have t2 := h.top'
  have t3 := h.prev
  have t4 := h.far
  have near' : |w' - (v' + 0.005 * o')| ≤ 1e-10 := by
    rw [abs_le]
    constructor <;> linarith
  have n6 := abs_le.1 near'
  have mean' : |(w + w') / 2 - v'| ≤ 1e-9 := by
    rw [abs_le]
    constructor <;> linarith
  have prev' : (w' - 2.8) / 2 ≤ (w + w') / 2 := by linarith
  rcases le_or_gt r y with hr | hr
  · rw [if_neg (not_lt.2 hr), add_zero] at n5
    have s1 : w - 0.02 * (V + t) - 2e-9 ≤ w' := by linarith
    have s2 : w' ≤ w - 0.02 * (V + t) + 2e-9 := by linarith
    refine ⟨walk_free hC h.walk hr (by linarith) ey rfl, near', mean', prev', by linarith, by linarith,
      fun hlt => by linarith, ?_, by linarith⟩
    rw [abs_le]
    constructor <;> linarith
  · rw [if_pos hr] at n5
    have hw16 := h.slow hr
    have q1 : K * (r - y) ≤ 2400 * 0.15 := mul_le_mul K1 (by linarith) (by linarith) (by norm_num)
    have q0 : 0 ≤ K * (r - y) := mul_nonneg hC.K_pos.le (by linarith)
    have q2 : (c - 2) * -2.7 ≤ (c - 2) * t := mul_le_mul_of_nonneg_left (by linarith) (by linarith)
    have q3 : (c - 2) * t ≤ (c - 2) * 25 := mul_le_mul_of_nonneg_left t2 (by linarith)
    have q4 : |c * (t - v)| ≤ 1e-8 := by
      rw [abs_mul, abs_of_nonneg (by linarith : 0 ≤ c)]
      calc c * |t - v| ≤ 10 * 1e-9 := mul_le_mul c1 h.mean (abs_nonneg _) (by norm_num)
        _ = 1e-8 := by norm_num
    have q5 := abs_le.1 q4
    have s1 : w + 0.01 * (K * (r - y) + (c - 2) * t - 2 * V) - 2e-9 ≤ w' := by linarith
    have s2 : w' ≤ w + 0.01 * (K * (r - y) + (c - 2) * t - 2 * V) + 2e-9 := by linarith
    have walk' : WalkState r 0.02 1.75 (pressPull c) 2.7 0.05 0.15 0.53 y' ((w + w') / 2) w' :=
      walk_touch hC h.walk hr (by unfold pressPull; linarith) ey rfl
    refine ⟨walk', near', mean', prev', by linarith, by linarith, fun hlt => by linarith, ?_, by linarith⟩
    have hup : o' ≤ 1000 := by linarith
    have hlo : -1000 ≤ o' := by linarith
    exact abs_le.2 ⟨hlo, hup⟩

/-- While the wall is not touched, so that only the adjusting force acts, a mixture of distance and velocity
falls. -/
lemma press_fall {r c V y v o w t v' o' y' : ℝ} (V0 : 0.4 ≤ V)
    (h : PressState r c y v o w t)
    (hv : |v' - (v + 0.005 * (o + o'))| ≤ 1e-12)
    (hy : |y' - (y + 0.01 * v' + 0.00005 * o')| ≤ 1e-12)
    (ho : |o' - (-2 * (V + v))| ≤ 1e-7) :
    0.99 * (100 * (y' - y)) + 2 * y' - 0.02 * ((w + 100 * (y' - y)) / 2) ≤
      0.99 * w + 2 * y - 0.02 * t - 0.0079 := by
  obtain ⟨w', hw'⟩ : ∃ w', 100 * (y' - y) = w' := ⟨_, rfl⟩
  rw [hw']
  have ey : y' = y + 0.01 * w' := by linarith
  have n1 := abs_le.1 h.near
  have n2 := abs_le.1 h.mean
  have n3 := abs_le.1 hv
  have n4 := abs_le.1 hy
  have n5 := abs_le.1 ho
  linarith

/-- The start, clear of the wall. -/
lemma press_start {r c y v : ℝ} (hr : r ≤ y) (hy : y ≤ 1000) (h1 : -1.75 ≤ v) (h2 : v ≤ 1.75) :
    PressState r c y v 0 v v := by
  refine ⟨⟨by linarith, .inl ⟨hr, h1, by linarith⟩⟩, by norm_num, by norm_num, by linarith, by linarith,
    by linarith, fun h => by linarith, by norm_num, by linarith⟩

end CrowdDynamics
