import Verif.Model.VectorTests
import Verif.Spec.VectorTests
import Verif.Proofs.RoundedPairs
import Verif.Proofs.RoundedAngles
import Verif.Proofs.RoundedTotal
import Mathlib.Analysis.Complex.Norm

/-!
# Lemmas on the unit tests of vectors
-/

namespace CrowdDynamics

open Spec

theorem norm_pair (x y : ℝ) : √(x ^ 2 + y ^ 2) = ‖(⟨x, y⟩ : ℂ)‖ := by
  rw [Complex.norm_def, Complex.normSq_apply]
  congr 1; simp only; ring

theorem norm_pair_lip (x y x' y' : ℝ) :
    |√(x ^ 2 + y ^ 2) - √(x' ^ 2 + y' ^ 2)| ≤ |x - x'| + |y - y'| := by
  rw [norm_pair, norm_pair]
  refine (abs_norm_sub_norm_le _ _).trans ?_
  exact Complex.norm_le_abs_re_add_abs_im _

theorem norm_pair_mul (c x y : ℝ) : √((c * x) ^ 2 + (c * y) ^ 2) = |c| * √(x ^ 2 + y ^ 2) := by
  rw [show (c * x) ^ 2 + (c * y) ^ 2 = c ^ 2 * (x ^ 2 + y ^ 2) by ring,
    Real.sqrt_mul (sq_nonneg c), Real.sqrt_sq_eq_abs]

theorem abs_le_norm_pair (x y : ℝ) : |x| ≤ √(x ^ 2 + y ^ 2) ∧ |y| ≤ √(x ^ 2 + y ^ 2) := by
  constructor
  · rw [← Real.sqrt_sq_eq_abs]; exact Real.sqrt_le_sqrt (by nlinarith [sq_nonneg y])
  · rw [← Real.sqrt_sq_eq_abs]; exact Real.sqrt_le_sqrt (by nlinarith [sq_nonneg x])

theorem tiny_le {j : ℤ} (h : -1074 ≤ j) : (2 : ℝ) ^ (-1074 : ℤ) ≤ 2 ^ j :=
  zpow_le_zpow_right₀ (by norm_num) h

theorem tiny_le' {j : ℤ} (h : -1075 ≤ j) : (2 : ℝ) ^ (-1075 : ℤ) ≤ 2 ^ j :=
  zpow_le_zpow_right₀ (by norm_num) h

/-- The error of a rounding of a number that is not large. -/
theorem fl64_err_abs {x b : ℝ} (h : |x| ≤ b) : |fl64 x - x| ≤ b * 2 ^ (-53 : ℤ) + 2 ^ (-200 : ℤ) := by
  have h1 := fl64_err_gen x
  have h2 := tiny_le' (j := -200) (by norm_num)
  have h3 := mul_le_mul_of_nonneg_right h (two_zpow_pos (-53)).le
  linarith

theorem fl64_abs (x : ℝ) : |fl64 x| = fl64 |x| := by
  rcases le_total 0 x with h | h
  · rw [abs_of_nonneg h, abs_of_nonneg (fl64_nonneg h)]
  · rw [abs_of_nonpos h, fl64_neg, abs_of_nonpos]
    have := fl64_mono h; rwa [fl64_zero] at this

theorem fl64_ge_two_zpow {x : ℝ} {e : ℤ} (he : -1074 ≤ e) (h : (2 : ℝ) ^ e ≤ x) :
    (2 : ℝ) ^ e ≤ fl64 x := by
  have := fl64_mono h
  rwa [fl64_two_zpow he] at this

theorem fl64_le_two_zpow {x : ℝ} {e : ℤ} (he : -1074 ≤ e) (h : x ≤ (2 : ℝ) ^ e) :
    fl64 x ≤ (2 : ℝ) ^ e := by
  have := fl64_mono h
  rwa [fl64_two_zpow he] at this

/-- Numbers that differ by at most `2 ^ -27` are close. -/
theorem isCloseF_of_near {a b : ℝ} (h : |a - b| ≤ 2 ^ (-27 : ℤ)) : isCloseF fl64 a b := by
  unfold isCloseF
  rw [fl64_abs]
  refine (fl64_le_two_zpow (e := -27) (by norm_num) h).trans ?_
  refine fl64_ge_two_zpow (by norm_num) ?_
  have h1 : (2 : ℝ) ^ (-27 : ℤ) ≤ fl64 (1 / 10 ^ 8) :=
    fl64_ge_two_zpow (by norm_num) (by norm_num)
  have h2 : 0 ≤ fl64 (fl64 (1 / 10 ^ 5) * |b|) :=
    fl64_nonneg (mul_nonneg (fl64_nonneg (by norm_num)) (abs_nonneg b))
  linarith

/-- Floats that are not close to zero exceed `2 ^ -27`. -/
theorem lt_of_not_isCloseF {x : ℝ} (h : ¬ isCloseF fl64 x 0) : (2 : ℝ) ^ (-27 : ℤ) < |x| := by
  by_contra hlt
  exact h (isCloseF_of_near (by rw [sub_zero]; exact not_lt.1 hlt))

/-- What an accurate `hypot` gives for vectors that are not tiny. -/
theorem hypot_rel {hyp : ℝ → ℝ → ℝ} (H : AccurateHypot hyp) {x y : ℝ}
    (h : (2 : ℝ) ^ (-27 : ℤ) ≤ √(x ^ 2 + y ^ 2)) :
    0 < hyp x y ∧ |√(x ^ 2 + y ^ 2) / hyp x y - 1| ≤ 2 ^ (-50 : ℤ) := by
  obtain ⟨s, hs⟩ : ∃ s, √(x ^ 2 + y ^ 2) = s := ⟨_, rfl⟩
  have hn := H.near x y
  rw [hs] at h hn ⊢
  have ht := tiny_le (j := -79) (by norm_num)
  have hp : (0 : ℝ) < 2 ^ (-27 : ℤ) := two_zpow_pos _
  have hs0 : 0 < s := hp.trans_le h
  have hb : |hyp x y - s| ≤ s * 2 ^ (-51 : ℤ) := by
    refine hn.trans ?_
    have : (2 : ℝ) ^ (-79 : ℤ) ≤ s * 2 ^ (-52 : ℤ) := by
      calc (2 : ℝ) ^ (-79 : ℤ) = 2 ^ (-27 : ℤ) * 2 ^ (-52 : ℤ) := by norm_num
        _ ≤ _ := mul_le_mul_of_nonneg_right h (two_zpow_pos _).le
    have e : s * (2 : ℝ) ^ (-51 : ℤ) = s * 2 ^ (-52 : ℤ) + s * 2 ^ (-52 : ℤ) := by norm_num; ring
    linarith
  have hL : s / 2 < hyp x y := by
    have := (abs_le.1 hb).1
    norm_num at this
    linarith
  have hL0 : 0 < hyp x y := by linarith
  refine ⟨hL0, ?_⟩
  rw [show s / hyp x y - 1 = (s - hyp x y) / hyp x y by field_simp, abs_div, abs_of_pos hL0,
    div_le_iff₀ hL0, abs_sub_comm]
  refine hb.trans ?_
  have e : (2 : ℝ) ^ (-50 : ℤ) * hyp x y = hyp x y * 2 * 2 ^ (-51 : ℤ) := by norm_num; ring
  rw [e]
  exact mul_le_mul_of_nonneg_right (by linarith) (two_zpow_pos _).le

/-- The length of a vector that is `δ` off in each component. -/
theorem hypot_near {hyp : ℝ → ℝ → ℝ} (H : AccurateHypot hyp) {x y x' y' t : ℝ}
    (hx : |x - x'| ≤ 2 ^ (-51 : ℤ)) (hy : |y - y'| ≤ 2 ^ (-51 : ℤ)) (ht : t ≤ 1)
    (hl : |√(x' ^ 2 + y' ^ 2) - t| ≤ 2 ^ (-50 : ℤ)) :
    |hyp x y - t| ≤ 2 ^ (-27 : ℤ) := by
  have h1 := norm_pair_lip x y x' y'
  have h2 := H.near x y
  have h3 := tiny_le (j := -79) (by norm_num)
  obtain ⟨s, hs⟩ : ∃ s, √(x ^ 2 + y ^ 2) = s := ⟨_, rfl⟩
  obtain ⟨s', hs'⟩ : ∃ s, √(x' ^ 2 + y' ^ 2) = s := ⟨_, rfl⟩
  rw [hs, hs'] at h1
  rw [hs] at h2
  rw [hs'] at hl
  obtain ⟨T, hT⟩ : ∃ T : ℝ, (2 : ℝ) ^ (-1074 : ℤ) = T := ⟨_, rfl⟩
  rw [hT] at h2 h3
  norm_num at hx hy hl h2 h3 ⊢
  rw [abs_le] at h1 h2 hl ⊢
  constructor <;> linarith [h1.1, h1.2, h2.1, h2.2, hl.1, hl.2]

theorem testNormalize_passes {A : Arith} (hr : A.rnd = fl64) (H : AccurateHypot A.hypot)
    (a : Vec) : testNormalize A a := by
  intro hb1 hb2 ha hl
  rw [hr] at hb1 hb2 ha ⊢
  obtain ⟨x, y⟩ := a
  by_cases h0 : x = 0 ∧ y = 0
  · rw [if_pos h0]
    obtain ⟨rfl, rfl⟩ := h0
    have hz : lengthF A (0, 0) = 0 := H.zero
    have hn : normalizeF A (0, 0) = (0, 0) := by
      unfold normalizeF; simp only [hz, ne_eq, not_true_eq_false, if_false]
    refine isCloseF_of_near ?_
    rw [hn, hz, sub_self, abs_zero]; exact (two_zpow_pos _).le
  · rw [if_neg h0]
    have hbig : (2 : ℝ) ^ (-27 : ℤ) ≤ √(x ^ 2 + y ^ 2) := by
      rcases ha with ha | ha
      · by_cases hx : isCloseF fl64 x 0
        · have hy : ¬ isCloseF fl64 y 0 := fun hy => ha ⟨hx, hy⟩
          exact (lt_of_not_isCloseF hy).le.trans (abs_le_norm_pair x y).2
        · exact (lt_of_not_isCloseF hx).le.trans (abs_le_norm_pair x y).1
      · exact absurd ha h0
    obtain ⟨hL, hq⟩ := hypot_rel H hbig
    obtain ⟨L, hLe⟩ : ∃ L, A.hypot x y = L := ⟨_, rfl⟩
    have hLe' : lengthF A (x, y) = L := hLe
    rw [hLe] at hL hq
    have hn : normalizeF A (x, y) = (fl64 (x / L), fl64 (y / L)) := by
      unfold normalizeF; simp only [hLe', hr, ne_eq, hL.ne', not_false_eq_true, if_true]
    rw [hn]
    have hN : √((x / L) ^ 2 + (y / L) ^ 2) = √(x ^ 2 + y ^ 2) / L := by
      rw [div_eq_inv_mul x, div_eq_inv_mul y, norm_pair_mul, abs_of_pos (inv_pos.2 hL)]
      ring
    have h2 : √(x ^ 2 + y ^ 2) / L ≤ 2 := by
      have := (abs_le.1 hq).2
      norm_num at this; linarith
    have hm := abs_le_norm_pair (x / L) (y / L)
    rw [hN] at hm
    refine isCloseF_of_near (hypot_near H (x' := x / L) (y' := y / L) ?_ ?_ le_rfl (by rw [hN]; exact hq))
    · have := fl64_err_abs (hm.1.trans h2)
      refine this.trans (by norm_num)
    · have := fl64_err_abs (hm.2.trans h2)
      refine this.trans (by norm_num)

theorem testTruncate_passes {A : Arith} (hr : A.rnd = fl64) (H : AccurateHypot A.hypot)
    (v : Vec) (l : ℝ) : testTruncate A v l := by
  intro h1 h2 h3
  rw [hr] at h1 h2 h3 ⊢
  obtain ⟨x, y⟩ := v
  obtain ⟨hxb, hx1, hx2, hxn⟩ := h1
  obtain ⟨hyb, hy1, hy2, hyn⟩ := h2
  obtain ⟨hlb, hl1, hl2, hln⟩ := h3
  by_cases hL : lengthF A (x, y) > l
  · rw [if_pos hL]
    have hbig := (lt_of_not_isCloseF hxn).le.trans (abs_le_norm_pair x y).1
    obtain ⟨hL0, hq⟩ := hypot_rel H hbig
    obtain ⟨L, hLe⟩ : ∃ L, A.hypot x y = L := ⟨_, rfl⟩
    have hLe' : lengthF A (x, y) = L := hLe
    have ht : truncateF A (x, y) l = (fl64 (x * fl64 (l / L)), fl64 (y * fl64 (l / L))) := by
      unfold truncateF
      show (if lengthF A (x, y) > l then _ else _) = _
      rw [if_pos hL, hr, hLe']
    rw [hLe'] at hL
    rw [hLe] at hL0 hq
    rw [ht]
    have hf0 : 0 ≤ l / L := div_nonneg hl1 hL0.le
    have hf1 : l / L ≤ 1 := by rw [div_le_one hL0]; exact hL.le
    obtain ⟨f, hf⟩ : ∃ f, fl64 (l / L) = f := ⟨_, rfl⟩
    have hfe : |f - l / L| ≤ 1 * 2 ^ (-53 : ℤ) + 2 ^ (-200 : ℤ) := by
      rw [← hf]; exact fl64_err_abs (by rw [abs_of_nonneg hf0]; exact hf1)
    have hf0' : 0 ≤ f := by rw [← hf]; exact fl64_nonneg hf0
    have hf1' : f ≤ 1 := by
      rw [← hf]
      have := fl64_le_two_zpow (e := 0) (by norm_num) (x := l / L) (by simpa using hf1)
      simpa using this
    rw [hf]
    have hN : √(((l / L) * x) ^ 2 + ((l / L) * y) ^ 2) = l / L * √(x ^ 2 + y ^ 2) := by
      rw [norm_pair_mul, abs_of_nonneg hf0]
    have key : ∀ z : ℝ, -1 ≤ z → z ≤ 1 → |fl64 (z * f) - l / L * z| ≤ 2 ^ (-51 : ℤ) := by
      intro z hz1 hz2
      have hz : |z| ≤ 1 := abs_le.2 ⟨hz1, hz2⟩
      have e1 : |fl64 (z * f) - z * f| ≤ 1 * 2 ^ (-53 : ℤ) + 2 ^ (-200 : ℤ) := by
        refine fl64_err_abs ?_
        rw [abs_mul, abs_of_nonneg hf0']
        nlinarith [abs_nonneg z]
      have e2 : |z * f - l / L * z| ≤ 1 * 2 ^ (-53 : ℤ) + 2 ^ (-200 : ℤ) := by
        rw [show z * f - l / L * z = z * (f - l / L) by ring, abs_mul]
        exact (mul_le_of_le_one_left (abs_nonneg _) hz).trans hfe
      have e3 := abs_sub_le (fl64 (z * f)) (z * f) (l / L * z)
      refine e3.trans ((add_le_add e1 e2).trans (by norm_num))
    refine isCloseF_of_near (hypot_near H (key x hx1 hx2) (key y hy1 hy2) hl2 ?_)
    rw [hN, show l / L * √(x ^ 2 + y ^ 2) - l = l * (√(x ^ 2 + y ^ 2) / L - 1) by ring, abs_mul,
      abs_of_nonneg hl1]
    exact (mul_le_of_le_one_left (abs_nonneg _) hl2).trans hq
  · rw [if_neg hL]
    have ht : truncateF A (x, y) l = (x, y) := by unfold truncateF; simp only [if_neg hL]
    rw [ht]; exact not_lt.1 hL

theorem testDistance_passes {A : Arith} (hr : FairRounding A.rnd)
    (H : ∀ x y, 0 ≤ A.hypot x y) (x0 : Vec) (r0 : ℝ) (x1 : Vec) (r1 : ℝ) :
    testDistanceCircleCircle A x0 r0 x1 r1 := by
  intro _ _ _ _ _ _
  unfold distanceCirclesF lengthF
  simp only
  have h := hr.mono (show -A.rnd (r0 + r1) ≤ A.hypot (vecSubF A.rnd x0 x1).1 (vecSubF A.rnd x0 x1).2 -
    A.rnd (r0 + r1) by linarith [H (vecSubF A.rnd x0 x1).1 (vecSubF A.rnd x0 x1).2])
  rw [hr.neg, hr.idem] at h
  exact h

theorem realsNear_pos {hi x : ℝ} (h : RealsNear fl64 0 hi x) : (2 : ℝ) ^ (-27 : ℤ) < x := by
  have := lt_of_not_isCloseF h.2.2.2
  rwa [abs_of_nonneg h.2.1] at this

theorem testCapacity_passes (dDoor dAgent : ℝ) (dLayer : Option ℝ) (coeff : ℝ) :
    testNarrowExitCapacity fl64 dDoor dAgent dLayer coeff := by
  intro h1 h2 h3 h4 h5
  have hd := realsNear_pos h1
  have ha := realsNear_pos h2
  have hc := realsNear_pos h4
  have hz : (0 : ℝ) < 2 ^ (-27 : ℤ) := two_zpow_pos _
  have key : ∀ x y : ℝ, Binary64 x → Binary64 y → 0 ≤ x → x ≤ 8 → (2 : ℝ) ^ (-27 : ℤ) < y →
      0 ≤ fl64 (coeff * pyFloorDivF fl64 x y) := by
    intro x y hx hy hx0 hx8 hyp
    have hy0 : 0 < y := hz.trans hyp
    rw [pyFloorDivF_fl64 hx hy hy0.ne']
    · refine fl64_nonneg (mul_nonneg (hz.trans hc).le ?_)
      unfold pyFloorDiv
      exact_mod_cast Int.floor_nonneg.2 (div_nonneg hx0 hy0.le)
    · rw [abs_of_nonneg (div_nonneg hx0 hy0.le), div_le_iff₀ hy0]
      norm_num at hyp ⊢
      linarith
  unfold narrowExitCapacityF
  rw [if_neg (not_lt.2 h5)]
  cases dLayer with
  | none =>
    exact key _ _ ((binary64_iff _).2 h1.1) ((binary64_iff _).2 h2.1) h1.2.1
      (by linarith [h1.2.2.1]) ha
  | some l =>
    have hl := h3 l rfl
    have hlp := realsNear_pos hl
    refine key _ _ (binary64_fl64 _) ((binary64_iff _).2 hl.1) (fl64_nonneg ?_) ?_ hlp
    · have := fl64_mono (show dAgent - l ≤ dAgent by linarith)
      rw [h2.1] at this
      linarith
    · have h8 := fl64_le_two_zpow (e := 3) (by norm_num) (x := dDoor - fl64 (dAgent - l)) (by
        have : -(1 : ℝ) ≤ fl64 (dAgent - l) := by
          have := fl64_mono (show (-1 : ℝ) ≤ dAgent - l by linarith [hl.2.2.1])
          rw [fl64_neg] at this
          have e := fl64_two_zpow (e := 0) (by norm_num)
          simp only [zpow_zero] at e
          rw [e] at this
          exact this
        have h9 : (2 : ℝ) ^ (3 : ℤ) = 8 := by norm_num
        rw [h9]
        linarith [h1.2.2.1])
      have h9 : (2 : ℝ) ^ (3 : ℤ) = 8 := by norm_num
      rwa [h9] at h8

end CrowdDynamics
