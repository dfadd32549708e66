import Verif.Proofs.RoundedAreaCases
import Verif.Proofs.RoundedArea
import Verif.Proofs.RoundedAngles

/-!
# C183: areas of polygons in floating point
-/

namespace CrowdDynamics

open Spec Real

/-- **C183** (full statement, refuted below): the computed area of a polygon with a positive area
is within half of the area. -/
def C183_statement : Prop :=
  ∀ l : List Vec, (∀ v ∈ l, fl64 v.1 = v.1 ∧ fl64 v.2 = v.2 ∧ |v.1| ≤ 10 ∧ |v.2| ≤ 10) →
    0 < |signedArea l| → |(polygonAreaF fl64 l - |signedArea l|)| ≤ |signedArea l| / 2

/-- **C183** A triangle whose area is 2⁻⁵³ and whose computed area is zero: the error can be as
large as the area itself. -/
theorem C183_relative_error_fails : ¬ C183_statement := by
  intro h
  have h1 : fl64 1 = 1 := by simpa using fl64_int (n := 1) (by norm_num)
  have h4 : fl64 4 = 4 := by simpa using fl64_int (n := 4) (by norm_num)
  have := h [(1, 1), (1, 0), (1 + (2 : ℝ) ^ (-52 : ℤ), 4)] (by
    intro v hv
    simp only [List.mem_cons, List.not_mem_nil, or_false] at hv
    rcases hv with rfl | rfl | rfl
    · refine ⟨h1, h1, ?_, ?_⟩ <;> norm_num
    · refine ⟨h1, fl64_zero, ?_, ?_⟩ <;> norm_num
    · refine ⟨needle_last, h4, ?_, ?_⟩
      · norm_num [abs_le]
      · norm_num [abs_le]) (by rw [needle_area.2]; exact two_zpow_pos _)
  rw [needle_area.1, needle_area.2] at this
  norm_num [abs_le] at this

/-- **C183** (partial) The computed area of a polygon with `n` vertices, all of whose coordinates
are at most `M`, is within `3 n² M² 2⁻⁵³` of the area. -/
theorem C183_absolute_error_partial {M : ℝ} (hM : (2 : ℝ) ^ (-500 : ℤ) ≤ M) {l : List Vec}
    (hn : l.length < 2 ^ 16) (h : ∀ v ∈ l, |v.1| ≤ M ∧ |v.2| ≤ M) :
    |(polygonAreaF fl64 l - |signedArea l|)| ≤ 3 * l.length ^ 2 * M ^ 2 * 2 ^ (-53 : ℤ) := by
  rw [← polygonArea_eq]
  exact polygonAreaF_err hM hn h

/-- the hypotheses hold for a room of ten metres -/
example : (2 : ℝ) ^ (-500 : ℤ) ≤ 10 ∧
    [(0, 0), (10, 0), (10, 10), ((0 : ℝ), (10 : ℝ))].length < 2 ^ 16 ∧
    ∀ v ∈ [(0, 0), (10, 0), (10, 10), ((0 : ℝ), (10 : ℝ))], |v.1| ≤ (10 : ℝ) ∧ |v.2| ≤ 10 := by
  refine ⟨?_, by simp, by simp⟩
  calc (2 : ℝ) ^ (-500 : ℤ) ≤ 2 ^ (0 : ℤ) := zpow_le_zpow_right₀ (by norm_num) (by norm_num)
    _ ≤ 10 := by norm_num

/-- **C183** (partial) The computed area is the area, without any error, if the coordinates are
multiples of a power of two by integers of at most 20 binary digits. -/
theorem C183_exact_on_grid_partial {e : ℤ} (he : -500 ≤ e) {l : List Vec} (hn : l.length ≤ 2 ^ 11)
    (h : ∀ v ∈ l, ∃ a b : ℤ, |a| ≤ 2 ^ 20 ∧ |b| ≤ 2 ^ 20 ∧
      v = (a * (2 : ℝ) ^ e, b * (2 : ℝ) ^ e)) :
    polygonAreaF fl64 l = |signedArea l| := by
  rw [polygonAreaF_grid he hn h, polygonArea_eq]

/-- a room whose coordinates are multiples of a quarter of a metre -/
example : polygonAreaF fl64 [(0, 0), (2.5, 0), (2.5, 1.25), (0, 1.25)] = 3.125 := by
  rw [C183_exact_on_grid_partial (e := -2) (by norm_num) (by simp), ← polygonArea_eq]
  · norm_num [polygonArea, List.range', abs_of_pos]
  · intro v hv
    simp only [List.mem_cons, List.not_mem_nil, or_false] at hv
    rcases hv with rfl | rfl | rfl | rfl
    · exact ⟨0, 0, by norm_num, by norm_num, by norm_num⟩
    · exact ⟨10, 0, by norm_num, by norm_num, by norm_num⟩
    · exact ⟨10, 5, by norm_num, by norm_num, by norm_num⟩
    · exact ⟨0, 5, by norm_num, by norm_num, by norm_num⟩

/-- **C183** (partial) The test of `polygon_area` cannot fail: the exterior of the convex hull of
five points has at most six vertices, and an area within 1e-9 of the true area is close, in the
sense of `np.isclose`, to the computed one. -/
theorem C183_test_partial {l : List Vec} (hn : l.length ≤ 6)
    (h : ∀ v ∈ l, RealsBetween fl64 (-10) 10 v.1 ∧ RealsBetween fl64 (-10) 10 v.2) {area : ℝ}
    (ha : |(area - |signedArea l|)| ≤ 1 / 10 ^ 9) : testPolygonArea fl64 l area := by
  intro _
  have hb := C183_absolute_error_partial (M := 10) (l := l) (by
    calc (2 : ℝ) ^ (-500 : ℤ) ≤ 2 ^ (0 : ℤ) := zpow_le_zpow_right₀ (by norm_num) (by norm_num)
      _ ≤ 10 := by norm_num) (by omega)
    (fun v hv => ⟨abs_le.2 (h v hv).1.2, abs_le.2 (h v hv).2.2⟩)
  have hn' : (l.length : ℝ) ^ 2 ≤ 6 ^ 2 := by
    refine pow_le_pow_left₀ (Nat.cast_nonneg _) ?_ 2
    exact_mod_cast hn
  have h1 : |polygonAreaF fl64 l - area| ≤ 1 / 10 ^ 8 := by
    have e : polygonAreaF fl64 l - area =
        (polygonAreaF fl64 l - |signedArea l|) - (area - |signedArea l|) := by ring
    rw [e]
    refine (abs_sub _ _).trans ?_
    have : (3 : ℝ) * l.length ^ 2 * 10 ^ 2 * 2 ^ (-53 : ℤ) ≤ 1 / 10 ^ 9 := by
      norm_num
      norm_num at hn'
      linarith
    have := hb.trans this
    linarith
  unfold isCloseF
  have h2 : |fl64 (polygonAreaF fl64 l - area)| ≤ fl64 (1 / 10 ^ 8) := by
    rw [abs_le] at h1 ⊢
    rw [← fl64_neg]
    exact ⟨fl64_mono h1.1, fl64_mono h1.2⟩
  refine h2.trans ?_
  conv_lhs => rw [← fl64_idem]
  refine fl64_mono (le_add_of_nonneg_right ?_)
  exact fl64_nonneg (mul_nonneg (fl64_nonneg (by norm_num)) (abs_nonneg _))

/-- a triangle that the test may draw, closed as shapely does -/
example : [((0 : ℝ), (0 : ℝ)), (1, 0), (0, 1), (0, 0)].length ≤ 6 ∧
    (∀ v ∈ [((0 : ℝ), (0 : ℝ)), (1, 0), (0, 1), (0, 0)],
      RealsBetween fl64 (-10) 10 v.1 ∧ RealsBetween fl64 (-10) 10 v.2) ∧
    |((1 / 2 : ℝ) - |signedArea [((0 : ℝ), (0 : ℝ)), (1, 0), (0, 1), (0, 0)]|)| ≤ 1 / 10 ^ 9 := by
  have h1 : fl64 1 = 1 := by simpa using fl64_int (n := 1) (by norm_num)
  refine ⟨by simp, ?_, ?_⟩
  · intro v hv
    simp only [List.mem_cons, List.not_mem_nil, or_false] at hv
    rcases hv with rfl | rfl | rfl | rfl <;>
      norm_num [RealsBetween, fl64_zero, h1]
  · rw [← polygonArea_eq]
    norm_num [polygonArea, List.range', abs_of_pos]

end CrowdDynamics
