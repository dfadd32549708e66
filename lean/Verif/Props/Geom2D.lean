import Verif.Proofs.Geom2D
import Verif.Spec.Sight

/-!
# Properties C05–C07: polygon area, segment intersection, line of sight
-/

namespace CrowdDynamics

open Spec

/-! ## C05: `polygon_area` -/

/-- **C05** `polygon_area` is the absolute value of the signed area swept by the
closed path, for every number of vertices. -/
theorem C05_polygon_area_shoelace (l : List Vec) : polygonArea l = |signedArea l| :=
  polygonArea_eq l

/-- **C05** Fewer than three vertices have area zero, and no area is negative. -/
theorem C05_polygon_area_nonneg (l : List Vec) :
    0 ≤ polygonArea l ∧ (l.length < 3 → polygonArea l = 0) := by
  refine ⟨by rw [polygonArea_eq]; exact abs_nonneg _, fun h => ?_⟩
  simp [polygonArea, h]

/-- **C05** The area of a triangle is half the parallelogram of two sides. -/
theorem C05_polygon_area_triangle (a b c : Vec) :
    polygonArea [a, b, c] = |(b.1 - a.1) * (c.2 - a.2) - (c.1 - a.1) * (b.2 - a.2)| / 2 := by
  rw [polygonArea_eq]
  unfold signedArea
  simp only [List.cons_append, List.nil_append, pathArea, orientedArea, abs_div]
  rw [abs_of_pos (show (0 : ℝ) < 2 by norm_num)]
  congr 2
  ring

/-- **C05** An affine map multiplies the area by the absolute value of its
determinant; in particular translations, rotations and reflections keep it and a
scaling by `s` multiplies it by `s²`. -/
theorem C05_polygon_area_affine (a b c d e f : ℝ) (l : List Vec) :
    polygonArea (l.map (affine a b c d e f)) = |a * d - b * c| * polygonArea l := by
  rw [polygonArea_eq, polygonArea_eq, signedArea_affine, abs_mul]

/-- **C05** The start vertex does not matter. -/
theorem C05_polygon_area_rotate (l : List Vec) (k : ℕ) :
    polygonArea (l.rotate k) = polygonArea l := by
  rw [polygonArea_eq, polygonArea_eq, signedArea_rotate]

/-- **C05** The direction of traversal does not matter. -/
theorem C05_polygon_area_reverse (l : List Vec) : polygonArea l.reverse = polygonArea l := by
  rw [polygonArea_eq, polygonArea_eq, signedArea_reverse, abs_neg]

/-- **C05** Cutting a polygon along the diagonal `p q` into two equally oriented
parts splits the area. -/
theorem C05_polygon_area_cut (p q : Vec) (l m : List Vec)
    (h : 0 ≤ signedArea (p :: l ++ [q]) * signedArea (p :: q :: m)) :
    polygonArea (p :: l ++ q :: m) = polygonArea (p :: l ++ [q]) + polygonArea (p :: q :: m) := by
  rw [polygonArea_eq, polygonArea_eq, polygonArea_eq, signedArea_cut]
  rcases mul_nonneg_iff.1 h with ⟨h1, h2⟩ | ⟨h1, h2⟩
  · rw [abs_of_nonneg h1, abs_of_nonneg h2, abs_of_nonneg (add_nonneg h1 h2)]
  · rw [abs_of_nonpos h1, abs_of_nonpos h2, abs_of_nonpos (add_nonpos h1 h2)]; ring

example : 0 ≤ signedArea ((0, 0) :: [((1 : ℝ), (0 : ℝ))] ++ [((1 : ℝ), (1 : ℝ))]) *
    signedArea ((0, 0) :: (1, 1) :: [((0 : ℝ), (1 : ℝ))]) := by
  norm_num [signedArea, pathArea, orientedArea]

/-- The unit square has area 1. -/
example : polygonArea [(0, 0), (1, 0), (1, 1), (0, 1)] = 1 := by
  rw [C05_polygon_area_shoelace]
  norm_num [signedArea, pathArea, orientedArea]

/-! ## C06: `line_intersect` -/

/-- **C06** A positive answer is always right: the closed segments share a point. -/
theorem C06_line_intersect_sound (x0 x1 y0 y1 : Vec) (h : lineIntersect x0 x1 y0 y1 = true) :
    ∃ z, z ∈ segment ℝ x0 x1 ∧ z ∈ segment ℝ y0 y1 := ((lineIntersect_iff _ _ _ _).1 h).2

/-- **C06 (partial)** For segments that are not parallel the answer is exact.
Missing: parallel (collinear, overlapping) segments, for which the statement is
false, see `C06_line_intersect_collinear_fails`. -/
theorem C06_line_intersect_exact_partial (x0 x1 y0 y1 : Vec)
    (h : (x1.1 - x0.1) * (y1.2 - y0.2) ≠ (x1.2 - x0.2) * (y1.1 - y0.1)) :
    lineIntersect x0 x1 y0 y1 = true ↔
      ∃ z, z ∈ segment ℝ x0 x1 ∧ z ∈ segment ℝ y0 y1 := by
  rw [lineIntersect_iff]
  constructor
  · exact fun h => h.2
  · exact fun h' => ⟨by simpa [sub_ne_zero] using h, h'⟩

/-- **C06** Parallel or degenerate segments are always reported as disjoint. -/
theorem C06_line_intersect_parallel (x0 x1 y0 y1 : Vec)
    (h : (x1.1 - x0.1) * (y1.2 - y0.2) = (x1.2 - x0.2) * (y1.1 - y0.1)) :
    lineIntersect x0 x1 y0 y1 = false := by
  rw [← Bool.not_eq_true, lineIntersect_iff]
  rintro ⟨h1, _⟩
  apply h1
  simp only [Prod.fst_sub, Prod.snd_sub]
  rw [h, sub_self]

example := C06_line_intersect_parallel (0, 0) (2, 2) (0, 1) (2, 3) (by norm_num)

/-- **C06 fails** for collinear overlapping segments: the segment from 0 to 2 and
the segment from 1 to 3 on the x-axis share a point but are reported as disjoint. -/
theorem C06_line_intersect_collinear_fails :
    ∃ x0 x1 y0 y1 : Vec, (∃ z, z ∈ segment ℝ x0 x1 ∧ z ∈ segment ℝ y0 y1) ∧
      lineIntersect x0 x1 y0 y1 = false := by
  refine ⟨(0, 0), (2, 0), (1, 0), (3, 0), ⟨(1, 0), ?_, ?_⟩, ?_⟩
  · rw [mem_segment_iff]; exact ⟨1 / 2, by norm_num, by norm_num, by ext <;> norm_num⟩
  · exact left_mem_segment ℝ _ _
  · apply C06_line_intersect_parallel; norm_num

/-- **C06** The answer depends neither on the order of the segments nor on the
order of their endpoints. -/
theorem C06_line_intersect_symm (x0 x1 y0 y1 : Vec) :
    lineIntersect x0 x1 y0 y1 = lineIntersect y0 y1 x0 x1 ∧
    lineIntersect x0 x1 y0 y1 = lineIntersect x1 x0 y0 y1 ∧
    lineIntersect x0 x1 y0 y1 = lineIntersect x0 x1 y1 y0 := by
  refine ⟨?_, ?_, ?_⟩ <;> rw [Bool.eq_iff_iff, lineIntersect_iff, lineIntersect_iff]
  · apply and_congr
    · rw [← neg_ne_zero]; ring_nf
    · exact ⟨fun ⟨z, h⟩ => ⟨z, h.2, h.1⟩, fun ⟨z, h⟩ => ⟨z, h.2, h.1⟩⟩
  · rw [segment_symm ℝ x0 x1]
    apply and_congr _ Iff.rfl
    rw [← neg_ne_zero]; simp only [Prod.fst_sub, Prod.snd_sub]; ring_nf
  · rw [segment_symm ℝ y0 y1]
    apply and_congr _ Iff.rfl
    rw [← neg_ne_zero]; simp only [Prod.fst_sub, Prod.snd_sub]; ring_nf

example : lineIntersect (0, 0) (2, 2) (0, 2) (2, 0) = true := by
  rw [C06_line_intersect_exact_partial _ _ _ _ (by norm_num)]
  refine ⟨(1, 1), ?_, ?_⟩ <;> rw [mem_segment_iff] <;>
    exact ⟨1 / 2, by norm_num, by norm_num, by ext <;> norm_num⟩
/-- Touching at an endpoint counts. -/
example : lineIntersect (0, 0) (1, 0) (1, 0) (1, 1) = true := by
  rw [C06_line_intersect_exact_partial _ _ _ _ (by norm_num)]
  exact ⟨(1, 0), right_mem_segment ℝ _ _, left_mem_segment ℝ _ _⟩

/-! ## C07: line of sight -/

/-- **C07** The view is blocked exactly if some wall hides the other point. -/
theorem C07_obstacle_between_iff (p0 p1 : Vec) (ws : List Wall) :
    isObstacleBetweenPoints p0 p1 ws = true ↔ ∃ w ∈ ws, Hides p0 p1 w := by
  rw [isObstacleBetweenPoints_iff]
  simp only [lineIntersect_iff, Hides, Prod.fst_sub, Prod.snd_sub, ne_eq, sub_eq_zero]

/-- **C07** Seeing each other is symmetric. -/
theorem C07_obstacle_between_symm (p0 p1 : Vec) (ws : List Wall) :
    isObstacleBetweenPoints p0 p1 ws = isObstacleBetweenPoints p1 p0 ws := by
  rw [Bool.eq_iff_iff, isObstacleBetweenPoints_iff, isObstacleBetweenPoints_iff]
  simp only [(C06_line_intersect_symm p0 p1 _ _).2.1]

/-- **C07** The order (and repetition) of walls is irrelevant and more walls never
restore the view. -/
theorem C07_obstacle_between_mono (p0 p1 : Vec) (ws ws' : List Wall)
    (hsub : ∀ w ∈ ws, w ∈ ws') (h : isObstacleBetweenPoints p0 p1 ws = true) :
    isObstacleBetweenPoints p0 p1 ws' = true := by
  rw [isObstacleBetweenPoints_iff] at h ⊢
  obtain ⟨w, hw, h⟩ := h
  exact ⟨w, hsub w hw, h⟩

/-- **C07** With no wall everything is visible; a point always sees itself. -/
theorem C07_obstacle_between_trivial (p0 p1 : Vec) (ws : List Wall) :
    isObstacleBetweenPoints p0 p1 [] = false ∧ isObstacleBetweenPoints p0 p0 ws = false := by
  refine ⟨rfl, ?_⟩
  rw [← Bool.not_eq_true, C07_obstacle_between_iff]
  rintro ⟨w, _, h, _⟩
  simp at h

example : isObstacleBetweenPoints (0, 0) (2, 2) [⟨(5, 5), (6, 5)⟩, ⟨(0, 2), (2, 0)⟩] = true := by
  rw [C07_obstacle_between_iff]
  refine ⟨⟨(0, 2), (2, 0)⟩, by simp, by norm_num, (1, 1), ?_, ?_⟩ <;> rw [mem_segment_iff] <;>
    exact ⟨1 / 2, by norm_num, by norm_num, by ext <;> norm_num⟩

end CrowdDynamics
