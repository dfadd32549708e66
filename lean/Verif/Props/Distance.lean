import Verif.Proofs.Distance

/-!
# Properties C08–C11 and C69: skin-to-skin distances
-/

namespace CrowdDynamics

open Spec

/-! ## C08: two circles -/

/-- **C08** `h` is the distance of the centres minus the radii. -/
theorem C08_circles_distance (x0 : Vec) (r0 : ℝ) (x1 : Vec) (r1 : ℝ) :
    (distanceCircles x0 r0 x1 r1).1 = Spec.dist x0 x1 - (r0 + r1) :=
  distanceCircles_fst x0 r0 x1 r1

/-- **C08** `h < 0` exactly if the two open discs share a point. -/
theorem C08_circles_overlap_iff (x0 : Vec) (r0 : ℝ) (x1 : Vec) (r1 : ℝ)
    (h0 : 0 < r0) (h1 : 0 < r1) :
    (distanceCircles x0 r0 x1 r1).1 < 0 ↔ ∃ z, Spec.dist x0 z < r0 ∧ Spec.dist x1 z < r1 := by
  rw [distanceCircles_fst]
  constructor
  · intro h
    have hr : 0 < r0 + r1 := add_pos h0 h1
    refine ⟨x0 + (r0 / (r0 + r1)) • (x1 - x0), ?_, ?_⟩
    · unfold Spec.dist
      rw [← length_eq, show x0 - (x0 + (r0 / (r0 + r1)) • (x1 - x0)) =
        (r0 / (r0 + r1)) • (x0 - x1) by rw [smul_sub, smul_sub]; abel,
        length_smul, abs_of_pos (div_pos h0 hr), div_mul_eq_mul_div, div_lt_iff₀ hr]
      have : length (x0 - x1) < r0 + r1 := by unfold Spec.dist at h; rw [← length_eq] at h; linarith
      nlinarith
    · unfold Spec.dist
      rw [← length_eq, show x1 - (x0 + (r0 / (r0 + r1)) • (x1 - x0)) =
        (-(r1 / (r0 + r1))) • (x0 - x1) by
          have : r0 / (r0 + r1) = 1 - r1 / (r0 + r1) := by field_simp; ring
          rw [this, sub_smul, one_smul, neg_smul, smul_sub, smul_sub]; abel,
        length_smul, abs_neg, abs_of_pos (div_pos h1 hr), div_mul_eq_mul_div, div_lt_iff₀ hr]
      have : length (x0 - x1) < r0 + r1 := by unfold Spec.dist at h; rw [← length_eq] at h; linarith
      nlinarith
  · rintro ⟨z, hz0, hz1⟩
    unfold Spec.dist at *
    rw [← length_eq] at *
    have := length_sub_le x0 z x1
    rw [length_sub_comm z x1] at this
    linarith

example := C08_circles_overlap_iff (0, 0) 0.25 (0.3, 0) 0.25 (by norm_num) (by norm_num)

/-- **C08** The normal is the unit vector from the second to the first centre. -/
theorem C08_circles_normal (x0 : Vec) (r0 : ℝ) (x1 : Vec) (r1 : ℝ) (h : x0 ≠ x1) :
    Spec.len (distanceCircles x0 r0 x1 r1).2 = 1 ∧
      Spec.dist x0 x1 • (distanceCircles x0 r0 x1 r1).2 = x0 - x1 :=
  distanceCircles_normal x0 r0 x1 r1 h

example := C08_circles_normal (0, 0) 0.25 (0.3, 0) 0.25 (by norm_num)

/-- **C08** Coinciding centres have the zero normal (so no contact force direction). -/
theorem C08_circles_normal_coinciding (x : Vec) (r0 r1 : ℝ) :
    (distanceCircles x r0 x r1).2 = (0, 0) := distanceCircles_normal_self x r0 r1

/-- **C08** Exchanging the circles keeps the distance and negates the normal. -/
theorem C08_circles_swap (x0 : Vec) (r0 : ℝ) (x1 : Vec) (r1 : ℝ) :
    (distanceCircles x1 r1 x0 r0).1 = (distanceCircles x0 r0 x1 r1).1 ∧
      (distanceCircles x1 r1 x0 r0).2 = -(distanceCircles x0 r0 x1 r1).2 :=
  distanceCircles_swap x0 r0 x1 r1

example : (0 : ℝ) < 0.25 ∧ ((0, 0) : Vec) ≠ (1, 0) := by
  refine ⟨by norm_num, fun h => ?_⟩
  have := congrArg Prod.fst h; norm_num at this

/-! ## C09: two three-circle agents -/

/-- **C09 (partial)** `h` is the least of the nine circle distances, the normal is
the unit vector between the centres of a minimising pair `(i, j)`, and the arm of
the first agent is the documented one. Missing: the documented arm
`x1[j] - r1[j]·n - x1[0]` of the second agent; the code returns a value that is off
by `x0[j] - x1[j]`, see `C09_three_circles_moment_fails`. -/
theorem C09_three_circles_partial (x0 : Fin 3 → Vec) (r0 : Fin 3 → ℝ) (x1 : Fin 3 → Vec)
    (r1 : Fin 3 → ℝ) :
    ∃ i j : Fin 3, ∃ n : Vec,
      (distanceThreeCircles x0 r0 x1 r1).h = Spec.dist (x0 i) (x1 j) - (r0 i + r1 j) ∧
      (∀ i' j', (distanceThreeCircles x0 r0 x1 r1).h ≤
        Spec.dist (x0 i') (x1 j') - (r0 i' + r1 j')) ∧
      (distanceThreeCircles x0 r0 x1 r1).n = n ∧
      Spec.dist (x0 i) (x1 j) • n = x0 i - x1 j ∧ (x0 i ≠ x1 j → Spec.len n = 1) ∧
      (distanceThreeCircles x0 r0 x1 r1).rm0 = x0 i + r0 i • n - x0 0 ∧
      (distanceThreeCircles x0 r0 x1 r1).rm1 =
        (x1 j - r1 j • n - x1 0) + (x0 j - x1 j) := by
  obtain ⟨i, j, n, h1, h2, h3, h4, h5, h6⟩ := distanceThreeCircles_spec x0 r0 x1 r1
  refine ⟨i, j, n, h1, h2, h3, ?_, ?_, h5, ?_⟩
  · by_cases h : x0 i = x1 j
    · rw [h4, h, distanceCircles_normal_self, sub_self]; exact smul_zero _
    · rw [h4]; exact (distanceCircles_normal _ _ _ _ h).2
  · intro h; rw [h4]; exact (distanceCircles_normal _ _ _ _ h).1
  · rw [h6]; abel

/-- **C09** Exchanging the agents does not change the distance. -/
theorem C09_three_circles_symm (x0 : Fin 3 → Vec) (r0 : Fin 3 → ℝ) (x1 : Fin 3 → Vec)
    (r1 : Fin 3 → ℝ) :
    (distanceThreeCircles x1 r1 x0 r0).h = (distanceThreeCircles x0 r0 x1 r1).h := by
  obtain ⟨i, j, n, h1, h2, -⟩ := distanceThreeCircles_spec x0 r0 x1 r1
  obtain ⟨i', j', n', h1', h2', -⟩ := distanceThreeCircles_spec x1 r1 x0 r0
  apply le_antisymm
  · have := h2' j i
    rw [h1]; unfold Spec.dist at *; rw [← length_eq] at *; rw [length_sub_comm] at this; linarith
  · have := h2 j' i'
    rw [h1']; unfold Spec.dist at *; rw [← length_eq] at *; rw [length_sub_comm] at this; linarith

/-- **C09 fails** for the arm of the second agent: for two agents at `(0,0)` and
`(10,0)` no minimising pair of circles gives the documented arm. -/
theorem C09_three_circles_moment_fails :
    ∃ (x0 : Fin 3 → Vec) (r0 : Fin 3 → ℝ) (x1 : Fin 3 → Vec) (r1 : Fin 3 → ℝ),
      ∀ j : Fin 3, (distanceThreeCircles x0 r0 x1 r1).rm1 ≠
        x1 j - r1 j • (distanceThreeCircles x0 r0 x1 r1).n - x1 0 := by
  refine ⟨fun _ => (0, 0), fun _ => 1, fun _ => (10, 0), fun _ => 1, ?_⟩
  intro j
  obtain ⟨i, j', n, -, -, h3, -, -, h6⟩ :=
    distanceThreeCircles_spec (fun _ => (0, 0)) (fun _ => 1) (fun _ => (10, 0)) (fun _ => 1)
  rw [h6, h3]
  intro h
  have := congrArg Prod.fst h
  simp at this

/-! ## C69: the arms reach the contact point -/

/-- **C69 fails**: for two torso-only agents that exactly touch at `(1, 0)` the arm of
the first agent points to the opposite side of its torso. -/
theorem C69_moment_contact_point_fails :
    ∃ (x0 : Fin 3 → Vec) (r0 : Fin 3 → ℝ) (x1 : Fin 3 → Vec) (r1 : Fin 3 → ℝ) (z : Vec),
      (distanceThreeCircles x0 r0 x1 r1).h = 0 ∧
      (∀ y, (∃ i, Spec.dist (x0 i) y ≤ r0 i) ∧ (∃ j, Spec.dist (x1 j) y ≤ r1 j) → y = z) ∧
      (∃ i, Spec.dist (x0 i) z ≤ r0 i) ∧ (∃ j, Spec.dist (x1 j) z ≤ r1 j) ∧
      (distanceThreeCircles x0 r0 x1 r1).rm0 ≠ z - x0 0 := by
  have d20 : Spec.dist ((0, 0) : Vec) (2, 0) = 2 := by
    unfold Spec.dist Spec.len
    rw [Real.sqrt_eq_iff_mul_self_eq (by positivity) (by norm_num)]; norm_num
  refine ⟨fun _ => (0, 0), fun _ => 1, fun _ => (2, 0), fun _ => 1, (1, 0), ?_, ?_, ?_, ?_, ?_⟩
  · obtain ⟨i, j, n, h1, -⟩ :=
      distanceThreeCircles_spec (fun _ => (0, 0)) (fun _ => 1) (fun _ => (2, 0)) (fun _ => 1)
    rw [h1, d20]; norm_num
  · rintro y ⟨⟨_, h1⟩, ⟨_, h2⟩⟩
    have e1 := length_sq (((0, 0) : Vec) - y)
    have e2 := length_sq (((2, 0) : Vec) - y)
    have n1 := length_nonneg (((0, 0) : Vec) - y)
    have n2 := length_nonneg (((2, 0) : Vec) - y)
    unfold Spec.dist at h1 h2
    rw [← length_eq] at h1 h2
    simp only [Prod.fst_sub, Prod.snd_sub] at e1 e2
    have hy1 : y.1 = 1 := by nlinarith [sq_nonneg y.2, sq_nonneg (y.1 - 1)]
    have hy2 : y.2 = 0 := by
      rw [hy1] at e1 e2
      have : y.2 ^ 2 ≤ 0 := by nlinarith
      nlinarith [sq_nonneg y.2]
    exact Prod.ext hy1 hy2
  · refine ⟨0, ?_⟩
    unfold Spec.dist Spec.len; norm_num
  · refine ⟨0, ?_⟩
    unfold Spec.dist Spec.len; norm_num
  · obtain ⟨i, j, n, -, -, -, h4, h5, -⟩ :=
      distanceThreeCircles_spec (fun _ => (0, 0)) (fun _ => 1) (fun _ => (2, 0)) (fun _ => 1)
    have hne : ((0, 0) : Vec) ≠ (2, 0) := by
      intro h; have := congrArg Prod.fst h; norm_num at this
    have hn := (distanceCircles_normal (0, 0) 1 (2, 0) 1 hne).2
    rw [h5]
    rw [← h4, d20] at hn
    have hn1 := congrArg Prod.fst hn
    simp only [Prod.smul_fst, smul_eq_mul, Prod.fst_sub] at hn1
    intro h
    have := congrArg Prod.fst h
    simp only [Prod.fst_sub, Prod.fst_add, Prod.smul_fst, smul_eq_mul] at this
    linarith

/-- **C69 (partial)** For walls the arm does reach the contact point: the foot point
of the closest circle of the agent (see C11). For agent pairs the arms are those of
C09 and do not reach it. Here: the end point of the first arm lies on the closest
circle, on the far side. -/
theorem C69_moment_arm_partial (x0 : Fin 3 → Vec) (r0 : Fin 3 → ℝ) (x1 : Fin 3 → Vec)
    (r1 : Fin 3 → ℝ) (hr : ∀ i, 0 ≤ r0 i) (hx : ∀ i j, x0 i ≠ x1 j) :
    ∃ i j : Fin 3,
      Spec.dist (x0 0 + (distanceThreeCircles x0 r0 x1 r1).rm0) (x0 i) = r0 i ∧
      Spec.dist (x0 0 + (distanceThreeCircles x0 r0 x1 r1).rm0) (x1 j) =
        Spec.dist (x0 i) (x1 j) + r0 i := by
  obtain ⟨i, j, n, -, -, -, h4, h5, -⟩ := distanceThreeCircles_spec x0 r0 x1 r1
  obtain ⟨hn1, hn2⟩ := distanceCircles_normal (x0 i) (r0 i) (x1 j) (r1 j) (hx i j)
  rw [← h4] at hn1 hn2
  refine ⟨i, j, ?_, ?_⟩
  · rw [h5]
    unfold Spec.dist
    rw [show x0 0 + (x0 i + r0 i • n - x0 0) - x0 i = r0 i • n by abel, ← length_eq, length_smul,
      length_eq, hn1, mul_one, abs_of_nonneg (hr i)]
  · have hd : 0 ≤ Spec.dist (x0 i) (x1 j) := length_nonneg _
    rw [h5]
    have : x0 0 + (x0 i + r0 i • n - x0 0) - x1 j = (Spec.dist (x0 i) (x1 j) + r0 i) • n := by
      rw [add_smul, hn2]; abel
    rw [show Spec.dist (x0 0 + (x0 i + r0 i • n - x0 0)) (x1 j) =
      Spec.len (x0 0 + (x0 i + r0 i • n - x0 0) - x1 j) from rfl, this, ← length_eq, length_smul,
      length_eq, hn1, mul_one, abs_of_nonneg (add_nonneg hd (hr i))]

example : ∃ (x0 x1 : Fin 3 → Vec) (r0 : Fin 3 → ℝ), (∀ i, 0 ≤ r0 i) ∧ ∀ i j, x0 i ≠ x1 j :=
  ⟨fun i => (0, i), fun i => (5, i), fun _ => 1, fun _ => by norm_num, fun i j h => by
    have := congrArg Prod.fst h; norm_num at this⟩

/-! ## C10: circle and wall -/

/-- **C10** For a wall with different end points, `h + r` is the least distance from the
centre to a point of the closed wall segment; it is attained at a foot point `q`, and
the normal is the unit vector from `q` to the centre (zero if the centre is on the
wall). -/
theorem C10_circle_line_distance (x : Vec) (r : ℝ) (p0 p1 : Vec) (hne : p0 ≠ p1) :
    ∃ h n, distanceCircleLine x r p0 p1 = some (h, n) ∧
      (∃ q ∈ segment ℝ p0 p1, Spec.dist x q = h + r ∧ (h + r) • n = x - q ∧
        (x ≠ q → Spec.len n = 1) ∧ (x = q → n = 0)) ∧
      ∀ q ∈ segment ℝ p0 p1, h + r ≤ Spec.dist x q :=
  distanceCircleLine_spec x r p0 p1 hne

example := C10_circle_line_distance (1, 1) 0.25 (0, 0) (0, 2) (by norm_num)

/-- **C10** A wall of length zero gives NaN, whatever the centre. -/
theorem C10_circle_line_degenerate (x : Vec) (r : ℝ) (p : Vec) :
    distanceCircleLine x r p p = none := distanceCircleLine_degenerate x r p

example : ((0, 0) : Vec) ≠ (0, 2) := by
  intro h; have := congrArg Prod.snd h; norm_num at this

/-! ## C11: three-circle agent and wall -/

/-- **C11** `h` is the least of the three circle-wall distances; the arm leads from the
torso centre to the point of the minimising circle that faces the wall. -/
theorem C11_three_circle_line (x : Fin 3 → Vec) (r : Fin 3 → ℝ) (p0 p1 : Vec) (hne : p0 ≠ p1) :
    ∃ h n arm, distanceThreeCircleLine x r p0 p1 = some (h, n, arm) ∧
      (∃ i, ∃ q ∈ segment ℝ p0 p1, Spec.dist (x i) q = h + r i ∧ (h + r i) • n = x i - q ∧
        (x i ≠ q → Spec.len n = 1) ∧ (x i = q → n = 0) ∧ arm = x i - r i • n - x 0) ∧
      ∀ i, ∀ q ∈ segment ℝ p0 p1, h + r i ≤ Spec.dist (x i) q :=
  distanceThreeCircleLine_spec x r p0 p1 hne

example := C11_three_circle_line ![(1, 1), (1, 1.3), (1, 0.7)] ![0.2, 0.1, 0.1] (0, 0) (0, 2)
  (by norm_num)

/-- **C11** A wall of length zero gives NaN. -/
theorem C11_three_circle_line_degenerate (x : Fin 3 → Vec) (r : Fin 3 → ℝ) (p : Vec) :
    distanceThreeCircleLine x r p p = none := distanceThreeCircleLine_degenerate x r p

end CrowdDynamics
