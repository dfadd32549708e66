import Verif.Proofs.RoundedGrid
import Verif.Proofs.RoundedTime

/-!
# Property C178: the grid of the navigation in floating point
-/

namespace CrowdDynamics

open Spec

/-- The full statement of C178: in floating point, the grid has as many columns as without rounding. -/
def C178_statement : Prop :=
  ∀ step minx miny maxx maxy : ℝ, Binary64 step → Binary64 minx → Binary64 miny → Binary64 maxx →
    Binary64 maxy → 0 < step → minx ≤ maxx → miny ≤ maxy →
    ((meshgridF fl64 step minx miny maxx maxy).shape.2 : ℤ) = ⌈(maxx - minx) / step⌉ + 1

/-- **C178** It fails: with the step `0.1` and the bounds `0` and `0.2` the grid has four columns,
not three. The last node is near `0.3`. -/
theorem C178_grid_fails : ¬ C178_statement ∧
    (meshgridF fl64 (fl64 (1 / 10)) 0 0 (fl64 (1 / 5)) (fl64 (1 / 5))).shape = (4, 4) ∧
    (meshgrid (fl64 (1 / 10)) 0 0 (fl64 (1 / 5)) (fl64 (1 / 5))).shape = (3, 3) := by
  have hf : (meshgridF fl64 (fl64 (1 / 10)) 0 0 (fl64 (1 / 5)) (fl64 (1 / 5))).shape = (4, 4) := by
    simp only [meshgridF, arange_fifth]
  have hr : (fl64 (1 / 5) - 0) / fl64 (1 / 10) = 2 := by
    rw [fl64_tenth, fl64_fifth]; norm_num
  have hpos : 0 < fl64 (1 / 10) := by rw [fl64_tenth]; norm_num
  have hpos' : 0 ≤ fl64 (1 / 5) := by rw [fl64_fifth]; norm_num
  refine ⟨fun h => ?_, hf, ?_⟩
  · have := h (fl64 (1 / 10)) 0 0 (fl64 (1 / 5)) (fl64 (1 / 5)) (binary64_fl64 _)
      (by rw [← fl64_zero]; exact binary64_fl64 _) (by rw [← fl64_zero]; exact binary64_fl64 _)
      (binary64_fl64 _) (binary64_fl64 _) hpos hpos' hpos'
    rw [hf, hr] at this
    norm_num at this
  · have e : (arange 0 (fl64 (1 / 5) + fl64 (1 / 10)) (fl64 (1 / 10))).length = 3 := by
      rw [arange_length hpos hpos', hr]; norm_num; rfl
    simp only [meshgrid, e]

/-- **C178** The number of rows and columns differs from that without rounding by at most one, and not at all unless a side is within an eighth of a step from a whole number of steps. -/
theorem C178_shape_partial (step minx miny maxx maxy : ℝ) (hs : (2 : ℝ) ^ (-900 : ℤ) ≤ step)
    (hx : minx ≤ maxx) (hy : miny ≤ maxy) (h1 : |minx| ≤ 2 ^ 44 * step)
    (h2 : |maxx| ≤ 2 ^ 44 * step) (h3 : |miny| ≤ 2 ^ 44 * step) (h4 : |maxy| ≤ 2 ^ 44 * step) :
    |((meshgridF fl64 step minx miny maxx maxy).shape.1 : ℤ) - (⌈(maxy - miny) / step⌉ + 1)| ≤ 1 ∧
    |((meshgridF fl64 step minx miny maxx maxy).shape.2 : ℤ) - (⌈(maxx - minx) / step⌉ + 1)| ≤ 1 ∧
    ((∀ k : ℤ, 1 / 8 < |(maxy - miny) / step - k|) →
      ((meshgridF fl64 step minx miny maxx maxy).shape.1 : ℤ) = ⌈(maxy - miny) / step⌉ + 1) ∧
    ((∀ k : ℤ, 1 / 8 < |(maxx - minx) / step - k|) →
      ((meshgridF fl64 step minx miny maxx maxy).shape.2 : ℤ) = ⌈(maxx - minx) / step⌉ + 1) := by
  obtain ⟨a1, a2, -, a3⟩ := axis_length hs hx h1 h2
  obtain ⟨b1, b2, -, b3⟩ := axis_length hs hy h3 h4
  refine ⟨abs_le.2 ⟨?_, ?_⟩, abs_le.2 ⟨?_, ?_⟩, b3, a3⟩ <;>
    simp only [meshgridF] <;> omega

example : (2 : ℝ) ^ (-900 : ℤ) ≤ 1 / 2 ∧ |(-3 : ℝ)| ≤ 2 ^ 44 * (1 / 2) ∧
    ∀ k : ℤ, (1 : ℝ) / 8 < |(9 / 4 - 0) / (1 / 2) - (k : ℝ)| := by
  refine ⟨?_, by norm_num [abs_of_neg], fun k => ?_⟩
  · calc (2 : ℝ) ^ (-900 : ℤ) ≤ 2 ^ (-1 : ℤ) := zpow_le_zpow_right₀ (by norm_num) (by norm_num)
      _ = _ := by norm_num
  · rw [show ((9 : ℝ) / 4 - 0) / (1 / 2) = 9 / 2 by norm_num]
    rcases le_or_gt k 4 with h | h
    · have : (k : ℝ) ≤ 4 := by exact_mod_cast h
      rw [abs_of_nonneg (by linarith)]; linarith
    · have : (5 : ℝ) ≤ k := by exact_mod_cast h
      rw [abs_of_nonpos (by linarith)]; linarith

/-- **C178** A position inside of the bounds has a valid index, also in floating point. -/
theorem C178_valid (step minx miny maxx maxy : ℝ) (hs : (2 : ℝ) ^ (-900 : ℤ) ≤ step) (p : Vec)
    (hx : minx ≤ p.1) (hx' : p.1 ≤ maxx) (hy : miny ≤ p.2) (hy' : p.2 ≤ maxy)
    (h1 : |minx| ≤ 2 ^ 44 * step) (h2 : |maxx| ≤ 2 ^ 44 * step) (h3 : |miny| ≤ 2 ^ 44 * step)
    (h4 : |maxy| ≤ 2 ^ 44 * step) :
    0 ≤ ((meshgridF fl64 step minx miny maxx maxy).index p).1 ∧
    ((meshgridF fl64 step minx miny maxx maxy).index p).1 <
      (meshgridF fl64 step minx miny maxx maxy).shape.2 ∧
    0 ≤ ((meshgridF fl64 step minx miny maxx maxy).index p).2 ∧
    ((meshgridF fl64 step minx miny maxx maxy).index p).2 <
      (meshgridF fl64 step minx miny maxx maxy).shape.1 := by
  obtain ⟨j, ej, hj, -, -⟩ := axis_index hs hx hx' h1 h2
  obtain ⟨i, ei, hi, -, -⟩ := axis_index hs hy hy' h3 h4
  simp only [meshgridF, ej, ei]
  omega

example : ∃ p : Vec, (-3 : ℝ) ≤ p.1 ∧ p.1 ≤ 10 ∧ (0 : ℝ) ≤ p.2 ∧ p.2 ≤ 5 ∧
    |(-3 : ℝ)| ≤ 2 ^ 44 * (1 / 2) ∧ |(10 : ℝ)| ≤ 2 ^ 44 * (1 / 2) :=
  ⟨(3, 5), by norm_num [abs_of_neg, abs_of_pos]⟩

/-- **C178** The nodes are those of the exact grid up to a small part of the step, and the node of a position is to its lower left and less than one step away, up to a small part of the step. -/
theorem C178_index_partial (step minx miny maxx maxy : ℝ) (hs : (2 : ℝ) ^ (-900 : ℤ) ≤ step)
    (h1 : |minx| ≤ 2 ^ 20 * step) (h2 : |maxx| ≤ 2 ^ 20 * step) (h3 : |miny| ≤ 2 ^ 20 * step)
    (h4 : |maxy| ≤ 2 ^ 20 * step) (hx : minx ≤ maxx) (hy : miny ≤ maxy) :
    (∀ i j, i < (meshgridF fl64 step minx miny maxx maxy).shape.1 →
      j < (meshgridF fl64 step minx miny maxx maxy).shape.2 →
      |(meshgridF fl64 step minx miny maxx maxy).x.val i j - (minx + j * step)| ≤ step / 128 ∧
      |(meshgridF fl64 step minx miny maxx maxy).y.val i j - (miny + i * step)| ≤ step / 128) ∧
    ∀ p : Vec, minx ≤ p.1 → p.1 ≤ maxx → miny ≤ p.2 → p.2 ≤ maxy →
      ∃ i j : ℕ, (meshgridF fl64 step minx miny maxx maxy).index p = ((j : ℤ), (i : ℤ)) ∧
        i < (meshgridF fl64 step minx miny maxx maxy).shape.1 ∧
        j < (meshgridF fl64 step minx miny maxx maxy).shape.2 ∧
        (meshgridF fl64 step minx miny maxx maxy).x.val i j ≤ p.1 + step / 8 ∧
        p.1 < (meshgridF fl64 step minx miny maxx maxy).x.val i j + step + step / 8 ∧
        (meshgridF fl64 step minx miny maxx maxy).y.val i j ≤ p.2 + step / 8 ∧
        p.2 < (meshgridF fl64 step minx miny maxx maxy).y.val i j + step + step / 8 := by
  have hs0 : 0 < step := (two_zpow_pos _).trans_le hs
  have h2044 : (2 : ℝ) ^ 20 * step ≤ 2 ^ 44 * step :=
    mul_le_mul_of_nonneg_right (by norm_num) hs0.le
  have hv : ∀ i j, i < (meshgridF fl64 step minx miny maxx maxy).shape.1 →
      j < (meshgridF fl64 step minx miny maxx maxy).shape.2 →
      |(meshgridF fl64 step minx miny maxx maxy).x.val i j - (minx + j * step)| ≤ step / 128 ∧
      |(meshgridF fl64 step minx miny maxx maxy).y.val i j - (miny + i * step)| ≤ step / 128 :=
    fun i j hi hj => ⟨axis_node hs hx h1 h2 hj, axis_node hs hy h3 h4 hi⟩
  refine ⟨hv, fun p px px' py py' => ?_⟩
  obtain ⟨j, ej, hj, j1, j2⟩ := axis_index hs px px' (h1.trans h2044) (h2.trans h2044)
  obtain ⟨i, ei, hi, i1, i2⟩ := axis_index hs py py' (h3.trans h2044) (h4.trans h2044)
  obtain ⟨v1, v2⟩ := hv i j hi hj
  rw [abs_le] at v1 v2
  refine ⟨i, j, ?_, hi, hj, by linarith, by linarith, by linarith, by linarith⟩
  simp only [meshgridF, ej, ei]

example : |(-3 : ℝ)| ≤ 2 ^ 20 * (1 / 10) ∧ |(10 : ℝ)| ≤ 2 ^ 20 * (1 / 10) := by
  norm_num [abs_of_neg, abs_of_pos]

/-- **C178** Without rounding, it is the grid of C56. -/
theorem C178_exact (step minx miny maxx maxy : ℝ) :
    meshgridF id step minx miny maxx maxy = meshgrid step minx miny maxx maxy := by
  simp only [meshgridF, meshgrid, id_eq, arangeF_id]

end CrowdDynamics
