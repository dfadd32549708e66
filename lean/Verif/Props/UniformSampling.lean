import Verif.Proofs.UniformSampling

/-!
# Property C155: sampled points are uniformly distributed
-/

namespace CrowdDynamics

open Spec MeasureTheory

/-- **C155** A point sampled in a triangle with positive area lies in a measurable set `S` with
probability the share of the area of the triangle that `S` covers. -/
theorem C155_triangle (a b c : Vec) (h : 0 < triArea a b c) (S : Set Vec) (hS : MeasurableSet S) :
    prob2 (fun r1 r2 => randomSampleTriangle r1 r2 a b c ∈ S) =
      volume (S ∩ filled (a, b, c)) / volume (filled (a, b, c)) := by
  have h1 := prob2_sample a b c hS
  have h2 : volume (filled (a, b, c)) = ENNReal.ofReal (triArea a b c) := volume_filled (a, b, c)
  rw [h2, ← h1, mul_comm, ENNReal.mul_div_cancel_right]
  · simpa using h
  · exact ENNReal.ofReal_ne_top

/-- The triangle is not degenerate and the set covers some of it, not everything. -/
example : 0 < triArea (0, 0) (2, 0) (0, 3) ∧ MeasurableSet {p : Vec | p.1 < 1} := by
  refine ⟨by norm_num [triArea], ?_⟩
  exact measurableSet_lt measurable_fst measurable_const

/-- **C155** If the triangulation tiles the convex hull of the vertices and the hull has a
positive area, a point sampled in the polygon lies in a measurable set `S` with probability the
share of the area of the hull that `S` covers. -/
theorem C155_uniform (delaunay : List Vec → List (Vec × Vec × Vec)) (vertices : List Vec)
    (htiles : Tiles (delaunay vertices) (convexHull ℝ {v | v ∈ vertices}))
    (harea : 0 < volume (convexHull ℝ {v | v ∈ vertices})) (S : Set Vec) (hS : MeasurableSet S) :
    prob3 (fun x r1 r2 => ∃ p ∈ S, polygonSample delaunay vertices x r1 r2 = some p) =
      volume (S ∩ convexHull ℝ {v | v ∈ vertices}) / volume (convexHull ℝ {v | v ∈ vertices}) := by
  have hA := tiles_area htiles
  have hpos : 0 < ((delaunay vertices).map meshArea).sum := by
    rw [hA] at harea
    simpa using harea
  rw [prob3_mixture delaunay vertices hpos hS, ← tiles_sum htiles hS, hA, ENNReal.div_eq_inv_mul,
    Finset.mul_sum]
  refine Finset.sum_congr rfl fun i _ => ?_
  rw [C39_probability (delaunay vertices) hpos i.1 (delaunay vertices)[i]
    (List.getElem?_eq_getElem i.2),
    show ((delaunay vertices).map fun t => triArea t.1 t.2.1 t.2.2) =
      (delaunay vertices).map meshArea from rfl,
    ENNReal.ofReal_div_of_pos hpos, ENNReal.div_eq_inv_mul, mul_assoc, prob2_sample _ _ _ hS]

/-- A square cut into two triangles along a diagonal. -/
example : ∃ (delaunay : List Vec → List (Vec × Vec × Vec)) (vertices : List Vec),
    Tiles (delaunay vertices) (convexHull ℝ {v | v ∈ vertices}) ∧
    0 < volume (convexHull ℝ {v | v ∈ vertices}) := by
  have hT : Tiles [(((0 : ℝ), (0 : ℝ)), ((1 : ℝ), (0 : ℝ)), ((1 : ℝ), (1 : ℝ))),
      ((0, 0), (1, 1), (0, 1))]
      (convexHull ℝ {v : Vec | v ∈ [((0 : ℝ), (0 : ℝ)), (1, 0), (1, 1), (0, 1)]}) := by
    constructor
    · intro p
      constructor
      · intro hp
        have hbox : convexHull ℝ {v : Vec | v ∈ [((0 : ℝ), (0 : ℝ)), (1, 0), (1, 1), (0, 1)]} ⊆
            Set.Icc 0 1 ×ˢ Set.Icc 0 1 := by
          refine convexHull_min ?_ ((convex_Icc 0 1).prod (convex_Icc 0 1))
          intro v hv
          simp only [List.mem_cons, List.not_mem_nil, or_false, Set.mem_ofPred_eq] at hv
          rcases hv with rfl | rfl | rfl | rfl <;> simp
        obtain ⟨⟨x0, x1⟩, ⟨y0, y1⟩⟩ := hbox hp
        rcases le_total p.2 p.1 with h | h
        · refine ⟨_, List.mem_cons_self, ?_⟩
          rw [mem_filled]
          rcases x0.lt_or_eq with hx | hx
          · refine ⟨p.1, p.2 / p.1, x0, x1, div_nonneg y0 x0, (div_le_one hx).2 h, ?_⟩
            ext <;> simp <;> field_simp
            ring
          · refine ⟨0, 0, le_refl _, zero_le_one, le_refl _, zero_le_one, ?_⟩
            ext
            · simp [← hx]
            · simp only [← hx] at h ⊢
              simp
              linarith
        · refine ⟨_, List.mem_cons_of_mem _ List.mem_cons_self, ?_⟩
          rw [mem_filled]
          rcases y0.lt_or_eq with hy | hy
          · refine ⟨p.2, 1 - p.1 / p.2, y0, y1, sub_nonneg.2 ((div_le_one hy).2 h), ?_, ?_⟩
            · have := div_nonneg x0 y0
              linarith
            · ext <;> simp <;> field_simp
              ring
          · refine ⟨0, 0, le_refl _, zero_le_one, le_refl _, zero_le_one, ?_⟩
            ext
            · simp only [← hy] at h ⊢
              simp
              linarith
            · simp [← hy]
      · rintro ⟨t, ht, hp⟩
        refine convexHull_mono ?_ hp
        simp only [List.mem_cons, List.not_mem_nil, or_false] at ht
        intro v hv
        rcases ht with rfl | rfl <;>
        · simp only [Set.mem_insert_iff, Set.mem_singleton_iff] at hv
          rcases hv with rfl | rfl | rfl <;> simp
    · simp only [List.pairwise_cons, List.mem_cons, List.not_mem_nil, or_false, forall_eq,
        false_imp_iff, implies_true, List.Pairwise.nil, and_true]
      refine measure_mono_null (t := filled ((0, 0), (1, 1), (1, 1))) ?_
        (filled_null (by norm_num [crossArea]))
      rintro p ⟨h1, h2⟩
      rw [mem_filled] at h1 h2 ⊢
      obtain ⟨l, m, l0, l1, m0, m1, rfl⟩ := h1
      obtain ⟨l', m', l0', l1', m0', m1', e⟩ := h2
      have e1 := congrArg Prod.fst e
      have e2 := congrArg Prod.snd e
      simp at e1 e2
      refine ⟨l, 0, l0, l1, le_refl _, zero_le_one, ?_⟩
      ext <;> simp
      · ring
      · nlinarith
  refine ⟨fun _ => _, _, hT, ?_⟩
  rw [tiles_area hT]
  norm_num [meshArea, triArea]

end CrowdDynamics
