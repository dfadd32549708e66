import Verif.Proofs.Sampling
import Mathlib.Analysis.Convex.Join

/-!
# Properties C38–C40, C73: sampling points
-/

namespace CrowdDynamics

open Spec MeasureTheory

/-! ## C38: samples lie inside -/

/-- **C38** `random_sample_line` returns a point of the segment. -/
theorem C38_line (p0 p1 : Vec) (x : ℝ) (h0 : 0 ≤ x) (h1 : x < 1) :
    randomSampleLine x p0 p1 ∈ segment ℝ p0 p1 := by
  refine ⟨1 - x, x, by linarith, h0, by ring, ?_⟩
  unfold randomSampleLine
  module

example := C38_line (0, 0) (3, 1) 0.25 (by norm_num) (by norm_num)

/-- **C38** `random_sample_triangle` returns a point of the triangle. -/
theorem C38_triangle (a b c : Vec) (r1 r2 : ℝ) (h1' : r1 < 1) (h2 : 0 ≤ r2)
    (h2' : r2 < 1) : randomSampleTriangle r1 r2 a b c ∈ convexHull ℝ {a, b, c} := by
  have hs0 : 0 ≤ √r1 := Real.sqrt_nonneg _
  have hs1 : √r1 ≤ 1 := Real.sqrt_le_one.2 h1'.le
  have hc := convex_convexHull ℝ ({a, b, c} : Set Vec)
  have ha : a ∈ convexHull ℝ ({a, b, c} : Set Vec) := subset_convexHull ℝ _ (by simp)
  have hb : b ∈ convexHull ℝ ({a, b, c} : Set Vec) := subset_convexHull ℝ _ (by simp)
  have hc' : c ∈ convexHull ℝ ({a, b, c} : Set Vec) := subset_convexHull ℝ _ (by simp)
  have hbc := hc hb hc' (sub_nonneg.2 h2'.le) h2 (by ring : (1 - r2) + r2 = 1)
  have := hc ha hbc (sub_nonneg.2 hs1) hs0 (by ring : (1 - √r1) + √r1 = 1)
  convert this using 1
  unfold randomSampleTriangle
  module

example := C38_triangle (0, 0) (3, 1) (1, 4) 0.25 0.75 (by norm_num) (by norm_num) (by norm_num)

/-- **C38** If the last segment is not degenerate, `linestring_sample` never fails and returns
a point of the line string. -/
theorem C38_linestring (vertices : List Vec) (hlen : 2 ≤ vertices.length)
    (hlast : 0 < segLen vertices (vertices.length - 2)) (x y : ℝ) (hx : x < 1)
    (hy0 : 0 ≤ y) (hy1 : y < 1) :
    ∃ p, linestringSample vertices x y = some p ∧ OnLineString vertices p := by
  have hl := lengthCumsum_length vertices
  have hne : linestringLengthCumsum vertices ≠ [] := by
    rw [← List.length_pos_iff, hl]; omega
  have hl' : 0 < (linestringLengthCumsum vertices).getD
      ((linestringLengthCumsum vertices).length - 1) 0 := by
    rw [hl, lengthCumsum_getD _ (by omega)]
    have : vertices.length - 1 - 1 = vertices.length - 2 := by omega
    rw [this]; exact hlast
  obtain ⟨i, hi, e⟩ := weights_choice hne hl' hx
  rw [hl] at hi
  unfold linestringSample linestringChoice
  rw [e]
  simp only
  have e0 : vertices[i]? = some vertices[i] := List.getElem?_eq_getElem (by omega)
  have e1 : vertices[i + 1]? = some vertices[i + 1] := List.getElem?_eq_getElem (by omega)
  rw [e0, e1]
  exact ⟨_, rfl, i, _, _, e0, e1, C38_line _ _ y hy0 hy1⟩

example : 2 ≤ [((0 : ℝ), (0 : ℝ)), (3, 0), (3, 1)].length ∧
    0 < segLen [((0 : ℝ), (0 : ℝ)), (3, 0), (3, 1)] (3 - 2) := by
  refine ⟨by simp, ?_⟩
  norm_num [segLen, Spec.dist, Spec.len]

/-- **C38** Whatever triangulation of positive total area with corners among the vertices
scipy returns, `polygon_sample` never fails and returns a point of the convex hull of the
vertices. -/
theorem C38_polygon (delaunay : List Vec → List (Vec × Vec × Vec)) (vertices : List Vec)
    (hcorner : ∀ t ∈ delaunay vertices, t.1 ∈ vertices ∧ t.2.1 ∈ vertices ∧ t.2.2 ∈ vertices)
    (harea : 0 < ((delaunay vertices).map fun t => triArea t.1 t.2.1 t.2.2).sum)
    (x r1 r2 : ℝ) (hx : x < 1) (h1' : r1 < 1) (h2 : 0 ≤ r2) (h2' : r2 < 1) :
    ∃ p, polygonSample delaunay vertices x r1 r2 = some p ∧
      p ∈ convexHull ℝ {v | v ∈ vertices} := by
  have hne : delaunay vertices ≠ [] := by
    intro h; rw [h] at harea; simp at harea
  obtain ⟨i, hi, e⟩ := weights_choice (cumsum_ne_nil hne)
    (by rw [cumsum_last _ hne]; exact harea) hx
  rw [cumsum_length] at hi
  unfold polygonSample triangleChoice
  simp only
  rw [e]
  simp only
  rw [List.getElem?_eq_getElem hi]
  simp only
  refine ⟨_, rfl, ?_⟩
  obtain ⟨k1, k2, k3⟩ := hcorner _ (List.getElem_mem hi)
  refine convexHull_mono ?_ (C38_triangle _ _ _ r1 r2 h1' h2 h2')
  intro v hv
  simp only [Set.mem_insert_iff, Set.mem_singleton_iff] at hv
  rcases hv with rfl | rfl | rfl
  · exact k1
  · exact k2
  · exact k3

/-- A square and its triangulation into two triangles. -/
example : ∃ (delaunay : List Vec → List (Vec × Vec × Vec)) (vertices : List Vec),
    (∀ t ∈ delaunay vertices, t.1 ∈ vertices ∧ t.2.1 ∈ vertices ∧ t.2.2 ∈ vertices) ∧
    0 < ((delaunay vertices).map fun t => triArea t.1 t.2.1 t.2.2).sum := by
  refine ⟨fun _ => [((0, 0), (1, 0), (1, 1)), ((0, 0), (1, 1), (0, 1))],
    [(0, 0), (1, 0), (1, 1), (0, 1)], ?_, ?_⟩
  · intro t ht
    simp only [List.mem_cons, List.not_mem_nil, or_false] at ht
    rcases ht with rfl | rfl <;> simp
  · norm_num [triArea]

/-! ## C39: triangles are chosen with the right probability -/

/-- **C39** The probability of choosing a triangle is its share of the total area. -/
theorem C39_probability (mesh : List (Vec × Vec × Vec))
    (harea : 0 < (mesh.map fun t => triArea t.1 t.2.1 t.2.2).sum) (i : ℕ)
    (t : Vec × Vec × Vec) (ht : mesh[i]? = some t) :
    prob (fun x => triangleChoice mesh x = some i) =
      ENNReal.ofReal (triArea t.1 t.2.1 t.2.2 /
        (mesh.map fun t => triArea t.1 t.2.1 t.2.2).sum) := by
  have hi : i < mesh.length := (List.getElem?_eq_some_iff.1 ht).1
  have hne : mesh ≠ [] := by rintro rfl; simp at hi
  unfold triangleChoice
  rw [prob_weights (cumsum_sorted mesh) (cumsum_nonneg mesh)
    (by rw [cumsum_last _ hne]; exact harea) (by rw [cumsum_length]; exact hi), cumsum_last _ hne,
    cumsum_getD mesh hi, take_sum_succ mesh hi]
  have e : mesh[i] = t := by
    rw [List.getElem?_eq_getElem hi] at ht
    simpa using ht
  rw [e]
  congr 2
  split_ifs with h
  · subst h
    simp [meshArea]
  · rw [cumsum_getD mesh (by omega), show i - 1 + 1 = i by omega]
    simp [meshArea]

example := C39_probability [((0, 0), (1, 0), (0, 1)), ((0, 0), (3, 0), (0, 1))]
  (by norm_num [triArea]) 1 _ rfl

/-- **C39** Every random number below 1 chooses an existing triangle. -/
theorem C39_valid (mesh : List (Vec × Vec × Vec))
    (harea : 0 < (mesh.map fun t => triArea t.1 t.2.1 t.2.2).sum) (x : ℝ) (hx : x < 1) :
    ∃ i, i < mesh.length ∧ triangleChoice mesh x = some i := by
  have hne : mesh ≠ [] := by intro h; rw [h] at harea; simp at harea
  obtain ⟨i, hi, e⟩ := weights_choice (cumsum_ne_nil hne)
    (by rw [cumsum_last _ hne]; exact harea) hx
  rw [cumsum_length] at hi
  exact ⟨i, hi, e⟩

/-- Two triangles of areas 1/2 and 3/2. -/
example : 0 < (([((0, 0), (1, 0), (0, 1)), ((0, 0), (3, 0), (0, 1))] :
    List (Vec × Vec × Vec)).map fun t => triArea t.1 t.2.1 t.2.2).sum := by
  norm_num [triArea]

/-! ## C40: segments of a line string -/

/-- **C40**, full statement: each segment is chosen with the probability that is its share of
the total length. -/
def C40_statement : Prop :=
  ∀ (vertices : List Vec), 2 ≤ vertices.length →
    (∀ i, i < vertices.length - 1 → 0 < segLen vertices i) →
    ∀ i, i < vertices.length - 1 →
      prob (fun x => linestringChoice vertices x = some i) =
        ENNReal.ofReal (segLen vertices i / lineLen vertices)

/-- **C40** What holds instead for segments of nondecreasing lengths: the probability of a
segment is the amount by which it is longer than the one before, as a share of the length of
the last one. The weights are the lengths, not their cumulative sums. -/
theorem C40_sorted_partial (vertices : List Vec) (hlen : 2 ≤ vertices.length)
    (hpos : ∀ i, i < vertices.length - 1 → 0 < segLen vertices i)
    (hmono : ∀ i j, i ≤ j → j < vertices.length - 1 → segLen vertices i ≤ segLen vertices j)
    (i : ℕ) (hi : i < vertices.length - 1) :
    prob (fun x => linestringChoice vertices x = some i) =
      ENNReal.ofReal ((segLen vertices i - if i = 0 then 0 else segLen vertices (i - 1)) /
        segLen vertices (vertices.length - 2)) := by
  have hl := lengthCumsum_length vertices
  have hlast : (linestringLengthCumsum vertices).getD
      ((linestringLengthCumsum vertices).length - 1) 0 =
        segLen vertices (vertices.length - 2) := by
    rw [hl, lengthCumsum_getD _ (by omega), show vertices.length - 1 - 1 = vertices.length - 2 by
      omega]
  unfold linestringChoice
  rw [prob_weights (w := linestringLengthCumsum vertices)]
  · rw [hlast, lengthCumsum_getD _ hi]
    congr 2
    split_ifs with h
    · rfl
    · rw [lengthCumsum_getD _ (by omega)]
  · intro i j hij hj
    rw [hl] at hj
    rw [lengthCumsum_getD _ (by omega), lengthCumsum_getD _ hj]
    exact hmono i j hij hj
  · intro i hi
    rw [hl] at hi
    rw [lengthCumsum_getD _ hi]
    exact (hpos i hi).le
  · rw [hlast]; exact hpos _ (by omega)
  · rw [hl]; exact hi

lemma dist_axis (x y : ℝ) (h : x ≤ y) : Spec.dist ((x, 0) : Vec) (y, 0) = y - x := by
  unfold Spec.dist Spec.len
  simp only [Prod.fst_sub, Prod.snd_sub, sub_zero]
  rw [show (x - y) ^ 2 + (0 : ℝ) ^ 2 = (y - x) ^ 2 by ring, Real.sqrt_sq (by linarith)]

/-- **C40** The statement is false, already for two segments of equal length: the second one
has probability 0. -/
theorem C40_linestring_fails : ¬ C40_statement := by
  intro h
  have s0 : segLen [((0 : ℝ), (0 : ℝ)), (1, 0), (2, 0)] 0 = 1 := by
    have := dist_axis 0 1 (by norm_num)
    simp only [segLen]
    simpa using this
  have s1 : segLen [((0 : ℝ), (0 : ℝ)), (1, 0), (2, 0)] 1 = 1 := by
    have := dist_axis 1 2 (by norm_num)
    simp only [segLen]
    norm_num at this ⊢
    exact this
  have hcase : ∀ i, i < [((0 : ℝ), (0 : ℝ)), (1, 0), (2, 0)].length - 1 →
      segLen [((0 : ℝ), (0 : ℝ)), (1, 0), (2, 0)] i = 1 := by
    intro i hi
    simp only [List.length_cons, List.length_nil] at hi
    have : i = 0 ∨ i = 1 := by omega
    rcases this with rfl | rfl
    · exact s0
    · exact s1
  have hpos : ∀ i, i < [((0 : ℝ), (0 : ℝ)), (1, 0), (2, 0)].length - 1 →
      0 < segLen [((0 : ℝ), (0 : ℝ)), (1, 0), (2, 0)] i := by
    intro i hi
    rw [hcase i hi]; norm_num
  have h1 := h [((0 : ℝ), (0 : ℝ)), (1, 0), (2, 0)] (by simp) hpos 1 (by simp)
  rw [C40_sorted_partial _ (by simp) hpos (fun i j hij hj => by
    rw [hcase i (by omega), hcase j hj]) 1 (by simp)] at h1
  have hll : lineLen [((0 : ℝ), (0 : ℝ)), (1, 0), (2, 0)] = 2 := by
    unfold lineLen
    simp only [List.length_cons, List.length_nil, show (0 + 1 + 1 + 1 - 1 : ℕ) = 2 from rfl,
      List.range_succ, List.range_zero, List.nil_append, List.cons_append, List.map_cons,
      List.map_nil, List.sum_cons, List.sum_nil, s0, s1]
    norm_num
  rw [hll, s1] at h1
  simp [s0] at h1
  have h2 := ENNReal.inv_eq_zero.1 h1.symm
  simp at h2

/-- **C40** Shorter segments at the end make the choice independent of the random number: on
a line string with segments of lengths 3 and 1 the second segment is never sampled. -/
theorem C40_never_chosen_fails :
    ∃ vertices : List Vec, 2 ≤ vertices.length ∧ 0 < segLen vertices 1 ∧ 1 < vertices.length - 1 ∧
      ∀ x, x < 1 → linestringChoice vertices x = some 0 := by
  refine ⟨[(0, 0), (3, 0), (4, 0)], by simp, ?_, by simp, fun x hx => ?_⟩
  · have := dist_axis 3 4 (by norm_num)
    simp only [segLen]
    norm_num at this ⊢
    rw [this]; norm_num
  · have s0 : segLen [((0 : ℝ), (0 : ℝ)), (3, 0), (4, 0)] 0 = 3 := by
      have := dist_axis 0 3 (by norm_num)
      simp only [segLen]
      simpa using this
    have s1 : segLen [((0 : ℝ), (0 : ℝ)), (3, 0), (4, 0)] 1 = 1 := by
      have := dist_axis 3 4 (by norm_num)
      simp only [segLen]
      norm_num at this ⊢
      exact this
    have hw : linestringLengthCumsum [((0 : ℝ), (0 : ℝ)), (3, 0), (4, 0)] = [3, 1] := by
      have g0 := lengthCumsum_getD [((0 : ℝ), (0 : ℝ)), (3, 0), (4, 0)] (i := 0) (by simp)
      have g1 := lengthCumsum_getD [((0 : ℝ), (0 : ℝ)), (3, 0), (4, 0)] (i := 1) (by simp)
      rw [s0] at g0
      rw [s1] at g1
      have hl := lengthCumsum_length [((0 : ℝ), (0 : ℝ)), (3, 0), (4, 0)]
      generalize linestringLengthCumsum [((0 : ℝ), (0 : ℝ)), (3, 0), (4, 0)] = l at *
      match l, hl with
      | [a, b], _ =>
        simp only [List.getD_cons_zero, List.getD_cons_succ] at g0 g1
        rw [g0, g1]
    unfold linestringChoice
    rw [hw]
    unfold normalizedWeights
    simp only [List.getLast?_cons_cons, List.getLast?_singleton, Option.map_some, div_one,
      List.map_cons, List.map_nil, Option.some.injEq]
    unfold searchsorted
    have n1 : ¬ (1 : ℝ) < x := not_lt.2 hx.le
    have n3 : ¬ (3 : ℝ) < x := by linarith
    rw [searchsortedGo]
    simp [n1]
    rw [searchsortedGo]
    simp [n3]
    rw [searchsortedGo]
    simp

/-- **C40** A single segment is sampled with certainty. -/
theorem C40_single_partial (u v : Vec) (h : u ≠ v) :
    prob (fun x => linestringChoice [u, v] x = some 0) = 1 := by
  have hs : 0 < segLen [u, v] 0 := by
    unfold segLen
    simp only [List.getD_cons_zero, List.getD_cons_succ]
    refine lt_of_le_of_ne (Real.sqrt_nonneg _) fun h0 => h ?_
    exact sub_eq_zero.1 (length_eq_zero.1 h0.symm)
  have hz : ∀ i, i < [u, v].length - 1 → i = 0 := by
    intro i hi
    simp only [List.length_cons, List.length_nil] at hi
    omega
  rw [C40_sorted_partial [u, v] (by simp) (fun i hi => by rw [hz i hi]; exact hs)
    (fun i j hij hj => by have := hz j hj; have : i = j := by omega
                          rw [this]) 0 (by simp)]
  simp [div_self hs.ne']

example : ((1 : ℝ), (2 : ℝ)) ≠ (1, 3) := by norm_num

/-- Segments of lengths 1 and 2. -/
example : 0 < segLen [((0 : ℝ), (0 : ℝ)), (1, 0), (3, 0)] 0 ∧
    segLen [((0 : ℝ), (0 : ℝ)), (1, 0), (3, 0)] 0 ≤ segLen [((0 : ℝ), (0 : ℝ)), (1, 0), (3, 0)] 1 := by
  have e0 := dist_axis 0 1 (by norm_num)
  have e1 := dist_axis 1 3 (by norm_num)
  have s0 : segLen [((0 : ℝ), (0 : ℝ)), (1, 0), (3, 0)] 0 = 1 := by
    simp only [segLen]; simpa using e0
  have s1 : segLen [((0 : ℝ), (0 : ℝ)), (1, 0), (3, 0)] 1 = 2 := by
    simp only [segLen]; norm_num at e1 ⊢; exact e1
  rw [s0, s1]; norm_num

/-! ## C73: uniform distribution in a triangle -/

/-- **C73** The probability that `random_sample_triangle` returns a point of the subtriangle
with corners `a`, `a + t (b - a)`, `a + t ((1 - s) (b - a) + s (c - a))` is the ratio of the
areas. (These subtriangles, for all `s` and `t`, determine the distribution.) -/
theorem C73_uniform (a b c : Vec) (s t : ℝ) (hs0 : 0 ≤ s) (hs1 : s ≤ 1) (ht0 : 0 ≤ t)
    (ht1 : t ≤ 1) (hdet : triArea a b c ≠ 0) :
    prob2 (fun r1 r2 => randomSampleTriangle r1 r2 a b c ∈ convexHull ℝ
      {a, a + t • (b - a), a + t • ((1 - s) • (b - a) + s • (c - a))}) =
      ENNReal.ofReal (triArea a (a + t • (b - a)) (a + t • ((1 - s) • (b - a) + s • (c - a))) /
        triArea a b c) := by
  have harea : triArea a (a + t • (b - a)) (a + t • ((1 - s) • (b - a) + s • (c - a))) =
      t ^ 2 * s * triArea a b c := by
    unfold triArea
    simp only [Prod.fst_add, Prod.snd_add, Prod.smul_fst, Prod.smul_snd, Prod.fst_sub,
      Prod.snd_sub, smul_eq_mul]
    rw [← mul_div_assoc]
    congr 1
    have hts := abs_of_nonneg (mul_nonneg (sq_nonneg t) hs0)
    refine Eq.trans ?_ (congrArg (· * _) hts)
    rw [← abs_mul]
    congr 1
    ring
  rw [harea, mul_div_assoc, div_self hdet, mul_one]
  have hd : (b.1 - a.1) * (c.2 - a.2) - (b.2 - a.2) * (c.1 - a.1) ≠ 0 := by
    intro h
    apply hdet
    unfold triArea
    rw [h]; simp
  have indep : ∀ x y x' y' : ℝ, x • (b - a) + y • (c - a) = x' • (b - a) + y' • (c - a) →
      x = x' ∧ y = y' := by
    intro x y x' y' h
    have e1 := congrArg Prod.fst h
    have e2 := congrArg Prod.snd h
    simp only [Prod.fst_add, Prod.snd_add, Prod.smul_fst, Prod.smul_snd, Prod.fst_sub,
      Prod.snd_sub, smul_eq_mul] at e1 e2
    constructor
    · apply mul_right_cancel₀ hd
      linear_combination (c.2 - a.2) * e1 - (c.1 - a.1) * e2
    · apply mul_right_cancel₀ hd
      linear_combination (b.1 - a.1) * e2 - (b.2 - a.2) * e1
  have hmem : ∀ p : Vec, p ∈ convexHull ℝ
      {a, a + t • (b - a), a + t • ((1 - s) • (b - a) + s • (c - a))} ↔
      ∃ l m : ℝ, 0 ≤ l ∧ l ≤ 1 ∧ 0 ≤ m ∧ m ≤ 1 ∧
        p = a + ((l * t * (1 - m * s)) • (b - a) + (l * t * (m * s)) • (c - a)) := by
    intro p
    rw [convexHull_insert (by simp), convexHull_pair, mem_convexJoin]
    constructor
    · rintro ⟨a', ha', z, ⟨m', m, hm', hm, hmm, rfl⟩, ⟨l', l, hl', hl, hll, rfl⟩⟩
      rw [Set.mem_singleton_iff] at ha'
      subst ha'
      refine ⟨l, m, hl, by linarith, hm, by linarith, ?_⟩
      have e1 : m' = 1 - m := by linarith
      have e2 : l' = 1 - l := by linarith
      subst e1 e2
      module
    · rintro ⟨l, m, hl, hl1, hm, hm1, rfl⟩
      refine ⟨a, rfl, (1 - m) • (a + t • (b - a)) + m • (a + t • ((1 - s) • (b - a) + s • (c - a))),
        ⟨1 - m, m, by linarith, hm, by ring, rfl⟩, ⟨1 - l, l, by linarith, hl, by ring, ?_⟩⟩
      module
  have hP : ∀ r1 r2 : ℝ, randomSampleTriangle r1 r2 a b c =
      a + ((√r1 * (1 - r2)) • (b - a) + (√r1 * r2) • (c - a)) := by
    intro r1 r2
    unfold randomSampleTriangle
    module
  unfold prob2
  have hvol : ENNReal.ofReal (t ^ 2 * s) = ENNReal.ofReal (t ^ 2) * ENNReal.ofReal s :=
    ENNReal.ofReal_mul (sq_nonneg t)
  apply le_antisymm
  · -- upper bound
    have hsub : {r : ℝ × ℝ | r.1 ∈ Set.Ico (0 : ℝ) 1 ∧ r.2 ∈ Set.Ico (0 : ℝ) 1 ∧
        randomSampleTriangle r.1 r.2 a b c ∈ convexHull ℝ
          {a, a + t • (b - a), a + t • ((1 - s) • (b - a) + s • (c - a))}} ⊆
        (Set.Icc 0 (t ^ 2) ×ˢ Set.Icc 0 s) ∪ (({0} : Set ℝ) ×ˢ Set.Icc (0 : ℝ) 1) := by
      rintro ⟨r1, r2⟩ ⟨⟨h1, h1'⟩, ⟨h2, h2'⟩, h⟩
      simp only at h1 h1' h2 h2'
      rw [hmem] at h
      obtain ⟨l, m, hl, hl1, hm, hm1, e⟩ := h
      rw [hP] at e
      obtain ⟨e1, e2⟩ := indep _ _ _ _ (add_left_cancel e)
      have hsum : √r1 = l * t := by linarith
      have hle : √r1 ≤ t := by rw [hsum]; nlinarith
      have hr1 : r1 ≤ t ^ 2 := by
        rw [← Real.sq_sqrt h1]
        exact pow_le_pow_left₀ (Real.sqrt_nonneg _) hle 2
      rcases h1.lt_or_eq with hpos | hz
      · left
        refine ⟨⟨h1, hr1⟩, h2, ?_⟩
        have hsp : 0 < √r1 := Real.sqrt_pos.2 hpos
        rw [← hsum] at e2
        have : r2 = m * s := mul_left_cancel₀ hsp.ne' e2
        simp only
        rw [this]; nlinarith
      · right
        refine ⟨?_, h2, h2'.le⟩
        simp only [Set.mem_singleton_iff]
        exact hz.symm
    refine (measure_mono hsub).trans ((measure_union_le _ _).trans ?_)
    rw [Measure.volume_eq_prod, Measure.prod_prod, Measure.prod_prod, Real.volume_Icc,
      Real.volume_Icc, Real.volume_singleton, zero_mul, add_zero, hvol, sub_zero, sub_zero]
  · -- lower bound
    have hsub : Set.Ioo 0 (t ^ 2) ×ˢ Set.Ioo 0 s ⊆
        {r : ℝ × ℝ | r.1 ∈ Set.Ico (0 : ℝ) 1 ∧ r.2 ∈ Set.Ico (0 : ℝ) 1 ∧
        randomSampleTriangle r.1 r.2 a b c ∈ convexHull ℝ
          {a, a + t • (b - a), a + t • ((1 - s) • (b - a) + s • (c - a))}} := by
      rintro ⟨r1, r2⟩ ⟨⟨h1, h1'⟩, ⟨h2, h2'⟩⟩
      simp only at h1 h1' h2 h2'
      have htp : 0 < t := by
        rcases ht0.lt_or_eq with h | h
        · exact h
        · rw [← h] at h1'; norm_num at h1'; linarith
      have hsp : 0 < s := h2.trans h2'
      have ht2 : t ^ 2 ≤ 1 := pow_le_one₀ ht0 ht1
      refine ⟨⟨h1.le, by simp only; linarith⟩, ⟨h2.le, by simp only; linarith⟩, ?_⟩
      simp only
      rw [hmem, hP]
      have hsq : √r1 ≤ t := by
        rw [← Real.sqrt_sq ht0]; exact Real.sqrt_le_sqrt h1'.le
      refine ⟨√r1 / t, r2 / s, div_nonneg (Real.sqrt_nonneg _) ht0, (div_le_one htp).2 hsq,
        div_nonneg h2.le hs0, (div_le_one hsp).2 h2'.le, ?_⟩
      rw [div_mul_cancel₀ _ htp.ne', div_mul_cancel₀ _ hsp.ne']
    refine le_trans (le_of_eq ?_) (measure_mono hsub)
    rw [Measure.volume_eq_prod, Measure.prod_prod, Real.volume_Ioo, Real.volume_Ioo, hvol,
      sub_zero, sub_zero]

example : triArea (0, 0) (2, 0) (1, 1) ≠ 0 := by norm_num [triArea]

end CrowdDynamics
