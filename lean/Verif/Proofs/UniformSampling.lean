import Verif.Props.Sampling
import Verif.Spec.UniformSampling
import Mathlib.Analysis.Convex.Join
import Mathlib.Analysis.Convex.Topology
import Mathlib.Analysis.SpecialFunctions.Sqrt
import Mathlib.MeasureTheory.Function.Jacobian
import Mathlib.Analysis.Calculus.FDeriv.Mul

/-!
# Lemmas: sampled points are uniformly distributed
-/

namespace CrowdDynamics

open Spec MeasureTheory

/-- Area in the plane does not depend on the position. -/
local instance planeHaar : Measure.IsAddHaarMeasure (volume : Measure (ℝ × ℝ)) :=
  Measure.prod.instIsAddHaarMeasure _ _

lemma mem_filled (a b c p : Vec) : p ∈ filled (a, b, c) ↔
    ∃ l m : ℝ, 0 ≤ l ∧ l ≤ 1 ∧ 0 ≤ m ∧ m ≤ 1 ∧
      p = a + ((l * (1 - m)) • (b - a) + (l * m) • (c - a)) := by
  unfold filled
  simp only
  rw [convexHull_insert (by simp), convexHull_pair, mem_convexJoin]
  constructor
  · rintro ⟨a', ha', z, ⟨m', m, hm', hm, hmm, rfl⟩, ⟨l', l, hl', hl, hll, rfl⟩⟩
    rw [Set.mem_singleton_iff] at ha'
    subst ha'
    refine ⟨l, m, hl, by linarith, hm, by linarith, ?_⟩
    have e1 : m' = 1 - m := by linarith
    have e2 : l' = 1 - l := by linarith
    subst e1 e2
    module
  · rintro ⟨l, m, hl, hl1, hm, hm1, rfl⟩
    refine ⟨a, rfl, (1 - m) • b + m • c,
      ⟨1 - m, m, by linarith, hm, by ring, rfl⟩, ⟨1 - l, l, by linarith, hl, by ring, ?_⟩⟩
    module

lemma filled_measurable (t : Vec × Vec × Vec) : MeasurableSet (filled t) :=
  (Set.Finite.isCompact_convexHull ℝ (Set.toFinite {t.1, t.2.1, t.2.2})).measurableSet

/-- The signed area, twice. -/
def crossArea (a b c : Vec) : ℝ := (b.1 - a.1) * (c.2 - a.2) - (b.2 - a.2) * (c.1 - a.1)

lemma triArea_cross (a b c : Vec) : triArea a b c = |crossArea a b c| / 2 := rfl

lemma sampleTri_eq (a b c : Vec) (r1 r2 : ℝ) : randomSampleTriangle r1 r2 a b c =
    a + ((√r1 * (1 - r2)) • (b - a) + (√r1 * r2) • (c - a)) := by
  unfold randomSampleTriangle
  module

/-- The derivative of the sampled point by the two random numbers. -/
noncomputable def sampleDeriv (a b c : Vec) (r : ℝ × ℝ) : ℝ × ℝ →L[ℝ] ℝ × ℝ :=
  (Matrix.toLin (.finTwoProd ℝ) (.finTwoProd ℝ)
    !![((1 - r.2) * (b.1 - a.1) + r.2 * (c.1 - a.1)) / (2 * √r.1), √r.1 * (c.1 - b.1);
       ((1 - r.2) * (b.2 - a.2) + r.2 * (c.2 - a.2)) / (2 * √r.1),
        √r.1 * (c.2 - b.2)]).toContinuousLinearMap

lemma sampleDeriv_det (a b c : Vec) (r : ℝ × ℝ) (h : 0 < r.1) :
    |(sampleDeriv a b c r).det| = triArea a b c := by
  have hs : 0 < √r.1 := Real.sqrt_pos.2 h
  have : (sampleDeriv a b c r).det = crossArea a b c / 2 := by
    unfold sampleDeriv crossArea
    simp only [LinearMap.det_toContinuousLinearMap, LinearMap.det_toLin, Matrix.det_fin_two_of]
    field_simp
    ring
  rw [this, triArea_cross, abs_div, abs_of_pos (two_pos : (0 : ℝ) < 2)]

lemma sample_component (u v w : ℝ) (r : ℝ × ℝ) (h : 0 < r.1) :
    HasFDerivAt (fun r : ℝ × ℝ => u + (√r.1 * (1 - r.2) * (v - u) + √r.1 * r.2 * (w - u)))
      ((((1 - r.2) * (v - u) + r.2 * (w - u)) / (2 * √r.1)) • ContinuousLinearMap.fst ℝ ℝ ℝ +
        (√r.1 * (w - v)) • ContinuousLinearMap.snd ℝ ℝ ℝ) r := by
  have h1 : HasFDerivAt (fun r : ℝ × ℝ => √r.1)
      ((1 / (2 * √r.1)) • ContinuousLinearMap.fst ℝ ℝ ℝ) r :=
    (Real.hasDerivAt_sqrt h.ne').comp_hasFDerivAt r hasFDerivAt_fst
  have h2 : HasFDerivAt (fun r : ℝ × ℝ => r.2) (ContinuousLinearMap.snd ℝ ℝ ℝ) r :=
    hasFDerivAt_snd
  have h3 := (((h1.mul (h2.const_sub 1)).mul_const (v - u)).add
    ((h1.mul h2).mul_const (w - u))).const_add u
  refine h3.congr_fderiv ?_
  ext <;> simp <;> ring

lemma sample_hasFDerivAt (a b c : Vec) (r : ℝ × ℝ) (h : 0 < r.1) :
    HasFDerivAt (fun r : ℝ × ℝ => randomSampleTriangle r.1 r.2 a b c) (sampleDeriv a b c r) r := by
  unfold sampleDeriv
  rw [Matrix.toLin_finTwoProd_toContinuousLinearMap]
  have := HasFDerivAt.prodMk (𝕜 := ℝ) (sample_component a.1 b.1 c.1 r h)
    (sample_component a.2 b.2 c.2 r h)
  refine this.congr_of_eventuallyEq (Filter.Eventually.of_forall fun r => ?_)
  simp only
  rw [sampleTri_eq]
  rfl

lemma cross_indep {a b c : Vec} (hd : crossArea a b c ≠ 0) (x y x' y' : ℝ)
    (h : x • (b - a) + y • (c - a) = x' • (b - a) + y' • (c - a)) : x = x' ∧ y = y' := by
  have e1 := congrArg Prod.fst h
  have e2 := congrArg Prod.snd h
  unfold crossArea at hd
  simp only [Prod.fst_add, Prod.snd_add, Prod.smul_fst, Prod.smul_snd, Prod.fst_sub,
    Prod.snd_sub, smul_eq_mul] at e1 e2
  constructor
  · apply mul_right_cancel₀ hd
    linear_combination (c.2 - a.2) * e1 - (c.1 - a.1) * e2
  · apply mul_right_cancel₀ hd
    linear_combination (b.1 - a.1) * e2 - (b.2 - a.2) * e1

/-- The random numbers without those that give the corner. -/
def sampleDomain : Set (ℝ × ℝ) := Set.Ioc 0 1 ×ˢ Set.Icc 0 1

lemma sample_injOn {a b c : Vec} (hd : crossArea a b c ≠ 0) :
    Set.InjOn (fun r : ℝ × ℝ => randomSampleTriangle r.1 r.2 a b c) sampleDomain := by
  rintro ⟨r1, r2⟩ ⟨⟨h1, -⟩, -⟩ ⟨s1, s2⟩ ⟨⟨k1, -⟩, -⟩ e
  simp only at h1 k1 e
  rw [sampleTri_eq, sampleTri_eq] at e
  obtain ⟨e1, e2⟩ := cross_indep hd _ _ _ _ (add_left_cancel e)
  have hs : √r1 = √s1 := by linarith
  have h1' : r1 = s1 := by
    rw [← Real.sq_sqrt h1.le, ← Real.sq_sqrt k1.le, hs]
  have hp : 0 < √s1 := Real.sqrt_pos.2 k1
  rw [hs] at e2
  exact Prod.ext h1' (mul_left_cancel₀ hp.ne' e2)

lemma sample_image (a b c : Vec) (S : Set Vec) :
    (fun r : ℝ × ℝ => randomSampleTriangle r.1 r.2 a b c) ''
        (sampleDomain ∩ (fun r : ℝ × ℝ => randomSampleTriangle r.1 r.2 a b c) ⁻¹' S) ⊆
      S ∩ filled (a, b, c) ∧
    S ∩ filled (a, b, c) ⊆ {a} ∪ (fun r : ℝ × ℝ => randomSampleTriangle r.1 r.2 a b c) ''
        (sampleDomain ∩ (fun r : ℝ × ℝ => randomSampleTriangle r.1 r.2 a b c) ⁻¹' S) := by
  constructor
  · rintro p ⟨⟨r1, r2⟩, ⟨⟨⟨h1, h1'⟩, ⟨h2, h2'⟩⟩, hS⟩, rfl⟩
    refine ⟨hS, ?_⟩
    simp only at h1 h1' h2 h2' ⊢
    rw [mem_filled]
    exact ⟨√r1, r2, Real.sqrt_nonneg _, Real.sqrt_le_one.2 h1', h2, h2', sampleTri_eq _ _ _ _ _⟩
  · rintro p ⟨hS, hp⟩
    rw [mem_filled] at hp
    obtain ⟨l, m, hl, hl1, hm, hm1, e⟩ := hp
    rcases hl.lt_or_eq with hl' | hl'
    · right
      have hval : randomSampleTriangle (l ^ 2) m a b c = p := by
        rw [sampleTri_eq, Real.sqrt_sq hl, e]
      refine ⟨(l ^ 2, m), ⟨⟨⟨by positivity, ?_⟩, ⟨hm, hm1⟩⟩, ?_⟩, hval⟩
      · exact pow_le_one₀ hl hl1
      · simp only [Set.mem_preimage]
        rw [hval]
        exact hS
    · left
      rw [e, ← hl']
      simp

lemma sample_continuous (a b c : Vec) :
    Continuous fun r : ℝ × ℝ => randomSampleTriangle r.1 r.2 a b c := by
  unfold randomSampleTriangle
  fun_prop

lemma sampleDomain_measurable : MeasurableSet sampleDomain :=
  measurableSet_Ioc.prod measurableSet_Icc

lemma prob2_eq_domain (T : Set (ℝ × ℝ)) :
    prob2 (fun r1 r2 => (r1, r2) ∈ T) = volume (sampleDomain ∩ T) := by
  unfold prob2
  have : {r : ℝ × ℝ | r.1 ∈ Set.Ico (0 : ℝ) 1 ∧ r.2 ∈ Set.Ico (0 : ℝ) 1 ∧ (r.1, r.2) ∈ T} =
      (Set.Ico 0 1 ×ˢ Set.Ico 0 1) ∩ T := by
    ext r
    simp [and_assoc]
  rw [this]
  apply measure_congr
  refine Filter.EventuallyEq.inter ?_ (Filter.EventuallyEq.refl _ _)
  rw [Measure.volume_eq_prod]
  exact Measure.set_prod_ae_eq Ico_ae_eq_Ioc Ico_ae_eq_Icc

/-- A triangle without area is a null set. -/
lemma filled_null {a b c : Vec} (hd : crossArea a b c = 0) : volume (filled (a, b, c)) = 0 := by
  let L : ℝ × ℝ →ₗ[ℝ] ℝ × ℝ := Matrix.toLin (.finTwoProd ℝ) (.finTwoProd ℝ)
    !![b.1 - a.1, c.1 - a.1; b.2 - a.2, c.2 - a.2]
  have hL : LinearMap.det L = 0 := by
    simp only [L, LinearMap.det_toLin, Matrix.det_fin_two_of]
    unfold crossArea at hd
    linarith
  have hsub : filled (a, b, c) ⊆ (fun p => -a + p) ⁻¹' (L '' Set.univ) := by
    intro p hp
    rw [mem_filled] at hp
    obtain ⟨l, m, -, -, -, -, rfl⟩ := hp
    refine ⟨(l * (1 - m), l * m), trivial, ?_⟩
    simp only [L, Matrix.toLin_finTwoProd_apply]
    ext <;> simp <;> ring
  refine measure_mono_null hsub ?_
  rw [measure_preimage_add, Measure.addHaar_image_linearMap, hL]
  simp

/-- The share of random numbers that hit a set, times the area of the triangle, is the area of
the set inside the triangle. -/
lemma prob2_sample (a b c : Vec) {S : Set Vec} (hS : MeasurableSet S) :
    ENNReal.ofReal (triArea a b c) * prob2 (fun r1 r2 => randomSampleTriangle r1 r2 a b c ∈ S) =
      volume (S ∩ filled (a, b, c)) := by
  by_cases hd : crossArea a b c = 0
  · rw [triArea_cross, hd, measure_mono_null Set.inter_subset_right (filled_null hd)]
    simp
  · have h := prob2_eq_domain ((fun r : ℝ × ℝ => randomSampleTriangle r.1 r.2 a b c) ⁻¹' S)
    simp only [Set.mem_preimage] at h
    rw [h]
    have hA : MeasurableSet (sampleDomain ∩
        (fun r : ℝ × ℝ => randomSampleTriangle r.1 r.2 a b c) ⁻¹' S) :=
      sampleDomain_measurable.inter ((sample_continuous a b c).measurable hS)
    have hcov := lintegral_abs_det_fderiv_eq_addHaar_image volume hA
      (f := fun r : ℝ × ℝ => randomSampleTriangle r.1 r.2 a b c) (f' := sampleDeriv a b c)
      (fun r hr => (sample_hasFDerivAt a b c r hr.1.1.1).hasFDerivWithinAt)
      ((sample_injOn hd).mono Set.inter_subset_left)
    obtain ⟨s1, s2⟩ := sample_image a b c S
    have himg : volume (S ∩ filled (a, b, c)) =
        volume ((fun r : ℝ × ℝ => randomSampleTriangle r.1 r.2 a b c) ''
        (sampleDomain ∩ (fun r : ℝ × ℝ => randomSampleTriangle r.1 r.2 a b c) ⁻¹' S)) := by
      apply le_antisymm
      · refine (measure_mono s2).trans ((measure_union_le _ _).trans ?_)
        simp
      · exact measure_mono s1
    rw [himg, ← hcov, setLIntegral_congr_fun hA (g := fun _ => ENNReal.ofReal (triArea a b c))
      (fun r hr => by simp only; rw [sampleDeriv_det a b c r hr.1.1.1])]
    simp

lemma prob2_true : prob2 (fun _ _ => True) = 1 := by
  unfold prob2
  have : {r : ℝ × ℝ | r.1 ∈ Set.Ico (0 : ℝ) 1 ∧ r.2 ∈ Set.Ico (0 : ℝ) 1 ∧ True} =
      Set.Ico 0 1 ×ˢ Set.Ico 0 1 := by
    ext r; simp
  rw [this, Measure.volume_eq_prod, Measure.prod_prod]
  simp

/-- The area of a filled triangle. -/
lemma volume_filled (t : Vec × Vec × Vec) : volume (filled t) = ENNReal.ofReal (meshArea t) := by
  have := prob2_sample t.1 t.2.1 t.2.2 MeasurableSet.univ
  simp only [Set.mem_univ, Set.univ_inter, prob2_true, mul_one] at this
  exact this.symm

/-! ## The mixture over the triangles -/

lemma choice_measurable (mesh : List (Vec × Vec × Vec))
    (harea : 0 < (mesh.map meshArea).sum) {i : ℕ} (hi : i < mesh.length) :
    MeasurableSet {x : ℝ | x ∈ Set.Ico (0 : ℝ) 1 ∧ triangleChoice mesh x = some i} := by
  have hne : mesh ≠ [] := by rintro rfl; simp at hi
  set w := triangleAreaCumsum mesh with hw
  have hlast : 0 < w.getD (w.length - 1) 0 := by rw [hw, cumsum_last mesh hne]; exact harea
  have hlen : w.length = mesh.length := cumsum_length mesh
  have hs : SortedList (w.map (· / w.getD (w.length - 1) 0)) := by
    intro i j hij hj
    rw [List.length_map] at hj
    rw [getD_map_div _ _ _ (by omega), getD_map_div _ _ _ hj]
    exact div_le_div_of_nonneg_right (cumsum_sorted mesh i j hij hj) hlast.le
  have heq : {x : ℝ | x ∈ Set.Ico (0 : ℝ) 1 ∧ triangleChoice mesh x = some i} =
      Set.Ico 0 1 ∩ ({x | i = 0 ∨ (w.map (· / w.getD (w.length - 1) 0)).getD (i - 1) 0 < x} ∩
        Set.Iic ((w.map (· / w.getD (w.length - 1) 0)).getD i 0)) := by
    ext x
    unfold triangleChoice
    rw [← hw, normalizedWeights_eq (cumsum_ne_nil hne)]
    simp only [Option.map_some, Option.some.injEq]
    rw [Set.mem_inter_iff, Set.mem_ofPred_eq,
      searchsorted_sorted hs x (by rw [List.length_map, hlen]; exact hi)]
    rfl
  rw [heq]
  refine measurableSet_Ico.inter (MeasurableSet.inter ?_ measurableSet_Iic)
  by_cases h : i = 0
  · simp [h]
  · simp only [h, false_or]
    exact measurableSet_Ioi

lemma prob3_mixture (delaunay : List Vec → List (Vec × Vec × Vec)) (vertices : List Vec)
    (harea : 0 < ((delaunay vertices).map meshArea).sum) {S : Set Vec} (hS : MeasurableSet S) :
    prob3 (fun x r1 r2 => ∃ p ∈ S, polygonSample delaunay vertices x r1 r2 = some p) =
      ∑ i : Fin (delaunay vertices).length,
        prob (fun x => triangleChoice (delaunay vertices) x = some i.1) *
        prob2 (fun r1 r2 => randomSampleTriangle r1 r2 (delaunay vertices)[i].1
          (delaunay vertices)[i].2.1 (delaunay vertices)[i].2.2 ∈ S) := by
  set mesh := delaunay vertices with hmesh
  have hX : ∀ i : Fin mesh.length, MeasurableSet
      {x : ℝ | x ∈ Set.Ico (0 : ℝ) 1 ∧ triangleChoice mesh x = some i.1} :=
    fun i => choice_measurable mesh harea i.2
  have hR : ∀ i : Fin mesh.length, MeasurableSet
      {r : ℝ × ℝ | r.1 ∈ Set.Ico (0 : ℝ) 1 ∧ r.2 ∈ Set.Ico (0 : ℝ) 1 ∧
        randomSampleTriangle r.1 r.2 mesh[i].1 mesh[i].2.1 mesh[i].2.2 ∈ S} := by
    intro i
    have e : {r : ℝ × ℝ | r.1 ∈ Set.Ico (0 : ℝ) 1 ∧ r.2 ∈ Set.Ico (0 : ℝ) 1 ∧
        randomSampleTriangle r.1 r.2 mesh[i].1 mesh[i].2.1 mesh[i].2.2 ∈ S} =
        (Set.Ico 0 1 ×ˢ Set.Ico 0 1) ∩ (fun r : ℝ × ℝ =>
          randomSampleTriangle r.1 r.2 mesh[i].1 mesh[i].2.1 mesh[i].2.2) ⁻¹' S := by
      ext r
      simp [and_assoc]
    rw [e]
    exact (measurableSet_Ico.prod measurableSet_Ico).inter
      ((sample_continuous _ _ _).measurable hS)
  have hset : {r : ℝ × ℝ × ℝ | r.1 ∈ Set.Ico (0 : ℝ) 1 ∧ r.2.1 ∈ Set.Ico (0 : ℝ) 1 ∧
      r.2.2 ∈ Set.Ico (0 : ℝ) 1 ∧
        ∃ p ∈ S, polygonSample delaunay vertices r.1 r.2.1 r.2.2 = some p} =
      ⋃ i : Fin mesh.length,
        {x : ℝ | x ∈ Set.Ico (0 : ℝ) 1 ∧ triangleChoice mesh x = some i.1} ×ˢ
        {r : ℝ × ℝ | r.1 ∈ Set.Ico (0 : ℝ) 1 ∧ r.2 ∈ Set.Ico (0 : ℝ) 1 ∧
          randomSampleTriangle r.1 r.2 mesh[i].1 mesh[i].2.1 mesh[i].2.2 ∈ S} := by
    ext ⟨x, r1, r2⟩
    simp only [Set.mem_ofPred_eq, Set.mem_iUnion, Set.mem_prod]
    unfold polygonSample
    simp only [← hmesh]
    constructor
    · rintro ⟨hx, h1, h2, p, hp, e⟩
      cases hc : triangleChoice mesh x with
      | none => rw [hc] at e; simp at e
      | some i =>
        rw [hc] at e
        simp only at e
        by_cases hi : i < mesh.length
        · rw [List.getElem?_eq_getElem hi] at e
          simp only [Option.some.injEq] at e
          refine ⟨⟨i, hi⟩, ⟨hx, rfl⟩, h1, h2, ?_⟩
          rw [← e] at hp
          exact hp
        · rw [List.getElem?_eq_none (by omega)] at e
          simp at e
    · rintro ⟨i, ⟨hx, hc⟩, h1, h2, hp⟩
      refine ⟨hx, h1, h2, _, hp, ?_⟩
      rw [hc]
      simp only
      rw [List.getElem?_eq_getElem i.2]
      rfl
  unfold prob3
  rw [hset, measure_iUnion ?_ (fun i => (hX i).prod (hR i)), tsum_fintype]
  · refine Finset.sum_congr rfl fun i _ => ?_
    rw [Measure.volume_eq_prod, Measure.prod_prod]
    rfl
  · intro i j hij
    refine Set.disjoint_left.2 ?_
    rintro ⟨x, r⟩ ⟨⟨-, h1⟩, -⟩ ⟨⟨-, h2⟩, -⟩
    simp only at h1 h2
    rw [h1] at h2
    exact hij (Fin.ext (Option.some.inj h2))

/-- Inside a tiled region the areas of a set in the tiles add up. -/
lemma tiles_sum {mesh : List (Vec × Vec × Vec)} {region : Set Vec} (h : Tiles mesh region)
    {S : Set Vec} (hS : MeasurableSet S) :
    ∑ i : Fin mesh.length, volume (S ∩ filled mesh[i]) = volume (S ∩ region) := by
  have hset : S ∩ region = ⋃ i : Fin mesh.length, S ∩ filled mesh[i] := by
    ext p
    simp only [Set.mem_inter_iff, Set.mem_iUnion, h.1 p]
    constructor
    · rintro ⟨hp, t, ht, hpt⟩
      obtain ⟨i, hi, rfl⟩ := List.getElem_of_mem ht
      exact ⟨⟨i, hi⟩, hp, hpt⟩
    · rintro ⟨i, hp, hpt⟩
      exact ⟨hp, _, List.getElem_mem i.2, hpt⟩
  have hpair := List.pairwise_iff_getElem.1 h.2
  rw [hset, measure_iUnion₀ ?_ (fun i => (hS.inter (filled_measurable _)).nullMeasurableSet),
    tsum_fintype]
  intro i j hij
  have key : ∀ i j : Fin mesh.length, i.1 < j.1 →
      volume ((S ∩ filled mesh[i]) ∩ (S ∩ filled mesh[j])) = 0 := by
    intro i j hlt
    refine measure_mono_null ?_ (hpair i.1 j.1 i.2 j.2 hlt)
    rintro p ⟨⟨-, h1⟩, -, h2⟩
    exact ⟨h1, h2⟩
  show volume ((S ∩ filled mesh[i]) ∩ (S ∩ filled mesh[j])) = 0
  rcases Nat.lt_trichotomy i.1 j.1 with hlt | heq | hgt
  · exact key i j hlt
  · exact absurd (Fin.ext heq) hij
  · rw [Set.inter_comm]
    exact key j i hgt

/-- The total area of the triangles is the area of the region. -/
lemma tiles_area {mesh : List (Vec × Vec × Vec)} {region : Set Vec} (h : Tiles mesh region) :
    volume region = ENNReal.ofReal (mesh.map meshArea).sum := by
  have := tiles_sum h MeasurableSet.univ
  simp only [Set.univ_inter, volume_filled] at this
  rw [← this, ← ENNReal.ofReal_sum_of_nonneg (fun i _ => meshArea_nonneg _)]
  congr 1
  exact Fin.sum_univ_fun_getElem mesh meshArea

end CrowdDynamics
