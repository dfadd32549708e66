import Verif.Model.Sampling
import Verif.Spec.Sampling
import Verif.Props.Geom2D
import Verif.Proofs.Vector2D

/-!
# Lemmas about sampling
-/

namespace CrowdDynamics

open Spec MeasureTheory

/-! ## Binary search -/

lemma searchsortedGo_spec (a : List ℝ) (key : ℝ) (lo hi : ℕ) (hle : lo ≤ hi)
    (h1 : lo = 0 ∨ a.getD (lo - 1) 0 < key) (h2 : hi = a.length ∨ key ≤ a.getD hi 0) :
    lo ≤ searchsortedGo a key lo hi ∧ searchsortedGo a key lo hi ≤ hi ∧
      (searchsortedGo a key lo hi = 0 ∨ a.getD (searchsortedGo a key lo hi - 1) 0 < key) ∧
      (searchsortedGo a key lo hi = a.length ∨ key ≤ a.getD (searchsortedGo a key lo hi) 0) := by
  induction hn : hi - lo using Nat.strong_induction_on generalizing lo hi with
  | _ n ih =>
    rw [searchsortedGo]
    by_cases hlt : lo < hi
    · rw [if_pos hlt]
      simp only
      by_cases hm : a.getD (lo + (hi - lo) / 2) 0 < key
      · rw [if_pos hm]
        obtain ⟨p1, p2, p3, p4⟩ := ih (hi - (lo + (hi - lo) / 2 + 1)) (by omega)
          (lo + (hi - lo) / 2 + 1) hi (by omega) (Or.inr (by simpa using hm)) h2 rfl
        exact ⟨by omega, p2, p3, p4⟩
      · rw [if_neg hm]
        obtain ⟨p1, p2, p3, p4⟩ := ih (lo + (hi - lo) / 2 - lo) (by omega)
          lo (lo + (hi - lo) / 2) (by omega) h1 (Or.inr (not_lt.1 hm)) rfl
        exact ⟨p1, by omega, p3, p4⟩
    · rw [if_neg hlt]
      have : lo = hi := by omega
      exact ⟨le_refl _, hle, h1, by rw [this]; exact h2⟩

lemma searchsorted_spec (a : List ℝ) (key : ℝ) :
    searchsorted a key ≤ a.length ∧
      (searchsorted a key = 0 ∨ a.getD (searchsorted a key - 1) 0 < key) ∧
      (searchsorted a key = a.length ∨ key ≤ a.getD (searchsorted a key) 0) := by
  obtain ⟨-, h2, h3, h4⟩ := searchsortedGo_spec a key 0 a.length (Nat.zero_le _) (Or.inl rfl)
    (Or.inl rfl)
  exact ⟨h2, h3, h4⟩

/-- The values do not decrease. -/
def SortedList (a : List ℝ) : Prop := ∀ i j, i ≤ j → j < a.length → a.getD i 0 ≤ a.getD j 0

lemma searchsorted_sorted {a : List ℝ} (ha : SortedList a) (key : ℝ) {i : ℕ} (hi : i < a.length) :
    searchsorted a key = i ↔ (i = 0 ∨ a.getD (i - 1) 0 < key) ∧ key ≤ a.getD i 0 := by
  obtain ⟨h1, h2, h3⟩ := searchsorted_spec a key
  constructor
  · intro h
    rw [h] at h2 h3
    exact ⟨h2, h3.resolve_left (by omega)⟩
  · rintro ⟨k1, k2⟩
    rcases lt_trichotomy (searchsorted a key) i with h | h | h
    · -- the search stopped too early
      exfalso
      have h3' := h3.resolve_left (by omega)
      have hne : i ≠ 0 := by omega
      have := k1.resolve_left hne
      have := ha (searchsorted a key) (i - 1) (by omega) (by omega)
      linarith
    · exact h
    · exfalso
      have h2' := h2.resolve_left (by omega)
      have := ha i (searchsorted a key - 1) (by omega) (by omega)
      linarith

lemma searchsorted_lt_length {a : List ℝ} {key : ℝ} (hne : a ≠ [])
    (h : key ≤ a.getD (a.length - 1) 0) : searchsorted a key < a.length := by
  obtain ⟨h1, h2, -⟩ := searchsorted_spec a key
  rcases h1.lt_or_eq with h' | h'
  · exact h'
  · exfalso
    have hp : 0 < a.length := List.length_pos_iff.2 hne
    rw [h'] at h2
    have := h2.resolve_left (by omega)
    linarith

/-- Probability of an index in a sorted list of weights between 0 and 1. -/
lemma prob_searchsorted {a : List ℝ} (ha : SortedList a) (h0 : ∀ i, i < a.length → 0 ≤ a.getD i 0)
    (h1 : ∀ i, i < a.length → a.getD i 0 ≤ 1) {i : ℕ} (hi : i < a.length) :
    prob (fun x => searchsorted a x = i) =
      ENNReal.ofReal (a.getD i 0 - if i = 0 then 0 else a.getD (i - 1) 0) := by
  unfold prob
  set l : ℝ := if i = 0 then 0 else a.getD (i - 1) 0 with hl
  have hl0 : 0 ≤ l := by
    rw [hl]; split_ifs
    · exact le_refl _
    · exact h0 _ (by omega)
  apply le_antisymm
  · rw [← Real.volume_Icc]
    apply measure_mono
    rintro x ⟨⟨hx0, hx1⟩, hx⟩
    obtain ⟨k1, k2⟩ := (searchsorted_sorted ha x hi).1 hx
    refine ⟨?_, k2⟩
    rw [hl]
    split_ifs with h
    · exact hx0
    · exact (k1.resolve_left h).le
  · rw [← Real.volume_Ioo]
    apply measure_mono
    rintro x ⟨hx0, hx1⟩
    refine ⟨⟨(hl0.trans hx0.le), hx1.trans_le (h1 i hi)⟩, (searchsorted_sorted ha x hi).2
      ⟨?_, hx1.le⟩⟩
    by_cases h : i = 0
    · exact Or.inl h
    · rw [hl, if_neg h] at hx0
      exact Or.inr hx0

/-! ## Normalised weights -/

lemma getD_map_div (w : List ℝ) (s : ℝ) (i : ℕ) (hi : i < w.length) :
    (w.map (· / s)).getD i 0 = w.getD i 0 / s := by
  rw [List.getD_eq_getElem?_getD, List.getD_eq_getElem?_getD, List.getElem?_map,
    List.getElem?_eq_getElem hi]
  rfl

lemma normalizedWeights_eq {w : List ℝ} (hne : w ≠ []) :
    normalizedWeights w = some (w.map (· / w.getD (w.length - 1) 0)) := by
  unfold normalizedWeights
  have : w.getLast? = some (w.getD (w.length - 1) 0) := by
    have hp : 0 < w.length := List.length_pos_iff.2 hne
    rw [List.getLast?_eq_getElem?, List.getD_eq_getElem?_getD, List.getElem?_eq_getElem (by omega)]
    rfl
  rw [this]
  rfl

lemma prob_weights {w : List ℝ} (hs : SortedList w) (h0 : ∀ i, i < w.length → 0 ≤ w.getD i 0)
    (hlast : 0 < w.getD (w.length - 1) 0) {i : ℕ} (hi : i < w.length) :
    prob (fun x => (normalizedWeights w).map (fun weights => searchsorted weights x) = some i) =
      ENNReal.ofReal ((w.getD i 0 - if i = 0 then 0 else w.getD (i - 1) 0) /
        w.getD (w.length - 1) 0) := by
  have hne : w ≠ [] := by rintro rfl; simp at hi
  rw [normalizedWeights_eq hne]
  simp only [Option.map_some, Option.some.injEq]
  set s := w.getD (w.length - 1) 0 with hsdef
  have hlen : (w.map (· / s)).length = w.length := List.length_map _
  rw [prob_searchsorted (a := w.map (· / s))]
  · rw [getD_map_div _ _ _ hi]
    congr 1
    split_ifs with h
    · ring
    · rw [getD_map_div _ _ _ (by omega)]; ring
  · intro i j hij hj
    rw [hlen] at hj
    rw [getD_map_div _ _ _ (by omega), getD_map_div _ _ _ hj]
    exact div_le_div_of_nonneg_right (hs i j hij hj) hlast.le
  · intro i hi
    rw [hlen] at hi
    rw [getD_map_div _ _ _ hi]
    exact div_nonneg (h0 i hi) hlast.le
  · intro i hi
    rw [hlen] at hi
    rw [getD_map_div _ _ _ hi, div_le_one hlast]
    exact hs i _ (by omega) (by omega)
  · rw [hlen]; exact hi

/-- A random number below 1 always chooses a valid index. -/
lemma weights_choice {w : List ℝ} (hne : w ≠ []) (hlast : 0 < w.getD (w.length - 1) 0) {x : ℝ}
    (hx : x < 1) :
    ∃ i, i < w.length ∧
      (normalizedWeights w).map (fun weights => searchsorted weights x) = some i := by
  rw [normalizedWeights_eq hne]
  set s := w.getD (w.length - 1) 0 with hsdef
  have hlen : (w.map (· / s)).length = w.length := List.length_map _
  refine ⟨searchsorted (w.map (· / s)) x, ?_, rfl⟩
  rw [← hlen]
  apply searchsorted_lt_length (by simpa using hne)
  have hp : 0 < w.length := List.length_pos_iff.2 hne
  rw [hlen, getD_map_div _ _ _ (by omega), ← hsdef, div_self hlast.ne']
  exact hx.le

/-! ## Cumulative areas -/

/-- Area of a triangle of the mesh. -/
noncomputable def meshArea (t : Vec × Vec × Vec) : ℝ := triArea t.1 t.2.1 t.2.2

lemma polygonArea_tri (t : Vec × Vec × Vec) : polygonArea [t.1, t.2.1, t.2.2] = meshArea t := by
  rw [C05_polygon_area_triangle]
  unfold meshArea triArea
  congr 2
  ring

lemma cumsum_fold (mesh : List (Vec × Vec × Vec)) (s : ℝ) (acc : List ℝ) :
    (mesh.foldl (fun (s : ℝ × List ℝ) t =>
      let area := s.1 + polygonArea [t.1, t.2.1, t.2.2]
      (area, s.2 ++ [area])) (s, acc)).2 =
      acc ++ (List.range mesh.length).map fun i => s + ((mesh.take (i + 1)).map meshArea).sum := by
  induction mesh generalizing s acc with
  | nil => simp
  | cons t mesh ih =>
    rw [List.foldl_cons, ih, polygonArea_tri, List.length_cons, List.range_succ_eq_map,
      List.map_cons, List.map_map, List.append_assoc, List.singleton_append]
    simp [add_assoc, Function.comp_def]

lemma triangleAreaCumsum_eq (mesh : List (Vec × Vec × Vec)) :
    triangleAreaCumsum mesh =
      (List.range mesh.length).map fun i => ((mesh.take (i + 1)).map meshArea).sum := by
  unfold triangleAreaCumsum
  rw [cumsum_fold]
  simp

lemma meshArea_nonneg (t : Vec × Vec × Vec) : 0 ≤ meshArea t := by
  unfold meshArea triArea
  positivity

lemma cumsum_getD (mesh : List (Vec × Vec × Vec)) {i : ℕ} (hi : i < mesh.length) :
    (triangleAreaCumsum mesh).getD i 0 = ((mesh.take (i + 1)).map meshArea).sum := by
  rw [triangleAreaCumsum_eq, List.getD_eq_getElem?_getD, List.getElem?_map, List.getElem?_range hi]
  rfl

lemma cumsum_length (mesh : List (Vec × Vec × Vec)) :
    (triangleAreaCumsum mesh).length = mesh.length := by
  rw [triangleAreaCumsum_eq]; simp

lemma take_sum_succ (mesh : List (Vec × Vec × Vec)) {i : ℕ} (hi : i < mesh.length) :
    ((mesh.take (i + 1)).map meshArea).sum =
      ((mesh.take i).map meshArea).sum + meshArea mesh[i] := by
  rw [List.take_succ_eq_append_getElem hi, List.map_append, List.sum_append, List.map_singleton,
    List.sum_singleton]

lemma take_sum_mono (mesh : List (Vec × Vec × Vec)) {i j : ℕ} (hij : i ≤ j)
    (hj : j ≤ mesh.length) :
    ((mesh.take i).map meshArea).sum ≤ ((mesh.take j).map meshArea).sum := by
  induction j with
  | zero =>
    have : i = 0 := by omega
    rw [this]
  | succ j ih =>
    rcases Nat.lt_or_ge i (j + 1) with h | h
    · rw [take_sum_succ mesh (by omega)]
      have := ih (by omega) (by omega)
      linarith [meshArea_nonneg mesh[j]]
    · have : i = j + 1 := by omega
      rw [this]

lemma cumsum_sorted (mesh : List (Vec × Vec × Vec)) : SortedList (triangleAreaCumsum mesh) := by
  intro i j hij hj
  rw [cumsum_length] at hj
  rw [cumsum_getD mesh hj, cumsum_getD mesh (by omega)]
  exact take_sum_mono mesh (by omega) (by omega)

lemma cumsum_last (mesh : List (Vec × Vec × Vec)) (hne : mesh ≠ []) :
    (triangleAreaCumsum mesh).getD ((triangleAreaCumsum mesh).length - 1) 0 =
      (mesh.map meshArea).sum := by
  have hp : 0 < mesh.length := List.length_pos_iff.2 hne
  rw [cumsum_length, cumsum_getD mesh (by omega)]
  congr 2
  apply List.take_of_length_le
  omega

lemma cumsum_nonneg (mesh : List (Vec × Vec × Vec)) (i : ℕ)
    (hi : i < (triangleAreaCumsum mesh).length) : 0 ≤ (triangleAreaCumsum mesh).getD i 0 := by
  rw [cumsum_length] at hi
  rw [cumsum_getD mesh hi]
  apply List.sum_nonneg
  intro x hx
  obtain ⟨t, -, rfl⟩ := List.mem_map.1 hx
  exact meshArea_nonneg t

lemma cumsum_ne_nil {mesh : List (Vec × Vec × Vec)} (hne : mesh ≠ []) :
    triangleAreaCumsum mesh ≠ [] := by
  rw [← List.length_pos_iff, cumsum_length]
  exact List.length_pos_iff.2 hne

/-! ## Line strings -/

lemma lengthCumsum_length (vertices : List Vec) :
    (linestringLengthCumsum vertices).length = vertices.length - 1 := by
  simp [linestringLengthCumsum]

lemma lengthCumsum_getD (vertices : List Vec) {i : ℕ} (hi : i < vertices.length - 1) :
    (linestringLengthCumsum vertices).getD i 0 = segLen vertices i := by
  unfold linestringLengthCumsum
  rw [List.getD_eq_getElem?_getD, List.getElem?_map, List.getElem?_range hi]
  rfl

lemma segLen_nonneg (vertices : List Vec) (i : ℕ) : 0 ≤ segLen vertices i := Real.sqrt_nonneg _

end CrowdDynamics
