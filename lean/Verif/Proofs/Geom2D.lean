import Verif.Model.Geom2D
import Verif.Spec.Polygon
import Verif.Proofs.Vector2D
import Mathlib.Algebra.BigOperators.Group.Finset.Basic
import Mathlib.Algebra.BigOperators.Intervals
import Mathlib.Analysis.Convex.Segment
import Mathlib.Tactic.LinearCombination

/-! # Helper lemmas about `geom2D.py` -/

namespace CrowdDynamics

open Spec Finset

/-- A summing loop is a sum. -/
lemma foldl_add_range' (f : ℕ → ℝ) (s n : ℕ) (a : ℝ) :
    (List.range' s n).foldl (fun acc i => acc + f i) a = a + ∑ i ∈ range n, f (s + i) := by
  induction n generalizing s a with
  | zero => simp
  | succ n ih =>
    rw [List.range'_succ, List.foldl_cons, ih, Finset.sum_range_succ']
    simp only [add_zero]
    have : ∀ i, s + 1 + i = s + (i + 1) := fun i => by omega
    simp only [this]
    ring

lemma pathArea_eq_sum (l : List Vec) :
    pathArea l = ∑ i ∈ range (l.length - 1), orientedArea (l.getD i 0) (l.getD (i + 1) 0) := by
  induction l with
  | nil => simp [pathArea]
  | cons p t ih =>
    cases t with
    | nil => simp [pathArea]
    | cons q rest =>
      rw [pathArea, ih]
      simp only [List.length_cons, Nat.add_sub_cancel]
      rw [Finset.sum_range_succ', add_comm]
      simp

lemma pathArea_append (l : List Vec) (p : Vec) (m : List Vec) :
    pathArea (l ++ p :: m) = pathArea (l ++ [p]) + pathArea (p :: m) := by
  induction l with
  | nil => simp [pathArea]
  | cons a t ih =>
    cases t with
    | nil =>
      simp only [List.cons_append, List.nil_append, pathArea]; ring
    | cons b r =>
      simp only [List.cons_append, pathArea] at ih ⊢
      rw [ih]; ring

lemma orientedArea_swap (p q : Vec) : orientedArea q p = -orientedArea p q := by
  unfold orientedArea; ring

lemma pathArea_reverse (l : List Vec) : pathArea l.reverse = -pathArea l := by
  induction l with
  | nil => simp [pathArea]
  | cons p t ih =>
    cases t with
    | nil => simp [pathArea]
    | cons q r =>
      rw [List.reverse_cons, List.reverse_cons, List.append_assoc]
      simp only [List.singleton_append]
      rw [pathArea_append]
      rw [← List.reverse_cons, ih]
      simp only [pathArea]
      rw [orientedArea_swap]; ring

lemma signedArea_cons (p : Vec) (t : List Vec) :
    signedArea (p :: t) = pathArea (p :: t ++ [p]) / 2 := rfl

lemma signedArea_rotate_one (p : Vec) (t : List Vec) :
    signedArea (t ++ [p]) = signedArea (p :: t) := by
  cases t with
  | nil => rfl
  | cons q r =>
    unfold signedArea
    simp only [List.cons_append, List.append_assoc]
    have h1 := pathArea_append (q :: r) p [q]
    have h2 : pathArea (p :: q :: (r ++ [p])) = orientedArea p q + pathArea (q :: (r ++ [p])) := rfl
    simp only [List.cons_append, pathArea] at h1 h2 ⊢
    simp only [List.nil_append]
    rw [h1]; ring

lemma signedArea_rotate (l : List Vec) (k : ℕ) : signedArea (l.rotate k) = signedArea l := by
  induction k with
  | zero => simp
  | succ k ih =>
    rw [← List.rotate_rotate, ← ih]
    generalize l.rotate k = m
    cases m with
    | nil => simp
    | cons p t => simpa using signedArea_rotate_one p t

lemma signedArea_reverse (l : List Vec) : signedArea l.reverse = -signedArea l := by
  cases l with
  | nil => simp [signedArea]
  | cons p t =>
    rw [List.reverse_cons, signedArea_rotate_one]
    rw [signedArea_cons, signedArea_cons]
    have : p :: t.reverse ++ [p] = (p :: t ++ [p]).reverse := by simp
    rw [this, pathArea_reverse]; ring

lemma pathArea_affine (a b c d e f : ℝ) (l : List Vec) :
    pathArea (l.map (affine a b c d e f)) = (a * d - b * c) * pathArea l +
      (match l.head?, l.getLast? with
        | some p, some q => orientedArea (e, f)
            (a * (q.1 - p.1) + b * (q.2 - p.2), c * (q.1 - p.1) + d * (q.2 - p.2))
        | _, _ => 0) := by
  induction l with
  | nil => simp [pathArea]
  | cons p t ih =>
    cases t with
    | nil => simp [pathArea, orientedArea]
    | cons q r =>
      simp only [List.map_cons, pathArea] at ih ⊢
      rw [ih]
      simp only [List.head?_cons, List.getLast?_cons_cons]
      obtain ⟨z, hz⟩ : ∃ z, (q :: r).getLast? = some z :=
        ⟨_, List.getLast?_eq_getLast_of_ne_nil (by simp)⟩
      rw [hz]
      simp only [affine, orientedArea]
      ring

lemma signedArea_affine (a b c d e f : ℝ) (l : List Vec) :
    signedArea (l.map (affine a b c d e f)) = (a * d - b * c) * signedArea l := by
  cases l with
  | nil => simp [signedArea]
  | cons p t =>
    unfold signedArea
    simp only [List.map_cons]
    have h := pathArea_affine a b c d e f (p :: t ++ [p])
    simp only [List.map_cons, List.map_append, List.map_nil, List.cons_append, List.head?_cons] at h
    have hl : (p :: (t ++ [p])).getLast? = some p := by
      rw [← List.cons_append, List.getLast?_append]; simp
    rw [hl] at h
    simp only [sub_self, mul_zero, add_zero, orientedArea] at h
    simp only [List.cons_append]
    rw [h]; ring

lemma signedArea_cut (p q : Vec) (l m : List Vec) :
    signedArea (p :: l ++ q :: m) = signedArea (p :: l ++ [q]) + signedArea (p :: q :: m) := by
  unfold signedArea
  simp only [List.cons_append, List.append_assoc]
  have h1 := pathArea_append (p :: l) q (m ++ [p])
  have h2 := pathArea_append (p :: l) q [p]
  have h3 : pathArea (p :: q :: (m ++ [p])) = orientedArea p q + pathArea (q :: (m ++ [p])) := rfl
  have h4 : pathArea [q, p] = orientedArea q p := by simp [pathArea]
  simp only [List.cons_append, List.nil_append] at h1 h2 ⊢
  rw [h1, h2, h3, h4, orientedArea_swap p q]; ring

/-- The rearrangement of the shoelace sum used by the code. -/
lemma shoelace_sum (x y : ℕ → ℝ) (m : ℕ) :
    (∑ i ∈ range (m + 1), x (1 + i) * (y (1 + i + 1) - y (1 + i - 1))) +
        x (m + 2) * (y 0 - y (m + 1)) + x 0 * (y 1 - y (m + 2)) =
      (∑ i ∈ range (m + 2), (x i * y (i + 1) - x (i + 1) * y i)) +
        (x (m + 2) * y 0 - x 0 * y (m + 2)) := by
  induction m with
  | zero => simp [Finset.sum_range_succ]; ring
  | succ m ih =>
    rw [Finset.sum_range_succ, Finset.sum_range_succ (n := m + 2)]
    have e1 : 1 + (m + 1) = m + 2 := by omega
    have e2 : m + 2 - 1 = m + 1 := by omega
    simp only [e1, e2] at ih ⊢
    linear_combination ih

lemma polygonArea_eq (l : List Vec) : polygonArea l = |signedArea l| := by
  by_cases hn : l.length < 3
  · unfold polygonArea
    simp only [hn, if_true]
    match l, hn with
    | [], _ => simp [signedArea]
    | [p], _ => simp [signedArea, pathArea, orientedArea]; try ring
    | [p, q], _ => simp [signedArea, pathArea, orientedArea]; try ring
  · obtain ⟨m, hm⟩ : ∃ m, l.length = m + 3 := ⟨l.length - 3, by omega⟩
    obtain ⟨p, t, rfl⟩ : ∃ p t, l = p :: t := by
      cases l with
      | nil => simp at hm
      | cons p t => exact ⟨p, t, rfl⟩
    unfold polygonArea
    simp only [hm]
    have h3 : ¬ (m + 3 < 3) := by omega
    simp only [h3, if_false, foldl_add_range', zero_add]
    have e1 : m + 3 - 2 = m + 1 := by omega
    have e2 : m + 3 - 1 = m + 2 := by omega
    rw [e1, e2]
    have := shoelace_sum (fun i => ((p :: t).getD i 0).1) (fun i => ((p :: t).getD i 0).2) m
    rw [this]
    rw [signedArea_cons, pathArea_eq_sum]
    have hl : (p :: t ++ [p]).length - 1 = m + 3 := by simp at hm ⊢; omega
    rw [hl, Finset.sum_range_succ (n := m + 2)]
    have hg : ∀ i, i < m + 3 → (p :: t ++ [p]).getD i 0 = (p :: t).getD i 0 := by
      intro i hi
      rw [List.getD_eq_getElem?_getD, List.getD_eq_getElem?_getD,
        List.getElem?_append_left (by rw [hm]; exact hi)]
    have hg2 : (p :: t ++ [p]).getD (m + 2 + 1) 0 = p := by
      rw [List.getD_eq_getElem?_getD, List.getElem?_append_right (by rw [hm]), hm]
      simp
    rw [hg2, hg (m + 2) (by omega)]
    have hsum : ∑ i ∈ range (m + 2),
        orientedArea ((p :: t ++ [p]).getD i 0) ((p :: t ++ [p]).getD (i + 1) 0) =
        ∑ i ∈ range (m + 2), (((p :: t).getD i 0).1 * ((p :: t).getD (i + 1) 0).2 -
          ((p :: t).getD (i + 1) 0).1 * ((p :: t).getD i 0).2) := by
      refine Finset.sum_congr rfl (fun i hi => ?_)
      rw [Finset.mem_range] at hi
      rw [hg i (by omega), hg (i + 1) (by omega)]
      rfl
    rw [hsum, abs_div, abs_of_pos (show (0 : ℝ) < 2 by norm_num)]
    have hp : (p :: t).getD 0 0 = p := rfl
    rw [hp, show (0.5 : ℝ) = 2⁻¹ by norm_num, div_eq_inv_mul]
    rfl

/-! ### Segment intersection -/

lemma mem_segment_iff (p q z : Vec) :
    z ∈ segment ℝ p q ↔ ∃ t : ℝ, 0 ≤ t ∧ t ≤ 1 ∧ z = p + t • (q - p) := by
  rw [segment_eq_image_lineMap]
  constructor
  · rintro ⟨t, ht, rfl⟩
    refine ⟨t, ht.1, ht.2, ?_⟩
    rw [AffineMap.lineMap_apply_module']; abel
  · rintro ⟨t, h0, h1, rfl⟩
    refine ⟨t, ⟨h0, h1⟩, ?_⟩
    rw [AffineMap.lineMap_apply_module']; abel

lemma lineIntersect_iff (x0 x1 y0 y1 : Vec) :
    lineIntersect x0 x1 y0 y1 = true ↔
      (x1 - x0).1 * (y1 - y0).2 - (x1 - x0).2 * (y1 - y0).1 ≠ 0 ∧
      ∃ z, z ∈ segment ℝ x0 x1 ∧ z ∈ segment ℝ y0 y1 := by
  unfold lineIntersect
  simp only
  by_cases hd : (x1 - x0).1 * (y1 - y0).2 - (x1 - x0).2 * (y1 - y0).1 = 0
  · rw [if_pos hd]; simp only [hd]; simp
  · rw [if_neg hd]
    simp only [decide_eq_true_eq, ne_eq, hd, not_false_eq_true, true_and]
    simp only [Prod.fst_sub, Prod.snd_sub] at hd ⊢
    constructor
    · rintro ⟨⟨h1, h2⟩, h3, h4⟩
      generalize hD : (x1.1 - x0.1) * (y1.2 - y0.2) - (x1.2 - x0.2) * (y1.1 - y0.1) = D at *
      generalize hs : ((y0.1 - x0.1) * (y1.2 - y0.2) - (y0.2 - x0.2) * (y1.1 - y0.1)) / D = s at *
      generalize ht : ((y0.1 - x0.1) * (x1.2 - x0.2) - (y0.2 - x0.2) * (x1.1 - x0.1)) / D = t at *
      rw [div_eq_iff hd] at hs ht
      refine ⟨x0 + s • (x1 - x0), ?_, ?_⟩
      · rw [mem_segment_iff]; exact ⟨_, h1, h2, rfl⟩
      · rw [mem_segment_iff]; refine ⟨_, h3, h4, ?_⟩
        ext
        · simp only [Prod.fst_add, Prod.smul_fst, Prod.fst_sub, smul_eq_mul]
          apply mul_left_cancel₀ hd
          linear_combination (-(x1.1 - x0.1)) * hs + (y1.1 - y0.1) * ht +
            (y0.1 - x0.1) * hD
        · simp only [Prod.snd_add, Prod.smul_snd, Prod.snd_sub, smul_eq_mul]
          apply mul_left_cancel₀ hd
          linear_combination (-(x1.2 - x0.2)) * hs + (y1.2 - y0.2) * ht +
            (y0.2 - x0.2) * hD
    · rintro ⟨z, hz1, hz2⟩
      rw [mem_segment_iff] at hz1 hz2
      obtain ⟨s, hs0, hs1, rfl⟩ := hz1
      obtain ⟨t, ht0, ht1, h⟩ := hz2
      have ha := congrArg Prod.fst h
      have hb := congrArg Prod.snd h
      simp only [Prod.fst_add, Prod.smul_fst, Prod.fst_sub, smul_eq_mul, Prod.snd_add,
        Prod.smul_snd, Prod.snd_sub] at ha hb
      have e1 : ((y0.1 - x0.1) * (y1.2 - y0.2) - (y0.2 - x0.2) * (y1.1 - y0.1)) /
          ((x1.1 - x0.1) * (y1.2 - y0.2) - (x1.2 - x0.2) * (y1.1 - y0.1)) = s := by
        rw [div_eq_iff hd]
        linear_combination (-(y1.2 - y0.2)) * ha + (y1.1 - y0.1) * hb
      have e2 : ((y0.1 - x0.1) * (x1.2 - x0.2) - (y0.2 - x0.2) * (x1.1 - x0.1)) /
          ((x1.1 - x0.1) * (y1.2 - y0.2) - (x1.2 - x0.2) * (y1.1 - y0.1)) = t := by
        rw [div_eq_iff hd]
        linear_combination (-(x1.2 - x0.2)) * ha + (x1.1 - x0.1) * hb
      rw [e1, e2]
      exact ⟨⟨hs0, hs1⟩, ht0, ht1⟩

lemma isObstacleBetweenPoints_iff (p0 p1 : Vec) (ws : List Wall) :
    isObstacleBetweenPoints p0 p1 ws = true ↔
      ∃ w ∈ ws, lineIntersect p0 p1 w.p0 w.p1 = true := by
  induction ws with
  | nil => simp [isObstacleBetweenPoints]
  | cons w ws ih =>
    unfold isObstacleBetweenPoints
    by_cases h : lineIntersect p0 p1 w.p0 w.p1 = true
    · simp [h]
    · simp [h, ih]

end CrowdDynamics
