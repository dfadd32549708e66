import Verif.Model.Distance
import Verif.Proofs.Geom2D

/-! # Helper lemmas about `distance.py` -/

namespace CrowdDynamics

open Spec

/-- The state of the search loop describes the minimum over the visited keys. -/
def MinOK {ι : Type} (f : ι → ℝ × Vec) (l : List ι) (s : MinState ι) : Prop :=
  s.h = some (f s.i).1 ∧ s.n = (f s.i).2 ∧ s.i ∈ l ∧ ∀ k ∈ l, (f s.i).1 ≤ (f k).1

lemma minStep_fold_aux {ι : Type} (f : ι → ℝ × Vec) (l : List ι) (done : List ι)
    (s : MinState ι) (hs : MinOK f done s) : MinOK f (done ++ l) (l.foldl (minStep f) s) := by
  induction l generalizing done s with
  | nil => simpa using hs
  | cons k t ih =>
    rw [List.foldl_cons]
    have : done ++ k :: t = (done ++ [k]) ++ t := by simp
    rw [this]
    apply ih
    obtain ⟨h1, h2, h3, h4⟩ := hs
    unfold minStep
    rw [h1]
    simp only
    by_cases hk : (f k).1 < (f s.i).1
    · rw [if_pos hk]
      refine ⟨rfl, rfl, by simp, ?_⟩
      intro j hj
      rw [List.mem_append, List.mem_singleton] at hj
      rcases hj with hj | rfl
      · exact hk.le.trans (h4 j hj)
      · exact le_refl _
    · rw [if_neg hk]
      refine ⟨h1, h2, by simp [h3], ?_⟩
      intro j hj
      rw [List.mem_append, List.mem_singleton] at hj
      rcases hj with hj | rfl
      · exact h4 j hj
      · exact not_lt.1 hk

lemma minStep_fold {ι : Type} (f : ι → ℝ × Vec) (l : List ι) (hl : l ≠ []) (n : Vec) (i : ι) :
    MinOK f l (l.foldl (minStep f) ⟨none, n, i⟩) := by
  cases l with
  | nil => exact absurd rfl hl
  | cons k t =>
    rw [List.foldl_cons]
    have := minStep_fold_aux f t [k] (minStep f ⟨none, n, i⟩ k) ⟨rfl, rfl, by simp [minStep], by
      intro j hj; rw [List.mem_singleton] at hj; subst hj; simp [minStep]⟩
    simpa using this

lemma minStepOpt_eq {ι : Type} (f : ι → Option (ℝ × Vec)) (g : ι → ℝ × Vec)
    (h : ∀ k, f k = some (g k)) : minStepOpt f = minStep g := by
  funext s k
  unfold minStepOpt minStep
  rw [h k]

lemma minStepOpt_fold_none {ι : Type} (f : ι → Option (ℝ × Vec)) (h : ∀ k, f k = none)
    (l : List ι) (s : MinState ι) (hs : s.h = none) : (l.foldl (minStepOpt f) s).h = none := by
  induction l generalizing s with
  | nil => exact hs
  | cons k t ih =>
    rw [List.foldl_cons]
    apply ih
    unfold minStepOpt
    rw [h k, hs]

lemma mem_pairs33 (k : Fin 3 × Fin 3) : k ∈ pairs33 := by
  unfold pairs33
  simp [List.mem_flatMap]

lemma pairs33_ne_nil : pairs33 ≠ [] := List.ne_nil_of_mem (mem_pairs33 (0, 0))

lemma distanceCircles_fst (x0 : Vec) (r0 : ℝ) (x1 : Vec) (r1 : ℝ) :
    (distanceCircles x0 r0 x1 r1).1 = Spec.dist x0 x1 - (r0 + r1) := rfl

lemma distanceCircles_normal (x0 : Vec) (r0 : ℝ) (x1 : Vec) (r1 : ℝ) (h : x0 ≠ x1) :
    Spec.len (distanceCircles x0 r0 x1 r1).2 = 1 ∧
      Spec.dist x0 x1 • (distanceCircles x0 r0 x1 r1).2 = x0 - x1 := by
  have hne : x0 - x1 ≠ 0 := sub_ne_zero.2 h
  have hp := length_pos hne
  have hn : (distanceCircles x0 r0 x1 r1).2 = (length (x0 - x1))⁻¹ • (x0 - x1) := by
    unfold distanceCircles
    simp only [hp.ne', if_false]
    ext <;> simp [div_eq_inv_mul]
  rw [hn]
  constructor
  · rw [← length_eq, length_smul, abs_of_pos (inv_pos.2 hp), inv_mul_cancel₀ hp.ne']
  · unfold Spec.dist
    rw [← length_eq, smul_smul, mul_inv_cancel₀ hp.ne', one_smul]

lemma distanceCircles_normal_self (x0 : Vec) (r0 : ℝ) (r1 : ℝ) :
    (distanceCircles x0 r0 x0 r1).2 = (0, 0) := by
  have : length (x0 - x0) = 0 := by rw [sub_self]; exact length_eq_zero.2 rfl
  unfold distanceCircles
  simp only [this, if_true]

lemma distanceCircles_swap (x0 : Vec) (r0 : ℝ) (x1 : Vec) (r1 : ℝ) :
    (distanceCircles x1 r1 x0 r0).1 = (distanceCircles x0 r0 x1 r1).1 ∧
      (distanceCircles x1 r1 x0 r0).2 = -(distanceCircles x0 r0 x1 r1).2 := by
  unfold distanceCircles
  simp only
  rw [length_sub_comm x1 x0]
  refine ⟨by ring, ?_⟩
  by_cases h : length (x0 - x1) = 0
  · simp [h]
  · simp only [h, if_false]
    ext
    · simp only [Prod.fst_sub, Prod.fst_neg]; rw [← neg_div, neg_sub]
    · simp only [Prod.snd_sub, Prod.snd_neg]; rw [← neg_div, neg_sub]

/-- Euclidean distance in an orthonormal frame. -/
lemma dist_frame {t : Vec} (ht : t.1 ^ 2 + t.2 ^ 2 = 1) (a b : ℝ) :
    length (a • t + b • rotate90 t) = Real.sqrt (a ^ 2 + b ^ 2) := by
  unfold length
  congr 1
  simp only [rotate90, Prod.fst_add, Prod.snd_add, Prod.smul_fst, Prod.smul_snd, smul_eq_mul]
  linear_combination (a ^ 2 + b ^ 2) * ht

lemma frame_decomp {t : Vec} (ht : t.1 ^ 2 + t.2 ^ 2 = 1) (v : Vec) :
    v = dot t v • t + dot (rotate90 t) v • rotate90 t := by
  ext
  · simp only [rotate90, dot, Prod.fst_add, Prod.smul_fst, smul_eq_mul]
    linear_combination (-v.1) * ht
  · simp only [rotate90, dot, Prod.snd_add, Prod.smul_snd, smul_eq_mul]
    linear_combination (-v.2) * ht

/-- The specification of the distance to a closed segment: `q` is the foot point. -/
lemma distanceCircleLine_spec (x : Vec) (r : ℝ) (p0 p1 : Vec) (hne : p0 ≠ p1) :
    ∃ h n, distanceCircleLine x r p0 p1 = some (h, n) ∧
      (∃ q ∈ segment ℝ p0 p1, Spec.dist x q = h + r ∧ (h + r) • n = x - q ∧
        (x ≠ q → Spec.len n = 1) ∧ (x = q → n = 0)) ∧
      ∀ q ∈ segment ℝ p0 p1, h + r ≤ Spec.dist x q := by
  have hd : p1 - p0 ≠ 0 := sub_ne_zero.2 (Ne.symm hne)
  have hl := length_pos hd
  generalize hlw : length (p1 - p0) = L at hl
  set t : Vec := ((p1 - p0).1 / L, (p1 - p0).2 / L) with ht
  have htt : t.1 ^ 2 + t.2 ^ 2 = 1 := by
    have := length_sq (p1 - p0)
    rw [hlw] at this
    simp only [ht, div_pow]
    rw [← add_div, ← this, div_self (by positivity)]
  have hdt : p1 - p0 = L • t := by
    ext
    · simp only [ht, Prod.smul_fst, smul_eq_mul]; field_simp
    · simp only [ht, Prod.smul_snd, smul_eq_mul]; field_simp
  set s := dot t (x - p0) with hs
  set b := dot (rotate90 t) (x - p0) with hb
  have hq0 : x - p0 = s • t + b • rotate90 t := frame_decomp htt _
  have hx : ∀ τ : ℝ, x - (p0 + τ • (p1 - p0)) = (s - τ * L) • t + b • rotate90 t := by
    intro τ
    rw [hdt, ← sub_sub, hq0, smul_smul, sub_smul]; abel
  have hdist : ∀ τ : ℝ, Spec.dist x (p0 + τ • (p1 - p0)) = Real.sqrt ((s - τ * L) ^ 2 + b ^ 2) := by
    intro τ
    unfold Spec.dist
    rw [← length_eq, hx, dist_frame htt]
  have hq1 : x - p1 = (s - L) • t + b • rotate90 t := by
    have := hx 1
    rw [one_smul, one_mul] at this
    rw [← this]; congr 1; abel
  have hs1 : dot t (x - p1) = s - L := by
    rw [hq1]
    simp only [dot, rotate90, Prod.fst_add, Prod.snd_add, Prod.smul_fst, Prod.smul_snd, smul_eq_mul]
    linear_combination (s - L) * htt
  have hL0 : ¬ (L = 0) := hl.ne'
  have hmod : distanceCircleLine x r p0 p1 = some
      ((if -(s - L) - s > L then (length (x - p0), ((x - p0).1 / length (x - p0),
          (x - p0).2 / length (x - p0)))
        else if -(s - L) - s < -L then (length (x - p1), ((x - p1).1 / length (x - p1),
          (x - p1).2 / length (x - p1)))
        else ((|b|, npSign b • rotate90 t) : ℝ × Vec)).1 - r,
       (if -(s - L) - s > L then (length (x - p0), ((x - p0).1 / length (x - p0),
          (x - p0).2 / length (x - p0)))
        else if -(s - L) - s < -L then (length (x - p1), ((x - p1).1 / length (x - p1),
          (x - p1).2 / length (x - p1)))
        else ((|b|, npSign b • rotate90 t) : ℝ × Vec)).2) := by
    unfold distanceCircleLine
    simp only [hlw, hL0, if_false]
    rw [← hs1, hs, hb, ht]
  have hnorm : ∀ v : Vec, v ≠ 0 → Spec.len (v.1 / length v, v.2 / length v) = 1 ∧
      length v • ((v.1 / length v, v.2 / length v) : Vec) = v := by
    intro v hv
    have h1 : ((v.1 / length v, v.2 / length v) : Vec) = normalize v := by
      unfold normalize; simp [(length_pos hv).ne']
    rw [h1]
    refine ⟨length_normalize hv, ?_⟩
    rw [normalize_of_ne hv, smul_smul, mul_inv_cancel₀ (length_pos hv).ne', one_smul]
  by_cases h1 : -(s - L) - s > L
  · -- before the start of the wall
    have hsneg : s < 0 := by linarith
    have hlen : length (x - p0) = Real.sqrt (s ^ 2 + b ^ 2) := by rw [hq0, dist_frame htt]
    have hne0 : x - p0 ≠ 0 := by
      intro h0
      have := length_eq_zero.2 h0
      rw [hlen, Real.sqrt_eq_zero (by positivity)] at this
      nlinarith [sq_nonneg b, mul_pos_of_neg_of_neg hsneg hsneg]
    simp only [h1, if_true] at hmod
    refine ⟨_, _, hmod, ⟨p0, left_mem_segment ℝ _ _, ?_, ?_, ?_, ?_⟩, ?_⟩
    · rw [sub_add_cancel]; rfl
    · rw [sub_add_cancel]; exact (hnorm _ hne0).2
    · intro _; exact (hnorm _ hne0).1
    · intro h; exact absurd (sub_eq_zero.2 h) hne0
    · intro q hq
      rw [mem_segment_iff] at hq
      obtain ⟨τ, h0, _, rfl⟩ := hq
      rw [hdist, sub_add_cancel, hlen]
      apply Real.sqrt_le_sqrt
      have : 0 ≤ τ * L := mul_nonneg h0 hl.le
      nlinarith
  · by_cases h2 : -(s - L) - s < -L
    · have hspos : 0 < s - L := by linarith
      have hlen : length (x - p1) = Real.sqrt ((s - L) ^ 2 + b ^ 2) := by
        rw [hq1, dist_frame htt]
      have hne0 : x - p1 ≠ 0 := by
        intro h0
        have := length_eq_zero.2 h0
        rw [hlen, Real.sqrt_eq_zero (by positivity)] at this
        nlinarith [sq_nonneg b, mul_pos hspos hspos]
      simp only [h1, if_false, h2, if_true] at hmod
      refine ⟨_, _, hmod, ⟨p1, right_mem_segment ℝ _ _, ?_, ?_, ?_, ?_⟩, ?_⟩
      · rw [sub_add_cancel]; rfl
      · rw [sub_add_cancel]; exact (hnorm _ hne0).2
      · intro _; exact (hnorm _ hne0).1
      · intro h; exact absurd (sub_eq_zero.2 h) hne0
      · intro q hq
        rw [mem_segment_iff] at hq
        obtain ⟨τ, _, h1', rfl⟩ := hq
        rw [hdist, sub_add_cancel, hlen]
        apply Real.sqrt_le_sqrt
        have : τ * L ≤ L := by nlinarith
        nlinarith
    · have hs0 : 0 ≤ s := by linarith
      have hsL : s ≤ L := by linarith
      simp only [h1, if_false, h2] at hmod
      have hsq : ∀ b : ℝ, |b| * npSign b = b := by
        intro b; unfold npSign
        rcases lt_trichotomy b 0 with h | h | h
        · simp [h, not_lt.2 h.le, abs_of_neg h]
        · simp [h]
        · simp [h, abs_of_pos h]
      have hfoot : x - (p0 + (s / L) • (p1 - p0)) = b • rotate90 t := by
        rw [hx, div_mul_cancel₀ _ hl.ne', sub_self, zero_smul, zero_add]
      have hrot : length (rotate90 t) = 1 := by
        unfold length rotate90
        rw [show (-t.2, t.1).1 ^ 2 + (-t.2, t.1).2 ^ 2 = 1 by simp; linarith, Real.sqrt_one]
      refine ⟨_, _, hmod, ⟨p0 + (s / L) • (p1 - p0), ?_, ?_, ?_, ?_, ?_⟩, ?_⟩
      · rw [mem_segment_iff]
        exact ⟨s / L, by positivity, by rw [div_le_one hl]; exact hsL, rfl⟩
      · rw [sub_add_cancel, hdist, div_mul_cancel₀ _ hl.ne', sub_self]
        simp [Real.sqrt_sq_eq_abs]
      · rw [sub_add_cancel, smul_smul, hsq, hfoot]
      · intro hxq
        have hb0 : b ≠ 0 := by
          intro h0
          apply hxq
          rw [h0, zero_smul, sub_eq_zero] at hfoot
          exact hfoot
        rw [← length_eq, length_smul, hrot, mul_one]
        unfold npSign
        rcases lt_or_gt_of_ne hb0 with h | h
        · simp [h, not_lt.2 h.le]
        · simp [h]
      · intro hxq
        rw [← sub_eq_zero, hfoot] at hxq
        have hb0 : b = 0 := by
          have := congrArg length hxq
          rw [length_smul, hrot, mul_one] at this
          rw [← abs_eq_zero, this]; exact length_eq_zero.2 rfl
        rw [hb0]; simp [npSign]
      · intro q hq
        rw [mem_segment_iff] at hq
        obtain ⟨τ, _, _, rfl⟩ := hq
        rw [hdist, sub_add_cancel, ← Real.sqrt_sq_eq_abs]
        apply Real.sqrt_le_sqrt
        nlinarith [sq_nonneg (s - τ * L)]

lemma distanceCircleLine_degenerate (x : Vec) (r : ℝ) (p0 : Vec) :
    distanceCircleLine x r p0 p0 = none := by
  unfold distanceCircleLine
  have : length (p0 - p0) = 0 := by rw [sub_self]; exact length_eq_zero.2 rfl
  simp only [this, if_true]

/-- What `distance_three_circles` computes: the minimising pair of circles and the
quantities derived from it. -/
lemma distanceThreeCircles_spec (x0 : Fin 3 → Vec) (r0 : Fin 3 → ℝ) (x1 : Fin 3 → Vec)
    (r1 : Fin 3 → ℝ) :
    ∃ i j : Fin 3, ∃ n : Vec,
      (distanceThreeCircles x0 r0 x1 r1).h = Spec.dist (x0 i) (x1 j) - (r0 i + r1 j) ∧
      (∀ i' j', (distanceThreeCircles x0 r0 x1 r1).h ≤
        Spec.dist (x0 i') (x1 j') - (r0 i' + r1 j')) ∧
      (distanceThreeCircles x0 r0 x1 r1).n = n ∧
      n = (distanceCircles (x0 i) (r0 i) (x1 j) (r1 j)).2 ∧
      (distanceThreeCircles x0 r0 x1 r1).rm0 = x0 i + r0 i • n - x0 0 ∧
      (distanceThreeCircles x0 r0 x1 r1).rm1 = x0 j - r1 j • n - x1 0 := by
  obtain ⟨h1, h2, -, h4⟩ := minStep_fold
    (fun k : Fin 3 × Fin 3 => distanceCircles (x0 k.1) (r0 k.1) (x1 k.2) (r1 k.2))
    pairs33 pairs33_ne_nil (0, 0) (0, 0)
  unfold distanceThreeCircles
  simp only
  generalize pairs33.foldl (minStep fun k : Fin 3 × Fin 3 =>
    distanceCircles (x0 k.1) (r0 k.1) (x1 k.2) (r1 k.2)) ⟨none, (0, 0), (0, 0)⟩ = s at *
  refine ⟨s.i.1, s.i.2, s.n, ?_, ?_, rfl, h2, rfl, rfl⟩
  · rw [h1]; rfl
  · intro i' j'
    rw [h1]
    exact h4 (i', j') (mem_pairs33 _)

/-- What `distance_three_circle_line` computes. -/
lemma distanceThreeCircleLine_spec (x : Fin 3 → Vec) (r : Fin 3 → ℝ) (p0 p1 : Vec) (hne : p0 ≠ p1) :
    ∃ h n arm, distanceThreeCircleLine x r p0 p1 = some (h, n, arm) ∧
      (∃ i, ∃ q ∈ segment ℝ p0 p1, Spec.dist (x i) q = h + r i ∧ (h + r i) • n = x i - q ∧
        (x i ≠ q → Spec.len n = 1) ∧ (x i = q → n = 0) ∧ arm = x i - r i • n - x 0) ∧
      ∀ i, ∀ q ∈ segment ℝ p0 p1, h + r i ≤ Spec.dist (x i) q := by
  choose h n hmod hq hall using fun i => distanceCircleLine_spec (x i) (r i) p0 p1 hne
  have e := minStepOpt_eq (fun i => distanceCircleLine (x i) (r i) p0 p1) (fun i => (h i, n i)) hmod
  obtain ⟨h1, h2, -, h4⟩ := minStep_fold (fun i : Fin 3 => (h i, n i)) (List.finRange 3)
    (List.ne_nil_of_mem (List.mem_finRange 0)) (0, 0) 0
  unfold distanceThreeCircleLine
  simp only
  rw [e]
  generalize (List.finRange 3).foldl (minStep fun i : Fin 3 => (h i, n i)) ⟨none, (0, 0), 0⟩ = s at *
  rw [h1]
  refine ⟨_, _, _, rfl, ⟨s.i, ?_⟩, ?_⟩
  · obtain ⟨q, hqs, a1, a2, a3, a4⟩ := hq s.i
    refine ⟨q, hqs, a1, ?_, ?_, ?_, rfl⟩
    · rw [h2]; exact a2
    · rw [h2]; exact a3
    · rw [h2]; exact a4
  · intro i q hqs
    have := h4 i (List.mem_finRange i)
    simp only at this ⊢
    linarith [hall i q hqs]

lemma distanceThreeCircleLine_degenerate (x : Fin 3 → Vec) (r : Fin 3 → ℝ) (p : Vec) :
    distanceThreeCircleLine x r p p = none := by
  unfold distanceThreeCircleLine
  simp only
  rw [minStepOpt_fold_none _ (fun i => distanceCircleLine_degenerate (x i) (r i) p) _ _ rfl]

end CrowdDynamics
