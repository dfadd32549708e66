import Verif.Model.Vector2D
import Verif.Spec.Plane
import Mathlib.Tactic.Linarith
import Mathlib.Tactic.FieldSimp
import Mathlib.Tactic.Positivity
import Mathlib.Tactic.Ring

/-! # Helper lemmas about `vector2D.py` -/

open Real

namespace CrowdDynamics

lemma length_eq (v : Vec) : length v = Spec.len v := rfl
lemma dot_eq (u v : Vec) : dot u v = Spec.inner u v := rfl

lemma length_nonneg (v : Vec) : 0 ≤ length v := Real.sqrt_nonneg _

lemma length_sq (v : Vec) : length v ^ 2 = v.1 ^ 2 + v.2 ^ 2 :=
  Real.sq_sqrt (by positivity)

lemma length_mul_self (v : Vec) : length v * length v = v.1 ^ 2 + v.2 ^ 2 := by
  rw [← sq, length_sq]

lemma length_eq_zero {v : Vec} : length v = 0 ↔ v = 0 := by
  constructor
  · intro h
    have h2 := length_sq v
    rw [h] at h2
    have h1 : v.1 = 0 := by nlinarith [sq_nonneg v.1, sq_nonneg v.2]
    have h3 : v.2 = 0 := by nlinarith [sq_nonneg v.1, sq_nonneg v.2]
    exact Prod.ext h1 h3
  · rintro rfl
    simp [length]

lemma length_pos {v : Vec} (h : v ≠ 0) : 0 < length v :=
  lt_of_le_of_ne (length_nonneg v) (fun h' => h (length_eq_zero.1 h'.symm))

lemma length_smul (c : ℝ) (v : Vec) : length (c • v) = |c| * length v := by
  unfold length
  have : (c • v).1 ^ 2 + (c • v).2 ^ 2 = c ^ 2 * (v.1 ^ 2 + v.2 ^ 2) := by
    simp only [Prod.smul_fst, Prod.smul_snd, smul_eq_mul]; ring
  rw [this, Real.sqrt_mul (sq_nonneg c), Real.sqrt_sq_eq_abs]

lemma length_neg (v : Vec) : length (-v) = length v := by
  unfold length; simp

lemma length_sub_comm (u v : Vec) : length (u - v) = length (v - u) := by
  rw [← neg_sub, length_neg]

lemma dot_self (v : Vec) : dot v v = length v ^ 2 := by
  rw [length_sq]; unfold dot; ring

lemma abs_dot_le (u v : Vec) : |dot u v| ≤ length u * length v := by
  apply abs_le_of_sq_le_sq
  · rw [mul_pow, length_sq, length_sq]; unfold dot
    nlinarith [sq_nonneg (u.1 * v.2 - u.2 * v.1)]
  · exact mul_nonneg (length_nonneg _) (length_nonneg _)

lemma dot_le (u v : Vec) : dot u v ≤ length u * length v := (abs_le.1 (abs_dot_le u v)).2

lemma length_add_le (u v : Vec) : length (u + v) ≤ length u + length v := by
  refine (abs_le.1 (abs_le_of_sq_le_sq ?_
    (add_nonneg (length_nonneg u) (length_nonneg v)))).2
  have := dot_le u v
  have h1 := length_sq u
  have h2 := length_sq v
  have h3 := length_sq (u + v)
  unfold dot at this
  simp only [Prod.fst_add, Prod.snd_add] at h3
  nlinarith

lemma length_sub_le (u v w : Vec) : length (u - w) ≤ length (u - v) + length (v - w) := by
  have := length_add_le (u - v) (v - w)
  simpa using this

lemma abs_fst_le_length (v : Vec) : |v.1| ≤ length v := by
  apply abs_le_of_sq_le_sq _ (length_nonneg v)
  rw [length_sq]; nlinarith [sq_nonneg v.2]

lemma abs_snd_le_length (v : Vec) : |v.2| ≤ length v := by
  apply abs_le_of_sq_le_sq _ (length_nonneg v)
  rw [length_sq]; nlinarith [sq_nonneg v.1]

lemma normalize_of_ne {v : Vec} (h : v ≠ 0) : normalize v = (length v)⁻¹ • v := by
  have h' : length v ≠ 0 := (length_pos h).ne'
  unfold normalize
  simp only [ne_eq, h', not_false_eq_true, if_true]
  ext <;> simp [div_eq_inv_mul]

@[simp] lemma normalize_zero : normalize 0 = 0 := by
  have : length (0 : Vec) = 0 := length_eq_zero.2 rfl
  simp [normalize, this]

lemma length_normalize {v : Vec} (h : v ≠ 0) : length (normalize v) = 1 := by
  rw [normalize_of_ne h, length_smul, abs_of_pos (inv_pos.2 (length_pos h)),
    inv_mul_cancel₀ (length_pos h).ne']

lemma truncate_of_le {v : Vec} {l : ℝ} (h : length v ≤ l) : truncate v l = v := by
  simp [truncate, not_lt.2 h]

lemma truncate_of_gt {v : Vec} {l : ℝ} (h : l < length v) :
    truncate v l = (l / length v) • v := by
  unfold truncate
  simp only [gt_iff_lt, h, if_true]
  ext <;> simp [mul_comm]

lemma length_truncate_le {v : Vec} {l : ℝ} (hl : 0 ≤ l) : length (truncate v l) ≤ l := by
  by_cases h : length v ≤ l
  · rwa [truncate_of_le h]
  · push Not at h
    have hp : 0 < length v := lt_of_le_of_lt hl h
    rw [truncate_of_gt h, length_smul, abs_of_nonneg (div_nonneg hl hp.le),
      div_mul_cancel₀ _ hp.ne']

lemma truncate_neg (v : Vec) (l : ℝ) : truncate (-v) l = -truncate v l := by
  unfold truncate
  rw [length_neg]
  by_cases h : length v > l
  · simp only [h, if_true, Prod.fst_neg, Prod.snd_neg]
    ext <;> simp
  · simp [h]

lemma length_unitVector (φ : ℝ) : length (unitVector φ) = 1 := by
  unfold length unitVector
  rw [Real.cos_sq_add_sin_sq, Real.sqrt_one]

/-! ### Python modulo -/

lemma pyMod_nonneg {a b : ℝ} (hb : 0 < b) : 0 ≤ pyMod a b := by
  unfold pyMod
  have := Int.floor_le (a / b)
  rw [le_div_iff₀ hb] at this
  linarith

lemma pyMod_lt {a b : ℝ} (hb : 0 < b) : pyMod a b < b := by
  unfold pyMod
  have := Int.lt_floor_add_one (a / b)
  rw [div_lt_iff₀ hb] at this
  linarith

lemma pyMod_eq_of {a b r : ℝ} (hb : 0 < b) (k : ℤ) (h : a = r + b * k) (h0 : 0 ≤ r)
    (h1 : r < b) : pyMod a b = r := by
  unfold pyMod
  have : ⌊a / b⌋ = k := by
    rw [Int.floor_eq_iff]
    constructor
    · rw [le_div_iff₀ hb]; linarith
    · rw [div_lt_iff₀ hb]; linarith
  rw [this, h]; ring

lemma wrapToPi_congr (x : ℝ) : ∃ k : ℤ, wrapToPi x = x + k * (2 * π) := by
  unfold wrapToPi
  have hp := Real.pi_pos
  by_cases h1 : x < 0 ∧ pyMod x (2 * π) = π
  · simp only [h1, and_self, if_true]
    refine ⟨-⌊x / (2 * π)⌋ - 1, ?_⟩
    have := h1.2; unfold pyMod at this
    push_cast; linarith
  · simp only [h1, if_false]
    by_cases h2 : pyMod x (2 * π) > π
    · simp only [h2, if_true]
      refine ⟨-⌊x / (2 * π)⌋ - 1, ?_⟩
      unfold pyMod; push_cast; ring
    · simp only [h2, if_false]
      refine ⟨-⌊x / (2 * π)⌋, ?_⟩
      unfold pyMod; push_cast; ring

lemma wrapToPi_mem (x : ℝ) : wrapToPi x ∈ Set.Icc (-π) π := by
  have hp := Real.pi_pos
  have h2p : (0 : ℝ) < 2 * π := by positivity
  have hn := pyMod_nonneg (a := x) h2p
  have hl := pyMod_lt (a := x) h2p
  unfold wrapToPi
  by_cases h1 : x < 0 ∧ pyMod x (2 * π) = π
  · simp only [h1, and_self, if_true]; constructor <;> linarith
  · simp only [h1, if_false]
    by_cases h2 : pyMod x (2 * π) > π
    · simp only [h2, if_true]; constructor <;> linarith
    · simp only [h2, if_false]; push Not at h2; constructor <;> linarith

lemma wrapToPi_of_mem {x : ℝ} (h : x ∈ Set.Icc (-π) π) : wrapToPi x = x := by
  have hp := Real.pi_pos
  have h2p : (0 : ℝ) < 2 * π := by positivity
  obtain ⟨ha, hb⟩ := h
  unfold wrapToPi
  rcases lt_or_ge x 0 with hx | hx
  · have hm : pyMod x (2 * π) = x + 2 * π :=
      pyMod_eq_of h2p (-1) (by push_cast; ring) (by linarith) (by linarith)
    rw [hm]
    rcases eq_or_lt_of_le ha with he | he
    · subst he
      have : (-π + 2 * π) = π := by ring
      simp [hx, this]
    · have h1 : ¬ (x < 0 ∧ x + 2 * π = π) := by rintro ⟨_, h⟩; linarith
      have h2 : x + 2 * π > π := by linarith
      simp only [h1, if_false, h2, if_true]; ring
  · have hm : pyMod x (2 * π) = x :=
      pyMod_eq_of h2p 0 (by push_cast; ring) hx (by linarith)
    rw [hm]
    simp [not_lt.2 hx, not_lt.2 hb]

lemma wrapToPi_odd_pos (k : ℕ) : wrapToPi ((2 * k + 1) * π) = π := by
  have hp := Real.pi_pos
  have h2p : (0 : ℝ) < 2 * π := by positivity
  have hm : pyMod ((2 * k + 1) * π) (2 * π) = π :=
    pyMod_eq_of h2p k (by push_cast; ring) hp.le (by linarith)
  have hx : ¬ ((2 * k + 1) * π < 0) := by push Not; positivity
  unfold wrapToPi
  simp [hm, hx]

lemma wrapToPi_odd_neg (k : ℕ) : wrapToPi (-((2 * k + 1) * π)) = -π := by
  have hp := Real.pi_pos
  have h2p : (0 : ℝ) < 2 * π := by positivity
  have hm : pyMod (-((2 * k + 1) * π)) (2 * π) = π :=
    pyMod_eq_of h2p (-k - 1) (by push_cast; ring) hp.le (by linarith)
  have hx : -((2 * k + 1) * π) < 0 := by
    have : 0 < (2 * k + 1) * π := by positivity
    linarith
  unfold wrapToPi
  simp [hm, hx]

/-- Two values in the open interval congruent modulo `2π` are equal. -/
lemma eq_of_congr_of_mem {a b : ℝ} (k : ℤ) (h : a = b + k * (2 * π))
    (ha : a ∈ Set.Ioo (-π) π) (hb : b ∈ Set.Icc (-π) π) : a = b := by
  have hp := Real.pi_pos
  have h1 : (k : ℝ) < 1 := by
    by_contra hc; push Not at hc
    nlinarith [ha.1, ha.2, hb.1, hb.2]
  have h2 : (-1 : ℝ) < k := by
    by_contra hc; push Not at hc
    nlinarith [ha.1, ha.2, hb.1, hb.2]
  have h1' : k < 1 := by exact_mod_cast h1
  have h2' : -1 < k := by exact_mod_cast h2
  have : k = 0 := by omega
  subst this; simpa using h

/-- A value at which `wrapToPi` is on the boundary is an odd multiple of `π`. -/
lemma odd_of_wrapToPi_abs {x : ℝ} (h : wrapToPi x = π ∨ wrapToPi x = -π) :
    ∃ k : ℕ, x = (2 * k + 1) * π ∨ x = -((2 * k + 1) * π) := by
  have hp := Real.pi_pos
  obtain ⟨k, hk⟩ := wrapToPi_congr x
  have : ∃ m : ℤ, x = (2 * m + 1) * π := by
    rcases h with h | h
    · refine ⟨-k, ?_⟩; push_cast; rw [h] at hk; linarith
    · refine ⟨-k - 1, ?_⟩; push_cast; rw [h] at hk; linarith
  obtain ⟨m, hm⟩ := this
  rcases le_or_gt 0 m with h0 | h0
  · refine ⟨m.toNat, Or.inl ?_⟩
    have : ((m.toNat : ℤ) : ℝ) = m := by rw [Int.toNat_of_nonneg h0]
    rw [hm]; push_cast at this; rw [← this]
  · refine ⟨(-m - 1).toNat, Or.inr ?_⟩
    have : (((-m - 1).toNat : ℤ) : ℝ) = ((-m - 1 : ℤ) : ℝ) := by
      rw [Int.toNat_of_nonneg (by omega)]
    rw [hm]
    have h3 : (((-m - 1).toNat : ℕ) : ℝ) = -m - 1 := by exact_mod_cast this
    rw [h3]; ring

lemma wrapToPi_neg (x : ℝ) : wrapToPi (-x) = -wrapToPi x := by
  have hp := Real.pi_pos
  by_cases hb : wrapToPi x = π ∨ wrapToPi x = -π
  · obtain ⟨k, h | h⟩ := odd_of_wrapToPi_abs hb
    · subst h; rw [wrapToPi_odd_neg, wrapToPi_odd_pos]
    · subst h; rw [neg_neg, wrapToPi_odd_neg, wrapToPi_odd_pos, neg_neg]
  · push Not at hb
    have hm := wrapToPi_mem x
    obtain ⟨k, hk⟩ := wrapToPi_congr x
    obtain ⟨m, hm'⟩ := wrapToPi_congr (-x)
    symm
    apply eq_of_congr_of_mem (-k - m) _ _ (wrapToPi_mem (-x))
    · push_cast; rw [hk, hm']; ring
    · constructor
      · have := lt_of_le_of_ne hm.2 hb.1; linarith
      · have := lt_of_le_of_ne hm.1 (Ne.symm hb.2); linarith

end CrowdDynamics
