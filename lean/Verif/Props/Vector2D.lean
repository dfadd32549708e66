import Verif.Proofs.Vector2D

/-!
# Properties C01–C04: angles and vectors
-/

open Real

namespace CrowdDynamics

/-! ## C01: `wrap_to_pi` -/

/-- **C01** The wrapped angle lies in `[-π, π]`. -/
theorem C01_wrap_range (x : ℝ) : -π ≤ wrapToPi x ∧ wrapToPi x ≤ π := wrapToPi_mem x

/-- **C01** The wrapped angle differs from the angle by whole turns. -/
theorem C01_wrap_congruent (x : ℝ) : ∃ k : ℤ, wrapToPi x = x + k * (2 * π) :=
  wrapToPi_congr x

/-- **C01** Odd positive multiples of `π` map to `π`, odd negative ones to `-π`. -/
theorem C01_wrap_odd_multiples (k : ℕ) :
    wrapToPi ((2 * k + 1) * π) = π ∧ wrapToPi (-((2 * k + 1) * π)) = -π :=
  ⟨wrapToPi_odd_pos k, wrapToPi_odd_neg k⟩

/-- **C01** Angles that are already in range are not changed. -/
theorem C01_wrap_fixes_range (x : ℝ) (h : -π ≤ x ∧ x ≤ π) : wrapToPi x = x :=
  wrapToPi_of_mem h

/-- **C01** Wrapping is idempotent. -/
theorem C01_wrap_idempotent (x : ℝ) : wrapToPi (wrapToPi x) = wrapToPi x :=
  wrapToPi_of_mem (wrapToPi_mem x)

/-- **C01** Wrapping is an odd function (mirror images are wrapped to mirror images). -/
theorem C01_wrap_neg (x : ℝ) : wrapToPi (-x) = -wrapToPi x := wrapToPi_neg x

example : (-π ≤ -π ∧ -π ≤ π) := ⟨le_refl _, by linarith [Real.pi_pos]⟩
example : wrapToPi (-π) = -π := C01_wrap_fixes_range _ ⟨le_refl _, by linarith [Real.pi_pos]⟩
example : wrapToPi (3 * π) = π := by
  have := (C01_wrap_odd_multiples 1).1
  norm_num at this; exact this

/-! ## C02: vector algebra -/

/-- **C02** The two quarter turns are inverse to each other. -/
theorem C02_rotate_inverse (v : Vec) :
    rotate90 (rotate270 v) = v ∧ rotate270 (rotate90 v) = v := by
  constructor <;> ext <;> simp [rotate90, rotate270]

/-- **C02** Quarter turns keep the length and give a perpendicular vector;
`rotate90` turns counterclockwise and `rotate270` clockwise. -/
theorem C02_rotate_isometry (v : Vec) :
    Spec.len (rotate90 v) = Spec.len v ∧ Spec.len (rotate270 v) = Spec.len v ∧
    Spec.inner (rotate90 v) v = 0 ∧ Spec.inner (rotate270 v) v = 0 ∧
    v.1 * (rotate90 v).2 - v.2 * (rotate90 v).1 = Spec.len v ^ 2 ∧
    v.1 * (rotate270 v).2 - v.2 * (rotate270 v).1 = -Spec.len v ^ 2 := by
  have h := length_sq v
  rw [length_eq] at h
  refine ⟨?_, ?_, ?_, ?_, ?_, ?_⟩
  · unfold Spec.len rotate90; congr 1; simp; ring
  · unfold Spec.len rotate270; congr 1; simp; ring
  · unfold Spec.inner rotate90; simp; ring
  · unfold Spec.inner rotate270; simp; ring
  · rw [h]; unfold rotate90; simp; ring
  · rw [h]; unfold rotate270; simp; ring

/-- **C02** `length`, `dot` and `cross` are the Euclidean length, inner product
and oriented area; in particular Lagrange's identity holds. -/
theorem C02_length_dot_cross (u v : Vec) :
    length u = Spec.len u ∧ dot u v = Spec.inner u v ∧
    dot u v ^ 2 + cross u v ^ 2 = Spec.len u ^ 2 * Spec.len v ^ 2 ∧
    cross u v = dot (rotate90 u) v := by
  refine ⟨rfl, rfl, ?_, ?_⟩
  · rw [← length_eq, ← length_eq, length_sq, length_sq]; unfold dot cross; ring
  · unfold dot cross rotate90; simp; ring

/-- **C02** A nonzero vector is normalised to length one, keeping its direction. -/
theorem C02_normalize_unit (v : Vec) (h : v ≠ 0) :
    Spec.len (normalize v) = 1 ∧ v = Spec.len v • normalize v := by
  refine ⟨length_normalize h, ?_⟩
  rw [normalize_of_ne h, ← length_eq, smul_smul, mul_inv_cancel₀ (length_pos h).ne', one_smul]

example := C02_normalize_unit (3, 4) (by intro h; simpa using congrArg Prod.fst h)

/-- **C02** The zero vector is returned unchanged. -/
theorem C02_normalize_zero : normalize (0, 0) = (0, 0) := normalize_zero

/-- **C02** Short vectors are not truncated. -/
theorem C02_truncate_short (v : Vec) (l : ℝ) (h : Spec.len v ≤ l) : truncate v l = v :=
  truncate_of_le h

/-- **C02** Long vectors are cut to length exactly `l` in the same direction. -/
theorem C02_truncate_long (v : Vec) (l : ℝ) (hl : 0 ≤ l) (h : l < Spec.len v) :
    Spec.len (truncate v l) = l ∧ Spec.len v • truncate v l = l • v := by
  have hp : 0 < length v := lt_of_le_of_lt hl h
  rw [truncate_of_gt h]
  refine ⟨?_, ?_⟩
  · rw [← length_eq, length_smul, abs_of_nonneg (div_nonneg hl hp.le), div_mul_cancel₀ _ hp.ne']
  · rw [smul_smul, ← length_eq, mul_div_cancel₀ _ hp.ne']

example : ((3, 4) : Vec) ≠ 0 := by intro h; simpa using congrArg Prod.fst h
example : (0 : ℝ) ≤ 1 ∧ 1 < Spec.len ((3, 4) : Vec) := by
  refine ⟨zero_le_one, ?_⟩
  unfold Spec.len
  rw [show ((3 : ℝ), (4 : ℝ)).1 ^ 2 + ((3 : ℝ), (4 : ℝ)).2 ^ 2 = 5 ^ 2 by norm_num,
    Real.sqrt_sq (by norm_num)]
  norm_num
example : Spec.len ((3, 4) : Vec) ≤ 5 := by
  unfold Spec.len
  rw [show ((3 : ℝ), (4 : ℝ)).1 ^ 2 + ((3 : ℝ), (4 : ℝ)).2 ^ 2 = 5 ^ 2 by norm_num,
    Real.sqrt_sq (by norm_num)]

/-! ## C03: angle and unit vector -/

/-- **C03** `unit_vector` has length one. -/
theorem C03_unit_vector_length (φ : ℝ) : Spec.len (unitVector φ) = 1 := length_unitVector φ

/-- **C03** `angle` is in `(-π, π]`. -/
theorem C03_angle_range (v : Vec) : -π < angle v ∧ angle v ≤ π :=
  ⟨Complex.neg_pi_lt_arg _, Complex.arg_le_pi _⟩

/-- **C03** The angle of a unit vector is the wrapped angle, `-π` being reported as `π`. -/
theorem C03_angle_unit_vector (φ : ℝ) :
    angle (unitVector φ) = if wrapToPi φ = -π then π else wrapToPi φ := by
  obtain ⟨k, hk⟩ := wrapToPi_congr φ
  have hc : cos φ = cos (wrapToPi φ) := by rw [hk, Real.cos_add_int_mul_two_pi]
  have hs : sin φ = sin (wrapToPi φ) := by rw [hk, Real.sin_add_int_mul_two_pi]
  have key : ∀ t : ℝ, t ∈ Set.Ioc (-π) π → Complex.arg ⟨cos t, sin t⟩ = t := by
    intro t ht
    have := Complex.arg_cos_add_sin_mul_I ht
    refine Eq.trans (congrArg Complex.arg ?_) this
    apply Complex.ext <;> simp [Complex.cos_ofReal_re, Complex.sin_ofReal_re]
  unfold angle unitVector
  rw [hc, hs]
  have hm := wrapToPi_mem φ
  by_cases h : wrapToPi φ = -π
  · rw [if_pos h, h]
    have := key π ⟨by linarith [Real.pi_pos], le_refl _⟩
    simpa using this
  · rw [if_neg h]
    exact key _ ⟨lt_of_le_of_ne hm.1 (Ne.symm h), hm.2⟩

/-- **C03** The unit vector of the angle of `v` is the direction of `v`. -/
theorem C03_unit_vector_angle (v : Vec) (h : v ≠ 0) :
    Spec.len v • unitVector (angle v) = v := by
  have hz : (⟨v.1, v.2⟩ : ℂ) ≠ 0 := by
    intro hz; apply h
    exact Prod.ext (congrArg Complex.re hz) (congrArg Complex.im hz)
  have hn : ‖(⟨v.1, v.2⟩ : ℂ)‖ = Spec.len v := by
    rw [Complex.norm_eq_sqrt_sq_add_sq]; rfl
  have hp : Spec.len v ≠ 0 := by rw [← length_eq]; exact (length_pos h).ne'
  unfold unitVector angle
  rw [Complex.cos_arg hz, Complex.sin_arg, hn]
  ext
  · simp [mul_div_cancel₀, hp]
  · simp [mul_div_cancel₀, hp]

example : ((0, -2) : Vec) ≠ 0 := by intro h; simpa using congrArg Prod.snd h

/-! ## C04: `weighted_average` -/

/-- **C04 fails**: the documented normalisation does not happen; the mean of two
perpendicular unit vectors is not a unit vector. -/
theorem C04_weighted_average_unit_fails :
    ∃ (e0 e1 : Vec) (w : ℝ), Spec.len e0 = 1 ∧ Spec.len e1 = 1 ∧ 0 ≤ w ∧ w ≤ 1 ∧
      weightedAverage e0 e1 w ≠ 0 ∧ Spec.len (weightedAverage e0 e1 w) ≠ 1 := by
  refine ⟨(1, 0), (0, 1), 1 / 2, ?_, ?_, by norm_num, by norm_num, ?_, ?_⟩
  · simp [Spec.len]
  · simp [Spec.len]
  · intro h; have := congrArg Prod.fst h; simp [weightedAverage] at this
  · intro h
    have h2 := length_sq (weightedAverage (1, 0) (0, 1) (1 / 2))
    rw [length_eq, h] at h2
    simp [weightedAverage] at h2
    norm_num at h2

/-- **C04 (partial)** What holds: the mean of two unit vectors is at most of length
one, the weights select the respective vector, and parallel vectors give a unit
vector. Missing: the documented normalisation (see
`C04_weighted_average_unit_fails`). -/
theorem C04_weighted_average_partial (e0 e1 : Vec) (w : ℝ) (h0 : Spec.len e0 = 1)
    (h1 : Spec.len e1 = 1) (hw : 0 ≤ w ∧ w ≤ 1) :
    Spec.len (weightedAverage e0 e1 w) ≤ 1 ∧ weightedAverage e0 e1 w ∈ segment ℝ e1 e0 ∧
    weightedAverage e0 e1 1 = e0 ∧ weightedAverage e0 e1 0 = e1 ∧
    Spec.len (weightedAverage e0 e0 w) = 1 := by
  refine ⟨?_, ?_, by simp [weightedAverage], by simp [weightedAverage], ?_⟩
  · rw [← length_eq]
    refine (length_add_le _ _).trans ?_
    rw [length_smul, length_smul, length_eq, length_eq, h0, h1, abs_of_nonneg hw.1,
      abs_of_nonneg (by linarith [hw.2])]
    linarith
  · exact ⟨1 - w, w, by linarith [hw.2], hw.1, by ring, by simp [weightedAverage, add_comm]⟩
  · have : weightedAverage e0 e0 w = e0 := by
      unfold weightedAverage; rw [← add_smul]; simp
    rw [this, h0]

example : Spec.len ((1, 0) : Vec) = 1 ∧ Spec.len ((0, 1) : Vec) = 1 := by
  constructor <;> simp [Spec.len]

end CrowdDynamics
