import Verif.Proofs.VectorTests
import Verif.Proofs.Vector2D

/-!
# Properties C170, C171: the tests of vectors, distances and capacities, for all their arguments
-/

namespace CrowdDynamics

open Spec Real

/-! ## C170: the test of `wrap_to_pi` -/

/-- The full statement: the test passes for every `float64`. -/
def C170_statement : Prop := ∀ phi : ℝ, testWrapToPi fl64 phi

/-- **C170** False of the test: for `phi = 2 ** 61 * np.pi` the sum `phi + np.pi` is rounded to
`phi`, an even multiple of `np.pi`, so the test expects `np.pi`; the function returns zero. -/
theorem C170_test_wrap_to_pi_fails : ¬ C170_statement := by
  intro h
  have hp := npPi_pos
  have hphi : (2 : ℝ) ^ 61 * fl64 π = ((7074237752028440 : ℤ) : ℝ) * 2 ^ (10 : ℤ) := by
    rw [fl64_pi]; norm_num
  have hb : fl64 (2 ^ 61 * fl64 π) = 2 ^ 61 * fl64 π := by
    rw [hphi]; exact fl64_of_mul (by norm_num) (by norm_num)
  have hs : fl64 (2 ^ 61 * fl64 π + fl64 π) = 2 ^ 61 * fl64 π := by
    rw [hphi]
    refine fl64_eq_of_near ?_ ?_ (by norm_num) ?_
    · rw [fl64_pi]; norm_num
    · rw [fl64_pi]; norm_num
    · rw [fl64_pi]; norm_num
  have hc : cFmod (2 ^ 61 * fl64 π) (2 * fl64 π) = 0 := by
    have hq : 2 ^ 61 * fl64 π / (2 * fl64 π) = ((2 ^ 60 : ℤ) : ℝ) := by
      field_simp; norm_num
    unfold cFmod
    rw [hq, Int.floor_intCast, Int.ceil_intCast, ite_self]
    push_cast; ring
  have hm : pyModF fl64 (2 ^ 61 * fl64 π) (2 * fl64 π) = 0 := by
    unfold pyModF; simp only [hc, ne_eq, not_true_eq_false, if_false]
  have h1 := (h _ hb).2
  rw [hs, fl64_two_pi] at h1
  have h2 := h1 hm
  have hpos : (0 : ℝ) < 2 ^ 61 * fl64 π := by positivity
  have hn : ¬ ((2 : ℝ) ^ 61 * fl64 π < 0 ∧ (0 : ℝ) = fl64 π) := fun h => absurd h.1 (by linarith)
  rw [if_pos hpos, wrapToPiF_eq, hm, if_neg hn, if_neg (by linarith)] at h2
  linarith

/-- **C170** (partial) The first assertion holds for every `float64`. -/
theorem C170_range_partial (phi : ℝ) (h : fl64 phi = phi) :
    -fl64 π ≤ wrapToPiF fl64 phi ∧ wrapToPiF fl64 phi ≤ fl64 π :=
  abs_le.1 (wrapToPiF_mem ((binary64_iff _).2 h)).2

example := C170_range_partial (-3) (by exact_mod_cast fl64_int (n := -3) (by norm_num))

/-- **C170** (partial) The test passes at `±np.pi` and for every `float64` between `-np.pi` and
`np.pi - 2 ** -50`. Missing: the last floats below `np.pi`, and those beyond. -/
theorem C170_test_wrap_to_pi_partial (phi : ℝ)
    (h : phi = fl64 π ∨ -fl64 π ≤ phi ∧ phi < fl64 π - 2 ^ (-50 : ℤ)) : testWrapToPi fl64 phi := by
  have hp := npPi_pos
  intro hb
  refine ⟨C170_range_partial phi hb, fun hm => ?_⟩
  rcases h with rfl | ⟨h1, h2⟩
  · rw [if_pos hp]; exact wrapToPiF_nonneg hp.le le_rfl
  · rcases eq_or_lt_of_le h1 with rfl | h1
    · rw [if_neg (by linarith), wrapToPiF_neg_range (by linarith) le_rfl,
        show -fl64 π + 2 * fl64 π = fl64 π by ring, fl64_idem]
      ring
    · exfalso
      rw [fl64_two_pi] at hm
      -- the rounded sum is strictly between zero and a turn
      have hlo : 0 < fl64 (phi + fl64 π) := by
        obtain ⟨n, hn⟩ := binary64_grid ((binary64_iff _).2 hb)
        obtain ⟨m, hm'⟩ := binary64_grid (binary64_fl64 π)
        have hz := two_zpow_pos (-1074)
        have hpos : (0 : ℝ) < ((n + m : ℤ) : ℝ) * 2 ^ (-1074 : ℤ) := by
          push_cast; rw [add_mul, ← hn, ← hm']; linarith
        have hnm : 1 ≤ n + m := by
          have := (pos_iff_pos_of_mul_pos hpos).2 hz
          exact_mod_cast this
        have hge : (2 : ℝ) ^ (-1074 : ℤ) ≤ phi + fl64 π := by
          have : (2 : ℝ) ^ (-1074 : ℤ) ≤ ((n + m : ℤ) : ℝ) * 2 ^ (-1074 : ℤ) :=
            le_mul_of_one_le_left hz.le (by exact_mod_cast hnm)
          push_cast at this; rw [add_mul, ← hn, ← hm'] at this; linarith
        exact hz.trans_le (fl64_ge_two_zpow le_rfl hge)
      have hhi : fl64 (phi + fl64 π) < 2 * fl64 π := by
        have hle : phi + fl64 π ≤ 2 * fl64 π - 2 ^ (-50 : ℤ) := by linarith
        have e : 2 * fl64 π - 2 ^ (-50 : ℤ) = ((7074237752028439 : ℤ) : ℝ) * 2 ^ (-50 : ℤ) := by
          rw [fl64_pi]; norm_num
        have := fl64_mono hle
        rw [e, fl64_of_mul (by norm_num) (by norm_num), ← e] at this
        linarith [two_zpow_pos (-50)]
      have hc : cFmod (fl64 (phi + fl64 π)) (2 * fl64 π) = fl64 (phi + fl64 π) := by
        have hq : ⌊fl64 (phi + fl64 π) / (2 * fl64 π)⌋ = 0 := by
          rw [Int.floor_eq_zero_iff]
          refine ⟨div_nonneg hlo.le (by linarith), ?_⟩
          rw [div_lt_one (by linarith)]; exact hhi
        unfold cFmod
        rw [if_pos (div_nonneg hlo.le (by linarith)), hq]; simp
      rw [pyModF_turn, hc, if_neg (by linarith)] at hm
      linarith

/-- **C170** (partial) In exact arithmetic the test passes for every number. -/
theorem C170_exact_partial (phi : ℝ) : testWrapToPi id phi := by
  intro _
  have hp := Real.pi_pos
  have hr := wrapToPi_mem phi
  rw [wrapToPiF_id]
  refine ⟨hr, fun hm => ?_⟩
  simp only [id] at hm ⊢
  rw [pyModF_id (by positivity)] at hm
  unfold pyMod at hm
  obtain ⟨k, hk⟩ : ∃ k : ℤ, ⌊(phi + π) / (2 * π)⌋ = k := ⟨_, rfl⟩
  rw [hk] at hm
  have hphi : phi = (2 * k - 1) * π := by linarith
  split_ifs with h0
  · have hk1 : 1 ≤ k := by
      by_contra hlt
      have : (k : ℝ) ≤ 0 := by exact_mod_cast (by omega : k ≤ 0)
      nlinarith
    obtain ⟨j, hj⟩ := Int.eq_ofNat_of_zero_le (sub_nonneg.2 hk1)
    have hj' : (k : ℝ) = j + 1 := by
      have : k = j + 1 := by omega
      exact_mod_cast this
    have := wrapToPi_odd_pos j
    rw [hphi, hj', show (2 * ((j : ℝ) + 1) - 1) * π = (2 * j + 1) * π by ring]; exact this
  · have hk1 : k ≤ 0 := by
      by_contra hlt
      have : (1 : ℝ) ≤ k := by exact_mod_cast (by omega : 1 ≤ k)
      nlinarith
    obtain ⟨j, hj⟩ := Int.eq_ofNat_of_zero_le (neg_nonneg.2 hk1)
    have hj' : (k : ℝ) = -j := by
      have : k = -j := by omega
      exact_mod_cast this
    have := wrapToPi_odd_neg j
    rw [hphi, hj', show (2 * (-(j : ℝ)) - 1) * π = -((2 * j + 1) * π) by ring]; exact this

example : fl64 (-3) = -3 ∧ -fl64 π ≤ -3 ∧ (-3 : ℝ) < fl64 π - 2 ^ (-50 : ℤ) := by
  have := npPi_gt
  have e := fl64_int (n := -3) (by norm_num)
  refine ⟨by exact_mod_cast e, by linarith, ?_⟩
  have : (2 : ℝ) ^ (-50 : ℤ) < 1 := by norm_num
  linarith

/-- The condition of the second assertion is met by `3π`. -/
example : pyModF id (3 * π + π) (2 * π) = 0 := by
  have hp := Real.pi_pos
  rw [pyModF_id (by positivity)]
  have : (3 * π + π) / (2 * π) = ((2 : ℤ) : ℝ) := by field_simp; norm_num
  unfold pyMod
  rw [this, Int.floor_intCast]; push_cast; ring

/-! ## C171: the tests of `length`, `normalize`, `truncate`, `distance_circles` and of the
capacity of an exit -/

/-- **C171** `test_length` passes for all vectors. -/
theorem C171_test_length (A : Arith) (H : AccurateHypot A.hypot) (a : Vec) : testLength A a :=
  fun _ _ => H.nonneg _ _

/-- **C171** It fails for every vector of floating point numbers to which `hypot` would give a negative
length. -/
theorem C171_test_length_detects (A : Arith) (a : Vec) (h1 : A.rnd a.1 = a.1) (h2 : A.rnd a.2 = a.2)
    (h : A.hypot a.1 a.2 < 0) : ¬ testLength A a :=
  fun ht => absurd (ht h1 h2) (not_le.2 h)

/-- A wrong `hypot`. -/
example : ∃ A : Arith, A.rnd = fl64 ∧ ¬ testLength A (3, 4) := by
  refine ⟨⟨fl64, fun _ _ => -1, Real.exp⟩, rfl, C171_test_length_detects _ _ ?_ ?_ (by norm_num)⟩
  · have := fl64_int (n := 3) (by norm_num)
    exact_mod_cast this
  · have := fl64_int (n := 4) (by norm_num)
    exact_mod_cast this

/-- **C171** `test_normalize` passes for all vectors, with any `hypot` that errs by at most two
units in the last place. -/
theorem C171_test_normalize (A : Arith) (hr : A.rnd = fl64) (H : AccurateHypot A.hypot)
    (a : Vec) : testNormalize A a := testNormalize_passes hr H a

/-- **C171** `test_truncate` passes for all vectors and lengths. -/
theorem C171_test_truncate (A : Arith) (hr : A.rnd = fl64) (H : AccurateHypot A.hypot)
    (v : Vec) (l : ℝ) : testTruncate A v l := testTruncate_passes hr H v l

/-- **C171** `test_distance_circle_circle` passes for all circles. -/
theorem C171_test_distance_circle_circle (A : Arith) (hr : A.rnd = fl64)
    (H : AccurateHypot A.hypot) (x0 : Vec) (r0 : ℝ) (x1 : Vec) (r1 : ℝ) :
    testDistanceCircleCircle A x0 r0 x1 r1 :=
  testDistance_passes (by rw [hr]; exact fair_fl64) H.nonneg x0 r0 x1 r1

/-- **C171** `test_narrow_exit_capacity` passes for all doors, agents and layers. -/
theorem C171_test_narrow_exit_capacity (dDoor dAgent : ℝ) (dLayer : Option ℝ) (coeff : ℝ) :
    testNarrowExitCapacity fl64 dDoor dAgent dLayer coeff :=
  testCapacity_passes dDoor dAgent dLayer coeff

/-- **C171** What the assertion on `truncate` says without `isclose`: a vector that is shortened
has the length `l` up to `2 ** -16`. -/
theorem C171_truncate_length (A : Arith) (hr : A.rnd = fl64) (H : AccurateHypot A.hypot)
    (v : Vec) (l : ℝ) (h : lengthF A v > l) (hv1 : RealsNear fl64 (-1) 1 v.1)
    (hv2 : RealsNear fl64 (-1) 1 v.2) (hl : RealsNear fl64 0 1 l) :
    |lengthF A (truncateF A v l) - l| ≤ 2 ^ (-16 : ℤ) := by
  have := C171_test_truncate A hr H v l
  unfold testTruncate at this
  rw [hr] at this
  have h1 := this hv1 hv2 hl
  rw [if_pos h] at h1
  unfold isCloseF at h1
  obtain ⟨d, hd⟩ : ∃ d, lengthF A (truncateF A v l) - l = d := ⟨_, rfl⟩
  rw [hd] at h1 ⊢
  rw [fl64_abs] at h1
  by_contra hlt
  have h2 := fl64_ge_two_zpow (e := -16) (by norm_num) (not_le.1 hlt).le
  have h3 : fl64 (fl64 (1 / 10 ^ 8) + fl64 (fl64 (1 / 10 ^ 5) * |l|)) ≤
      fl64 (2 ^ (-17 : ℤ) + 2 ^ (-17 : ℤ) * (3 / 4)) := by
    refine fl64_mono ?_
    have a1 : fl64 (1 / 10 ^ 8) ≤ 2 ^ (-20 : ℤ) := fl64_le_two_zpow (by norm_num) (by norm_num)
    have a2 : fl64 (1 / 10 ^ 5) ≤ ((3 : ℤ) : ℝ) * 2 ^ (-18 : ℤ) := by
      have := fl64_mono (show (1 : ℝ) / 10 ^ 5 ≤ ((3 : ℤ) : ℝ) * 2 ^ (-18 : ℤ) by norm_num)
      rwa [fl64_of_mul (by norm_num) (by norm_num)] at this
    have a3 : fl64 (fl64 (1 / 10 ^ 5) * |l|) ≤ ((3 : ℤ) : ℝ) * 2 ^ (-18 : ℤ) := by
      have hle : fl64 (1 / 10 ^ 5) * |l| ≤ ((3 : ℤ) : ℝ) * 2 ^ (-18 : ℤ) := by
        rw [abs_of_nonneg hl.2.1]
        refine le_trans ?_ a2
        exact mul_le_of_le_one_right (fl64_nonneg (by norm_num)) hl.2.2.1
      have := fl64_mono hle
      rwa [fl64_of_mul (by norm_num) (by norm_num)] at this
    norm_num at a1 a3 ⊢
    linarith
  have h4 : fl64 (2 ^ (-17 : ℤ) + 2 ^ (-17 : ℤ) * (3 / 4)) = 7 * 2 ^ (-19 : ℤ) := by
    have := fl64_of_mul (m := 7) (e := -19) (by norm_num) (by norm_num)
    rw [← show ((7 : ℤ) : ℝ) * 2 ^ (-19 : ℤ) = 2 ^ (-17 : ℤ) + 2 ^ (-17 : ℤ) * (3 / 4) by norm_num,
      this]
    norm_num
  rw [h4] at h3
  norm_num at h2 h3
  linarith

/-- The correctly rounded `hypot` is accurate. -/
example : AccurateHypot Arith.machine.hypot where
  nonneg _ _ := fl64_nonneg (Real.sqrt_nonneg _)
  zero := by simp [Arith.machine, fl64_zero]
  near x y := by
    have h1 := fl64_err_gen (√(x ^ 2 + y ^ 2))
    rw [abs_of_nonneg (Real.sqrt_nonneg (x ^ 2 + y ^ 2))] at h1
    refine h1.trans (add_le_add (mul_le_mul_of_nonneg_left (by norm_num) (Real.sqrt_nonneg _)) ?_)
    exact tiny_le' (by norm_num)

/-- Arguments of the test of `truncate`, with a vector that is shortened. -/
example : RealsNear fl64 (-1) 1 (3 / 4) ∧ RealsNear fl64 0 1 (1 / 2) ∧
    lengthF Arith.machine (3 / 4, 1) > 1 / 2 := by
  have b1 : fl64 (3 / 4) = 3 / 4 := by
    have := fl64_of_mul (m := 3) (e := -2) (by norm_num) (by norm_num); norm_num at this; exact this
  have b2 : fl64 (1 / 2) = 1 / 2 := by
    have := fl64_of_mul (m := 1) (e := -1) (by norm_num) (by norm_num); norm_num at this; exact this
  have far : ∀ x : ℝ, fl64 x = x → 1 / 2 ≤ x → ¬ isCloseF fl64 x 0 := by
    intro x hx hx2 hc
    unfold isCloseF at hc
    rw [sub_zero, hx, abs_zero, mul_zero, fl64_zero, add_zero, fl64_idem,
      abs_of_nonneg (by linarith)] at hc
    have : fl64 (1 / 10 ^ 8) ≤ 2 ^ (-2 : ℤ) := fl64_le_two_zpow (by norm_num) (by norm_num)
    norm_num at this hc
    linarith
  refine ⟨⟨b1, by norm_num, by norm_num, far _ b1 (by norm_num)⟩,
    ⟨b2, by norm_num, by norm_num, far _ b2 le_rfl⟩, ?_⟩
  have hs : √((3 / 4 : ℝ) ^ 2 + 1 ^ 2) = 5 / 4 := by
    rw [show ((3 / 4 : ℝ) ^ 2 + 1 ^ 2) = (5 / 4) ^ 2 by norm_num, Real.sqrt_sq (by norm_num)]
  show fl64 (√((3 / 4 : ℝ) ^ 2 + 1 ^ 2)) > 1 / 2
  rw [hs]
  have := fl64_of_mul (m := 5) (e := -2) (by norm_num) (by norm_num)
  norm_num at this
  rw [this]; norm_num

end CrowdDynamics
