import Verif.Model.Rounded
import Verif.Proofs.Float64
import Verif.Proofs.Vector2D

/-!
# Lemmas on division with remainder of floats
-/

namespace CrowdDynamics

open Spec

/-! ## Facts on `float64` -/

theorem fl64_int {n : ℤ} (h : |n| < 2 ^ 53) : fl64 (n : ℝ) = n := by
  have := fl64_of_mul h (e := 0) (by norm_num)
  simpa using this

theorem binary64_grid {x : ℝ} (h : Binary64 x) : ∃ n : ℤ, x = n * (2 : ℝ) ^ (-1074 : ℤ) := by
  obtain ⟨m, e, _, he, rfl⟩ := h
  obtain ⟨k, hk⟩ := Int.eq_ofNat_of_zero_le (sub_nonneg.2 he)
  refine ⟨m * 2 ^ k, ?_⟩
  push_cast
  rw [mul_assoc, ← zpow_natCast, ← zpow_add₀ (by norm_num), ← hk]
  ring_nf

/-- Relative error of numbers on the finest grid. -/
theorem fl64_err_grid {x : ℝ} (h : ∃ n : ℤ, x = n * (2 : ℝ) ^ (-1074 : ℤ)) :
    |fl64 x - x| ≤ |x| * 2 ^ (-53 : ℤ) := by
  rcases le_or_gt ((2 : ℝ) ^ (-1022 : ℤ)) |x| with hb | hb
  · exact fl64_err_rel hb
  · obtain ⟨n, rfl⟩ := h
    have hn : |n| < 2 ^ 53 := by
      rw [abs_mul, abs_of_pos (two_zpow_pos _)] at hb
      have h1 : |(n : ℝ)| < 2 ^ (52 : ℤ) := by
        have h2 : (2 : ℝ) ^ (-1022 : ℤ) = 2 ^ (52 : ℤ) * 2 ^ (-1074 : ℤ) := by
          rw [← zpow_add₀ (by norm_num)]; norm_num
        rw [h2] at hb
        exact lt_of_mul_lt_mul_right hb (two_zpow_pos _).le
      have h3 : (|n| : ℝ) < 2 ^ 53 := by
        refine h1.trans ?_
        norm_num
      exact_mod_cast h3
    rw [fl64_of_mul hn (by norm_num)]
    simp only [sub_self, abs_zero]
    positivity

/-- A `float64` of size `2 ^ j` or more is a multiple of `2 ^ (j - 52)`. -/
theorem binary64_multiple {x : ℝ} {j : ℤ} (h : Binary64 x) (hj : (2 : ℝ) ^ j ≤ |x|) :
    ∃ n : ℤ, x = n * (2 : ℝ) ^ (j - 52) := by
  obtain ⟨m, e, hm, _, rfl⟩ := h
  have he : j - 52 ≤ e := by
    by_contra hlt
    rw [not_le] at hlt
    rw [abs_mul, abs_of_pos (two_zpow_pos e)] at hj
    have h1 : |(m : ℝ)| < 2 ^ (53 : ℤ) := by
      have : (|m| : ℝ) < 2 ^ 53 := by exact_mod_cast hm
      exact_mod_cast this
    have h2 : |(m : ℝ)| * 2 ^ e < 2 ^ (53 : ℤ) * 2 ^ e :=
      mul_lt_mul_of_pos_right h1 (two_zpow_pos e)
    rw [← zpow_add₀ (by norm_num)] at h2
    have h3 : (2 : ℝ) ^ (53 + e) ≤ 2 ^ j := zpow_le_zpow_right₀ (by norm_num) (by omega)
    linarith
  obtain ⟨k, hk⟩ := Int.eq_ofNat_of_zero_le (sub_nonneg.2 he)
  refine ⟨m * 2 ^ k, ?_⟩
  push_cast
  rw [mul_assoc, ← zpow_natCast, ← zpow_add₀ (by norm_num), ← hk]
  ring_nf

/-! ## `fmod` -/

/-- The whole number that `fmod` removes. -/
noncomputable def truncDiv (x y : ℝ) : ℤ := if 0 ≤ x / y then ⌊x / y⌋ else ⌈x / y⌉

theorem cFmod_eq (x y : ℝ) : cFmod x y = x - y * truncDiv x y := by
  unfold cFmod truncDiv; split_ifs <;> rfl

theorem cFmod_div {x y : ℝ} (hy : y ≠ 0) : cFmod x y / y = x / y - truncDiv x y := by
  rw [cFmod_eq]; field_simp

/-- `fmod` and the divisor have different signs. -/
theorem cFmod_sign {x y : ℝ} (hy : y ≠ 0) :
    (cFmod x y ≠ 0 ∧ ¬ (y < 0 ↔ cFmod x y < 0)) ↔ cFmod x y / y < 0 := by
  rw [div_neg_iff]
  rcases lt_or_gt_of_ne hy with h | h
  · constructor
    · rintro ⟨h1, h2⟩
      refine Or.inl ⟨?_, h⟩
      rcases lt_or_gt_of_ne h1 with h3 | h3
      · exact absurd (iff_of_true h h3) h2
      · exact h3
    · rintro (⟨h1, _⟩ | ⟨_, h2⟩)
      · exact ⟨h1.ne', fun hh => absurd (hh.1 h) (not_lt.2 h1.le)⟩
      · exact absurd h2 (not_lt.2 h.le)
  · constructor
    · rintro ⟨h1, h2⟩
      refine Or.inr ⟨?_, h⟩
      rcases lt_or_gt_of_ne h1 with h3 | h3
      · exact h3
      · exact absurd (iff_of_false (not_lt.2 h.le) (not_lt.2 h3.le)) h2
    · rintro (⟨_, h2⟩ | ⟨h1, _⟩)
      · exact absurd h2 (not_lt.2 h.le)
      · exact ⟨h1.ne, fun hh => absurd (hh.2 h1) (not_lt.2 h.le)⟩

theorem floor_of_truncDiv {x y : ℝ} (hy : y ≠ 0) :
    ⌊x / y⌋ = truncDiv x y - (if cFmod x y / y < 0 then 1 else 0) := by
  rw [cFmod_div hy]
  unfold truncDiv
  split_ifs with h1 h2 h2
  · have := Int.floor_le (x / y); exfalso; linarith
  · ring
  · rw [Int.floor_eq_iff]
    have := Int.ceil_lt_add_one (x / y)
    push_cast
    constructor <;> linarith
  · rw [not_lt] at h2
    have h3 := Int.le_ceil (x / y)
    rw [Int.floor_eq_iff]
    push_cast
    constructor <;> linarith

theorem abs_truncDiv_le {x y : ℝ} : |(truncDiv x y : ℝ)| ≤ |x / y| := by
  unfold truncDiv
  split_ifs with h
  · rw [abs_of_nonneg h, abs_of_nonneg (by exact_mod_cast Int.floor_nonneg.2 h)]
    exact Int.floor_le _
  · rw [not_le] at h
    have h1 : ⌈x / y⌉ ≤ 0 := Int.ceil_le.2 (by exact_mod_cast h.le)
    rw [abs_of_neg h, abs_of_nonpos (by exact_mod_cast h1)]
    have := Int.le_ceil (x / y)
    linarith

/-- `fmod` of two floats is a float: it is computed without rounding. -/
theorem binary64_cFmod {x y : ℝ} (hx : Binary64 x) (hy : Binary64 y) (hy0 : y ≠ 0) :
    Binary64 (cFmod x y) := by
  have h1 : |cFmod x y| ≤ |x| := by
    have hq : |cFmod x y / y| ≤ |x / y| := by
      rw [cFmod_div hy0]
      unfold truncDiv
      split_ifs with h
      · have a := Int.floor_le (x / y)
        have b : (0 : ℝ) ≤ ⌊x / y⌋ := by exact_mod_cast Int.floor_nonneg.2 h
        rw [abs_of_nonneg (by linarith), abs_of_nonneg h]; linarith
      · rw [not_le] at h
        have a := Int.le_ceil (x / y)
        have b : (⌈x / y⌉ : ℝ) ≤ 0 := by
          exact_mod_cast Int.ceil_le.2 (by exact_mod_cast h.le)
        rw [abs_of_nonpos (by linarith), abs_of_neg h]; linarith
    rw [abs_div, abs_div] at hq
    exact (div_le_div_iff_of_pos_right (abs_pos.2 hy0)).1 hq
  have h2 : |cFmod x y| < |y| := by
    have hq : |cFmod x y / y| < 1 := by
      rw [cFmod_div hy0]
      unfold truncDiv
      split_ifs with h
      · have a := Int.floor_le (x / y)
        have b := Int.lt_floor_add_one (x / y)
        rw [abs_lt]; constructor <;> linarith
      · have a := Int.le_ceil (x / y)
        have b := Int.ceil_lt_add_one (x / y)
        rw [abs_lt]; constructor <;> linarith
    rw [abs_div, div_lt_one (abs_pos.2 hy0)] at hq
    exact hq
  rw [cFmod_eq] at h1 h2 ⊢
  obtain ⟨m, e, hm, he, hxe⟩ := hx
  obtain ⟨n, f, hn, hf, hye⟩ := hy
  have key : ∀ (g : ℤ) (c d : ℤ) (b : ℤ), -1074 ≤ g → |b| < 2 ^ 53 →
      x - y * truncDiv x y = (c - d * truncDiv x y : ℤ) * (2 : ℝ) ^ g →
      |x - y * truncDiv x y| ≤ |(b : ℝ) * 2 ^ g| → Binary64 (x - y * truncDiv x y) := by
    intro g c d b hg hb heq hle
    refine ⟨c - d * truncDiv x y, g, ?_, hg, heq⟩
    rw [heq, abs_mul, abs_mul] at hle
    have h3 := le_of_mul_le_mul_right hle (abs_pos.2 (two_zpow_pos g).ne')
    have h4 : |c - d * truncDiv x y| ≤ |b| := by exact_mod_cast h3
    omega
  rcases le_total f e with hfe | hfe
  · obtain ⟨k, hk⟩ := Int.eq_ofNat_of_zero_le (sub_nonneg.2 hfe)
    have hx2 : x = (m * 2 ^ k : ℤ) * (2 : ℝ) ^ f := by
      rw [hxe]; push_cast
      rw [mul_assoc, ← zpow_natCast, ← zpow_add₀ (by norm_num), ← hk]
      ring_nf
    refine key f (m * 2 ^ k) n n hf hn ?_ (by rw [← hye]; exact h2.le)
    have : ∀ X Y T P : ℝ, x = X * P → y = Y * P → x - y * T = (X - Y * T) * P := by
      intro X Y T P h3 h4; rw [h3, h4]; ring
    have h5 := this _ _ (truncDiv x y) _ hx2 hye
    rw [h5]; push_cast; ring
  · obtain ⟨k, hk⟩ := Int.eq_ofNat_of_zero_le (sub_nonneg.2 hfe)
    have hy2 : y = (n * 2 ^ k : ℤ) * (2 : ℝ) ^ e := by
      rw [hye]; push_cast
      rw [mul_assoc, ← zpow_natCast, ← zpow_add₀ (by norm_num), ← hk]
      ring_nf
    refine key e m (n * 2 ^ k) m he hm ?_ (by rw [← hxe]; exact h1)
    have : ∀ X Y T P : ℝ, x = X * P → y = Y * P → x - y * T = (X - Y * T) * P := by
      intro X Y T P h3 h4; rw [h3, h4]; ring
    have h5 := this _ _ (truncDiv x y) _ hxe hy2
    rw [h5]; push_cast; ring

/-! ## Exact arithmetic -/

theorem pyModF_id {x y : ℝ} (hy : y ≠ 0) : pyModF id x y = pyMod x y := by
  unfold pyModF pyMod
  simp only [id]
  rw [floor_of_truncDiv hy]
  have hs := cFmod_sign (x := x) hy
  have he := cFmod_eq x y
  split_ifs with h1 h2 h3 h3 h3
  · exact absurd h2 (hs.2 h3).2
  · rw [he]; push_cast; ring
  · rw [he]; push_cast; ring
  · exact absurd (hs.1 ⟨h1, h2⟩) h3
  · exact absurd (hs.2 h3).1 h1
  · rw [not_not] at h1
    rw [h1] at he
    push_cast
    linarith

theorem pyFloorDivF_id {x y : ℝ} (hy : y ≠ 0) : pyFloorDivF id x y = pyFloorDiv x y := by
  have hs := cFmod_sign (x := x) hy
  have he := cFmod_eq x y
  have hdiv : (x - cFmod x y) / y = truncDiv x y := by rw [he]; field_simp; ring
  have hfl := floor_of_truncDiv (x := x) hy
  have hD : (if cFmod x y ≠ 0 ∧ ¬ (y < 0 ↔ cFmod x y < 0) then (x - cFmod x y) / y - 1
      else (x - cFmod x y) / y) = (⌊x / y⌋ : ℝ) := by
    rw [hfl, hdiv]
    by_cases h : cFmod x y / y < 0
    · rw [if_pos (hs.2 h), if_pos h]; push_cast; ring
    · rw [if_neg (fun h2 => h (hs.1 h2)), if_neg h]; push_cast; ring
  unfold pyFloorDivF pyFloorDiv
  simp only [id]
  rw [hD]
  split_ifs with h1 h2
  · rw [Int.floor_intCast] at h2; norm_num at h2
  · rw [Int.floor_intCast]
  · rw [not_not] at h1; exact h1.symm

theorem wrapToPiF_id (x : ℝ) : wrapToPiF id x = wrapToPi x := by
  unfold wrapToPiF wrapToPi
  have : (2 * Real.pi) ≠ 0 := by positivity
  simp only [id]
  rw [pyModF_id this]

/-! ## Floor division of floats -/

/-- The repair step at the end of `float_divmod`: a quotient that is nearly whole is rounded to
this whole number. -/
theorem floor_repair {D : ℝ} {k : ℤ} (hk : |k| < 2 ^ 52) (h : |D - k| < 3 / 8) :
    (if D ≠ 0 then
      if 1 / 2 < fl64 (D - ⌊D⌋) then fl64 ((⌊D⌋ : ℝ) + 1) else (⌊D⌋ : ℝ)
    else 0) = k := by
  rw [abs_lt] at h
  by_cases h0 : D = 0
  · rw [if_neg (by simpa using h0)]
    rw [h0] at h
    have h1 : (k : ℝ) < 1 := by linarith
    have h2 : (-1 : ℝ) < k := by linarith
    have h3 : k < 1 := by exact_mod_cast h1
    have h4 : -1 < k := by exact_mod_cast h2
    have : k = 0 := by omega
    rw [this]; simp
  · rw [if_pos h0]
    rcases le_or_gt (k : ℝ) D with hD | hD
    · have hf : ⌊D⌋ = k := by rw [Int.floor_eq_iff]; constructor <;> linarith
      rw [hf, if_neg]
      rw [not_lt]
      have h1 : fl64 (D - k) ≤ fl64 (1 / 2) := fl64_mono (by linarith)
      have h2 : fl64 (1 / 2) = 1 / 2 := by
        have := fl64_two_zpow (e := -1) (by norm_num)
        norm_num at this ⊢; exact this
      linarith
    · have hf : ⌊D⌋ = k - 1 := by
        rw [Int.floor_eq_iff]; push_cast; constructor <;> linarith
      rw [hf, if_pos]
      · have e : (((k - 1 : ℤ) : ℝ) + 1) = (k : ℝ) := by push_cast; ring
        rw [e]
        exact fl64_int (by omega)
      · have h1 : fl64 (5 / 8) ≤ fl64 (D - ((k - 1 : ℤ) : ℝ)) :=
          fl64_mono (by push_cast; linarith)
        have h2 : fl64 (5 / 8) = 5 / 8 := by
          have := fl64_of_mul (m := 5) (e := -3) (by norm_num) (by norm_num)
          norm_num at this ⊢; exact this
        linarith

/-- `//` of floats is the whole part of the exact quotient. -/
theorem pyFloorDivF_fl64 {x y : ℝ} (hx : Binary64 x) (hy : Binary64 y) (hy0 : y ≠ 0)
    (hq : |x / y| ≤ 2 ^ 49) : pyFloorDivF fl64 x y = pyFloorDiv x y := by
  have hs := cFmod_sign (x := x) hy0
  have he := cFmod_eq x y
  have hfl := floor_of_truncDiv (x := x) hy0
  obtain ⟨t, ht⟩ : ∃ t, truncDiv x y = t := ⟨_, rfl⟩
  have htle := abs_truncDiv_le (x := x) (y := y)
  rw [ht] at he hfl htle
  have hz : x - cFmod x y = y * t := by rw [he]; ring
  have htb : |(t : ℝ)| ≤ 2 ^ 49 := htle.trans hq
  -- the quotient before the correction for the sign
  have hdiv : |fl64 (fl64 (x - cFmod x y) / y) - t| ≤ 7 / 32 ∧
      (t = 0 → fl64 (fl64 (x - cFmod x y) / y) = 0) := by
    rw [hz]
    by_cases ht0 : t = 0
    · subst ht0
      simp [fl64_zero]
      norm_num
    · refine ⟨?_, fun h => absurd h ht0⟩
      have h1 : |(1 : ℝ)| ≤ |(t : ℝ)| := by
        have : 1 ≤ |t| := Int.one_le_abs ht0
        rw [abs_one]; exact_mod_cast this
      rw [abs_one] at h1
      obtain ⟨n, hn⟩ := binary64_grid hy
      have hg : |fl64 (y * t) - y * t| ≤ |y * t| * 2 ^ (-53 : ℤ) :=
        fl64_err_grid ⟨n * t, by rw [hn]; push_cast; ring⟩
      have hs1 : |fl64 (y * t) / y - t| ≤ |(t : ℝ)| * 2 ^ (-53 : ℤ) := by
        have : fl64 (y * t) / y - t = (fl64 (y * t) - y * t) / y := by field_simp
        rw [this, abs_div, div_le_iff₀ (abs_pos.2 hy0)]
        rw [abs_mul] at hg
        linarith
      obtain ⟨s, hse⟩ : ∃ s, fl64 (y * t) / y = s := ⟨_, rfl⟩
      rw [hse] at hs1 ⊢
      have hsb : |s| ≤ |(t : ℝ)| * 2 := by
        have h2 : |s| ≤ |s - t| + |(t : ℝ)| := by
          calc |s| = |(s - t) + t| := by ring_nf
            _ ≤ _ := abs_add_le _ _
        norm_num at hs1
        linarith
      have hsl : (2 : ℝ) ^ (-1022 : ℤ) ≤ |s| := by
        have h2 : |(t : ℝ)| ≤ |s - t| + |s| := by
          calc |(t : ℝ)| = |-(s - t) + s| := by ring_nf
            _ ≤ |-(s - t)| + |s| := abs_add_le _ _
            _ = _ := by rw [abs_neg]
        have h3 : (1 : ℝ) / 2 ≤ |s| := by norm_num at hs1; linarith
        refine le_trans ?_ h3
        have : (2 : ℝ) ^ (-1022 : ℤ) ≤ 2 ^ (-1 : ℤ) := zpow_le_zpow_right₀ (by norm_num) (by norm_num)
        norm_num at this ⊢
        linarith
      have hs2 := fl64_err_rel hsl
      calc |fl64 s - t| = |(fl64 s - s) + (s - t)| := by ring_nf
        _ ≤ |fl64 s - s| + |s - t| := abs_add_le _ _
        _ ≤ 7 / 32 := by
          norm_num at hs1 hs2 htb ⊢
          linarith
  obtain ⟨Q, hQ⟩ : ∃ Q, fl64 (fl64 (x - cFmod x y) / y) = Q := ⟨_, rfl⟩
  rw [hQ] at hdiv
  have htq : |t| ≤ 2 ^ 49 := by exact_mod_cast htb
  have htq' := abs_le.1 htq
  have hD : |(if cFmod x y ≠ 0 ∧ ¬ (y < 0 ↔ cFmod x y < 0) then fl64 (Q - 1) else Q)
      - (⌊x / y⌋ : ℝ)| < 3 / 8 := by
    rw [hfl]
    by_cases h : cFmod x y / y < 0
    · rw [if_pos (hs.2 h), if_pos h]
      by_cases ht0 : t = 0
      · rw [hdiv.2 ht0, ht0]
        have := fl64_int (n := -1) (by norm_num)
        push_cast at this ⊢
        rw [zero_sub, this]
        norm_num
      · have htn : t ≤ -1 := by
          -- the remainder has the other sign only for negative quotients
          by_contra hc
          have hc2 : (1 : ℤ) ≤ t := by omega
          rw [cFmod_div hy0, ht] at h
          have hxy : 0 ≤ x / y := by
            by_contra hneg
            rw [not_le] at hneg
            have : t ≤ 0 := by
              rw [← ht]; unfold truncDiv
              rw [if_neg (not_le.2 hneg)]
              exact Int.ceil_le.2 (by exact_mod_cast hneg.le)
            omega
          have : (t : ℝ) ≤ x / y := by
            rw [← ht]; unfold truncDiv; rw [if_pos hxy]; exact Int.floor_le _
          linarith
        have htr : (t : ℝ) ≤ -1 := by exact_mod_cast htn
        have h2 := abs_le.1 hdiv.1
        have hneg : Q - 1 ≤ -1 := by linarith
        have hlow : -2 ^ 49 - 2 ≤ Q - 1 := by
          have : -(2 : ℝ) ^ 49 ≤ t := by exact_mod_cast htq'.1
          linarith
        have hb : (2 : ℝ) ^ (-1022 : ℤ) ≤ |Q - 1| := by
          rw [abs_of_neg (by linarith)]
          have : (2 : ℝ) ^ (-1022 : ℤ) ≤ 2 ^ (0 : ℤ) :=
            zpow_le_zpow_right₀ (by norm_num) (by norm_num)
          norm_num at this ⊢
          linarith
        have h3 := fl64_err_rel hb
        rw [abs_of_neg (by linarith : Q - 1 < 0)] at h3
        have h4 : |fl64 (Q - 1) - (Q - 1)| ≤ 1 / 8 := by
          refine h3.trans ?_
          norm_num at hlow ⊢
          linarith
        rw [abs_le] at h4
        push_cast
        rw [abs_lt]
        constructor <;> linarith [h4.1, h4.2, h2.1, h2.2]
    · rw [if_neg (fun h2 => h (hs.1 h2)), if_neg h]
      push_cast
      rw [sub_zero]
      exact lt_of_le_of_lt hdiv.1 (by norm_num)
  have hfb : |⌊x / y⌋| < 2 ^ 52 := by
    rw [hfl]
    split_ifs <;> rw [abs_lt] <;> constructor <;> norm_num at htq' ⊢ <;> omega
  unfold pyFloorDivF pyFloorDiv
  simp only []
  rw [hQ]
  exact floor_repair hfb hD

end CrowdDynamics
