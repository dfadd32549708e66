import Verif.Model.Float64
import Verif.Spec.Float64
import Mathlib.Tactic.Linarith
import Mathlib.Tactic.Ring
import Mathlib.Tactic.Positivity
import Mathlib.Tactic.NormNum
import Mathlib.Tactic.FieldSimp
import Mathlib.Tactic.GCongr

/-!
# Lemmas on rounding to `float64`
-/

namespace CrowdDynamics

open Spec

/-! ## Rounding to integers -/

theorem halfEven_le (x : ℝ) : |(halfEven x : ℝ) - x| ≤ 1 / 2 := by
  have h1 := Int.floor_le x
  have h2 := Int.lt_floor_add_one x
  unfold halfEven
  rw [abs_le]
  split_ifs <;> push_cast <;> constructor <;> linarith

theorem halfEven_intCast (n : ℤ) : halfEven (n : ℝ) = n := by
  unfold halfEven; simp

theorem halfEven_eq {x : ℝ} {n : ℤ} (h : |x - n| < 1 / 2) : halfEven x = n := by
  have h1 := halfEven_le x
  have : |((halfEven x - n : ℤ) : ℝ)| < 1 := by
    push_cast
    calc |(halfEven x : ℝ) - n| = |((halfEven x : ℝ) - x) + (x - n)| := by ring_nf
      _ ≤ |(halfEven x : ℝ) - x| + |x - n| := abs_add_le _ _
      _ < 1 := by linarith
  rw [← Int.cast_abs] at this
  have h2 : |halfEven x - n| < 1 := by exact_mod_cast this
  have := Int.abs_lt_one_iff.1 h2
  omega

theorem halfEven_mono : Monotone halfEven := by
  intro x y h
  by_contra hlt
  rw [not_le] at hlt
  have hx := abs_le.1 (halfEven_le x)
  have hy := abs_le.1 (halfEven_le y)
  have h1 : (halfEven y : ℝ) + 1 ≤ halfEven x := by exact_mod_cast hlt
  -- both are halfway between the same integers
  have hxy : x = y := by linarith
  rw [hxy] at hlt
  exact lt_irrefl _ hlt

theorem halfEven_half (n : ℤ) : Even (halfEven ((n : ℝ) + 1 / 2)) := by
  have hf : ⌊(n : ℝ) + 1 / 2⌋ = n := by
    rw [Int.floor_eq_iff]; constructor <;> linarith
  unfold halfEven
  rw [hf]
  have h1 : ¬ ((n : ℝ) + 1 / 2 - n < 1 / 2) := by linarith
  have h2 : ¬ (1 / 2 < (n : ℝ) + 1 / 2 - n) := by linarith
  rw [if_neg h1, if_neg h2]
  split_ifs with h
  · exact h
  · rw [Int.not_even_iff_odd] at h; exact h.add_one

theorem halfEven_neg (x : ℝ) : halfEven (-x) = -halfEven x := by
  by_cases h : ∃ n : ℤ, x = n + 1 / 2
  · obtain ⟨n, rfl⟩ := h
    have e1 := halfEven_half n
    have e2 := halfEven_half (-n - 1)
    have h2 : (((-n - 1 : ℤ) : ℝ) + 1 / 2) = -((n : ℝ) + 1 / 2) := by push_cast; ring
    rw [h2] at e2
    have b1 := abs_le.1 (halfEven_le ((n : ℝ) + 1 / 2))
    have b2 := abs_le.1 (halfEven_le (-((n : ℝ) + 1 / 2)))
    have c1 : (halfEven ((n : ℝ) + 1 / 2) : ℝ) ≤ n + 1 := by linarith [b1.2]
    have c2 : (n : ℝ) ≤ halfEven ((n : ℝ) + 1 / 2) := by linarith [b1.1]
    have c3 : (halfEven (-((n : ℝ) + 1 / 2)) : ℝ) ≤ -n := by linarith [b2.2]
    have c4 : -(n : ℝ) - 1 ≤ halfEven (-((n : ℝ) + 1 / 2)) := by linarith [b2.1]
    have d1 : halfEven ((n : ℝ) + 1 / 2) ≤ n + 1 := by exact_mod_cast c1
    have d2 : n ≤ halfEven ((n : ℝ) + 1 / 2) := by exact_mod_cast c2
    have d3 : halfEven (-((n : ℝ) + 1 / 2)) ≤ -n := by exact_mod_cast c3
    have d4 : -n - 1 ≤ halfEven (-((n : ℝ) + 1 / 2)) := by exact_mod_cast c4
    obtain ⟨k, hk⟩ := e1
    obtain ⟨l, hl⟩ := e2
    omega
  · apply halfEven_eq
    have h1 := halfEven_le x
    push_cast
    rw [show -x - -(halfEven x : ℝ) = (halfEven x : ℝ) - x by ring]
    refine lt_of_le_of_ne h1 fun he => h ?_
    rcases abs_cases ((halfEven x : ℝ) - x) with ⟨h2, _⟩ | ⟨h2, _⟩
    · exact ⟨halfEven x - 1, by push_cast; linarith⟩
    · exact ⟨halfEven x, by linarith⟩

theorem halfEven_abs_le {x : ℝ} {n : ℤ} (h : |x| ≤ n) : |halfEven x| ≤ n := by
  rw [abs_le] at h ⊢
  constructor
  · have := halfEven_mono h.1
    rwa [show -(n : ℝ) = ((-n : ℤ) : ℝ) by push_cast; ring, halfEven_intCast] at this
  · have := halfEven_mono h.2
    rwa [halfEven_intCast] at this

/-! ## Rounding to `float64` -/

theorem two_zpow_pos (e : ℤ) : (0 : ℝ) < 2 ^ e := zpow_pos (by norm_num) e

theorem fl64_zero : fl64 0 = 0 := by
  unfold fl64
  simp only [zero_div]
  have := halfEven_intCast 0
  rw [Int.cast_zero] at this
  rw [this]; simp

theorem fl64Exp_neg (x : ℝ) : fl64Exp (-x) = fl64Exp x := by unfold fl64Exp; rw [abs_neg]

theorem fl64_neg (x : ℝ) : fl64 (-x) = -fl64 x := by
  unfold fl64
  rw [fl64Exp_neg, neg_div, halfEven_neg]
  push_cast; ring

theorem fl64Exp_ge (x : ℝ) : -1074 ≤ fl64Exp x := le_max_right _ _

theorem lt_fl64Exp (x : ℝ) : |x| < 2 ^ (fl64Exp x + 53) := by
  rcases eq_or_ne x 0 with rfl | hx
  · simp only [abs_zero]; exact two_zpow_pos _
  · have h := Int.lt_zpow_succ_log_self (b := 2) (by norm_num) |x|
    refine lt_of_lt_of_le h ?_
    push_cast
    refine zpow_le_zpow_right₀ (by norm_num) ?_
    have : Int.log 2 |x| - 52 ≤ fl64Exp x := le_max_left _ _
    omega

theorem fl64Exp_le_abs {x : ℝ} (h : -1074 < fl64Exp x) (hx : x ≠ 0) :
    2 ^ (fl64Exp x + 52) ≤ |x| := by
  have : fl64Exp x = Int.log 2 |x| - 52 := by
    unfold fl64Exp at h ⊢
    omega
  rw [this]
  have h := Int.zpow_log_le_self (b := 2) (r := |x|) (by norm_num) (abs_pos.2 hx)
  push_cast at h
  rwa [show Int.log 2 |x| - 52 + 52 = Int.log 2 |x| by ring]

theorem fl64Exp_mono {x y : ℝ} (hx : x ≠ 0) (h : |x| ≤ |y|) : fl64Exp x ≤ fl64Exp y := by
  unfold fl64Exp
  have := Int.log_mono_right (b := 2) (abs_pos.2 hx) h
  omega

/-- Absolute error: half a unit in the last place. -/
theorem fl64_err (x : ℝ) : |fl64 x - x| ≤ 2 ^ fl64Exp x / 2 := by
  have hp := two_zpow_pos (fl64Exp x)
  unfold fl64
  have h := halfEven_le (x / 2 ^ fl64Exp x)
  obtain ⟨E, hE⟩ : ∃ E, (2 : ℝ) ^ fl64Exp x = E := ⟨_, rfl⟩
  rw [hE] at h hp ⊢
  have : (halfEven (x / E) : ℝ) * E - x = ((halfEven (x / E) : ℝ) - x / E) * E := by
    field_simp
  rw [this, abs_mul, abs_of_pos hp]
  nlinarith

/-- Relative error of numbers that are not tiny. -/
theorem fl64_err_rel {x : ℝ} (h : (2 : ℝ) ^ (-1022 : ℤ) ≤ |x|) :
    |fl64 x - x| ≤ |x| * 2 ^ (-53 : ℤ) := by
  have hx : x ≠ 0 := by
    rintro rfl; simp only [abs_zero] at h; exact absurd h (not_le.2 (two_zpow_pos _))
  refine (fl64_err x).trans ?_
  have : 2 ^ (fl64Exp x + 52) ≤ |x| := by
    by_cases h2 : -1074 < fl64Exp x
    · exact fl64Exp_le_abs h2 hx
    · have : fl64Exp x = -1074 := le_antisymm (by omega) (fl64Exp_ge x)
      rw [this]; norm_num at h ⊢; exact h
  rw [zpow_add₀ (by norm_num)] at this
  obtain ⟨E, hE⟩ : ∃ E, (2 : ℝ) ^ fl64Exp x = E := ⟨_, rfl⟩
  rw [hE] at this ⊢
  norm_num at this ⊢
  linarith

theorem fl64_of_mul {m e : ℤ} (hm : |m| < 2 ^ 53) (he : -1074 ≤ e) :
    fl64 (m * (2 : ℝ) ^ e) = m * 2 ^ e := by
  rcases eq_or_ne m 0 with rfl | hm0
  · simp [fl64_zero]
  obtain ⟨x, hx⟩ : ∃ x, (m : ℝ) * 2 ^ e = x := ⟨_, rfl⟩
  rw [hx]
  have hp := two_zpow_pos e
  have hx0 : x ≠ 0 := by rw [← hx]; exact mul_ne_zero (by exact_mod_cast hm0) hp.ne'
  have hlog : Int.log 2 |x| < e + 53 := by
    rw [← Int.lt_zpow_iff_log_lt (by norm_num) (abs_pos.2 hx0), ← hx, abs_mul, abs_of_pos hp,
      zpow_add₀ (by norm_num)]
    have : |(m : ℝ)| < 2 ^ (53 : ℤ) := by
      have : (|m| : ℝ) < 2 ^ 53 := by exact_mod_cast hm
      exact_mod_cast this
    push_cast
    nlinarith
  have hE : fl64Exp x ≤ e := by unfold fl64Exp; omega
  obtain ⟨k, hk⟩ := Int.eq_ofNat_of_zero_le (sub_nonneg.2 hE)
  have hdiv : x / 2 ^ fl64Exp x = ((m * 2 ^ k : ℤ) : ℝ) := by
    rw [div_eq_iff (two_zpow_pos _).ne']
    push_cast
    rw [mul_assoc, ← zpow_natCast, ← zpow_add₀ (by norm_num), ← hk, sub_add_cancel, hx]
  unfold fl64
  rw [hdiv, halfEven_intCast, ← hdiv, div_mul_cancel₀ _ (two_zpow_pos _).ne']

theorem fl64_two_zpow {e : ℤ} (he : -1074 ≤ e) : fl64 ((2 : ℝ) ^ e) = 2 ^ e := by
  have := fl64_of_mul (m := 1) (by norm_num) he
  simpa using this

theorem binary64_fl64 (x : ℝ) : Binary64 (fl64 x) := by
  have hp := two_zpow_pos (fl64Exp x)
  have hb : |x / 2 ^ fl64Exp x| ≤ ((2 ^ 53 : ℤ) : ℝ) := by
    rw [abs_div, abs_of_pos hp, div_le_iff₀ hp]
    have := lt_fl64Exp x
    rw [add_comm, zpow_add₀ (by norm_num)] at this
    push_cast
    exact_mod_cast this.le
  have hm := halfEven_abs_le hb
  unfold fl64
  rcases lt_or_eq_of_le hm with h | h
  · exact ⟨_, _, h, fl64Exp_ge x, rfl⟩
  · rcases abs_eq (by norm_num : (0 : ℤ) ≤ 2 ^ 53) |>.1 h with h | h
    · refine ⟨2 ^ 52, fl64Exp x + 1, by norm_num, by have := fl64Exp_ge x; omega, ?_⟩
      rw [h, zpow_add₀ (by norm_num)]; push_cast; ring
    · refine ⟨-2 ^ 52, fl64Exp x + 1, by norm_num, by have := fl64Exp_ge x; omega, ?_⟩
      rw [h, zpow_add₀ (by norm_num)]; push_cast; ring

theorem binary64_iff (x : ℝ) : Binary64 x ↔ fl64 x = x := by
  constructor
  · rintro ⟨m, e, hm, he, rfl⟩
    exact fl64_of_mul hm he
  · intro h; rw [← h]; exact binary64_fl64 x

theorem fl64_idem (x : ℝ) : fl64 (fl64 x) = fl64 x :=
  (binary64_iff _).1 (binary64_fl64 x)

theorem fl64_nonneg {x : ℝ} (h : 0 ≤ x) : 0 ≤ fl64 x := by
  unfold fl64
  refine mul_nonneg ?_ (two_zpow_pos _).le
  have : halfEven 0 ≤ halfEven (x / 2 ^ fl64Exp x) :=
    halfEven_mono (div_nonneg h (two_zpow_pos _).le)
  have h0 := halfEven_intCast 0
  rw [Int.cast_zero] at h0
  rw [h0] at this
  exact_mod_cast this

theorem fl64_mono_pos {x y : ℝ} (hx : 0 < x) (h : x ≤ y) : fl64 x ≤ fl64 y := by
  have hy : 0 < y := hx.trans_le h
  have hE := fl64Exp_mono (y := y) hx.ne' (by rwa [abs_of_pos hx, abs_of_pos hy])
  rcases eq_or_lt_of_le hE with he | he
  · unfold fl64
    rw [he]
    refine mul_le_mul_of_nonneg_right ?_ (two_zpow_pos _).le
    have : x / 2 ^ fl64Exp y ≤ y / 2 ^ fl64Exp y :=
      div_le_div_of_nonneg_right h (two_zpow_pos _).le
    exact_mod_cast halfEven_mono this
  · -- a power of two lies between
    have hgt : -1074 < fl64Exp y := lt_of_le_of_lt (fl64Exp_ge x) he
    have h1 : fl64 x ≤ 2 ^ (fl64Exp x + 53) := by
      have hp := two_zpow_pos (fl64Exp x)
      have hb : x / 2 ^ fl64Exp x ≤ ((2 ^ 53 : ℤ) : ℝ) := by
        rw [div_le_iff₀ hp]
        have := lt_fl64Exp x
        rw [abs_of_pos hx, add_comm, zpow_add₀ (by norm_num)] at this
        push_cast
        exact_mod_cast this.le
      have := halfEven_mono hb
      rw [halfEven_intCast] at this
      have h3 : (halfEven (x / 2 ^ fl64Exp x) : ℝ) ≤ ((2 ^ 53 : ℤ) : ℝ) := by exact_mod_cast this
      unfold fl64
      rw [add_comm (fl64Exp x), zpow_add₀ (by norm_num)]
      refine mul_le_mul_of_nonneg_right ?_ hp.le
      have e : (2 : ℝ) ^ (53 : ℤ) = ((2 ^ 53 : ℤ) : ℝ) := by norm_num
      rwa [e]
    have h2 : 2 ^ (fl64Exp y + 52) ≤ fl64 y := by
      have hp := two_zpow_pos (fl64Exp y)
      have hb : ((2 ^ 52 : ℤ) : ℝ) ≤ y / 2 ^ fl64Exp y := by
        rw [le_div_iff₀ hp]
        have := fl64Exp_le_abs hgt hy.ne'
        rw [abs_of_pos hy, add_comm, zpow_add₀ (by norm_num)] at this
        push_cast
        exact_mod_cast this
      have := halfEven_mono hb
      rw [halfEven_intCast] at this
      have h3 : ((2 ^ 52 : ℤ) : ℝ) ≤ (halfEven (y / 2 ^ fl64Exp y) : ℝ) := by exact_mod_cast this
      unfold fl64
      rw [add_comm (fl64Exp y), zpow_add₀ (by norm_num)]
      refine mul_le_mul_of_nonneg_right ?_ hp.le
      have e : (2 : ℝ) ^ (52 : ℤ) = ((2 ^ 52 : ℤ) : ℝ) := by norm_num
      rwa [e]
    refine h1.trans (le_trans ?_ h2)
    exact zpow_le_zpow_right₀ (by norm_num) (by omega)

theorem fl64_mono : Monotone fl64 := by
  intro x y h
  rcases lt_trichotomy 0 x with hx | rfl | hx
  · exact fl64_mono_pos hx h
  · rw [fl64_zero]; exact fl64_nonneg h
  · rcases lt_or_ge y 0 with hy | hy
    · have := fl64_mono_pos (neg_pos.2 hy) (neg_le_neg h)
      rw [fl64_neg, fl64_neg] at this
      linarith
    · have h1 : fl64 x ≤ 0 := by
        have := fl64_nonneg (neg_nonneg.2 hx.le)
        rw [fl64_neg] at this; linarith
      exact h1.trans (fl64_nonneg hy)

theorem fair_fl64 : FairRounding fl64 := ⟨fl64_mono, fl64_neg, fl64_idem⟩

theorem fair_id : FairRounding id := ⟨monotone_id, fun _ => rfl, fun _ => rfl⟩

/-- No `float64` is closer. -/
theorem fl64_nearest (x : ℝ) : Nearest64 x (fl64 x) := by
  refine ⟨binary64_fl64 x, fun z hz => ?_⟩
  -- `z` is a multiple of the last place of `x` or further away than half of it
  by_contra hlt
  rw [not_le] at hlt
  have hzf := (binary64_iff z).1 hz
  obtain ⟨m, e, hm, he, rfl⟩ := hz
  have hz2 : ∃ k : ℤ, (m : ℝ) * 2 ^ e = k * 2 ^ fl64Exp x ∨
      (|(m : ℝ) * 2 ^ e| < 2 ^ (fl64Exp x + 52) ∧ -1074 < fl64Exp x) := by
    by_cases hE : fl64Exp x ≤ e
    · obtain ⟨k, hk⟩ := Int.eq_ofNat_of_zero_le (sub_nonneg.2 hE)
      refine ⟨m * 2 ^ k, Or.inl ?_⟩
      push_cast
      rw [mul_assoc, ← zpow_natCast, ← zpow_add₀ (by norm_num), ← hk]
      ring_nf
    · rw [not_le] at hE
      refine ⟨0, Or.inr ⟨?_, by omega⟩⟩
      rw [abs_mul, abs_of_pos (two_zpow_pos e)]
      have h1 : |(m : ℝ)| < 2 ^ (53 : ℤ) := by
        have : (|m| : ℝ) < 2 ^ 53 := by exact_mod_cast hm
        exact_mod_cast this
      calc |(m : ℝ)| * 2 ^ e < 2 ^ (53 : ℤ) * 2 ^ e :=
            mul_lt_mul_of_pos_right h1 (two_zpow_pos e)
        _ = 2 ^ (53 + e) := by rw [zpow_add₀ (by norm_num)]
        _ ≤ 2 ^ (fl64Exp x + 52) := zpow_le_zpow_right₀ (by norm_num) (by omega)
  obtain ⟨k, hk | ⟨hsmall, hgt⟩⟩ := hz2
  · -- a multiple of the same unit: the rounded quotient is the nearest integer
    rw [hk] at hlt
    have hp := two_zpow_pos (fl64Exp x)
    have herr := halfEven_le (x / 2 ^ fl64Exp x)
    unfold fl64 at hlt
    obtain ⟨E, hE⟩ : ∃ E, (2 : ℝ) ^ fl64Exp x = E := ⟨_, rfl⟩
    rw [hE] at hlt hp herr
    have e1 : (halfEven (x / E) : ℝ) * E - x = ((halfEven (x / E) : ℝ) - x / E) * E := by
      field_simp
    have e2 : (k : ℝ) * E - x = ((k : ℝ) - x / E) * E := by field_simp
    rw [e1, e2, abs_mul, abs_mul, abs_of_pos hp] at hlt
    have hlt2 := lt_of_mul_lt_mul_right hlt hp.le
    have : halfEven (x / E) = k := halfEven_eq (by rw [abs_sub_comm]; linarith)
    rw [this] at hlt2
    exact lt_irrefl _ hlt2
  · -- a smaller number of a finer grid: monotonicity towards the power of two
    have hx0 : x ≠ 0 := by
      rintro rfl
      unfold fl64Exp at hgt; simp at hgt
      rw [fl64_zero] at hlt
      rw [sub_zero, sub_zero, abs_zero] at hlt
      exact absurd hlt (not_lt.2 (abs_nonneg _))
    have hbig := fl64Exp_le_abs hgt hx0
    have herr := fl64_err x
    obtain ⟨z, hzz⟩ : ∃ z, (m : ℝ) * 2 ^ e = z := ⟨_, rfl⟩
    rw [hzz] at hlt hsmall hzf
    -- the rounding of `x` is at least the power of two, by order
    have hfe : -1074 ≤ fl64Exp x + 52 := by omega
    have hP := fl64_two_zpow hfe
    obtain ⟨P, hPe⟩ : ∃ P, (2 : ℝ) ^ (fl64Exp x + 52) = P := ⟨_, rfl⟩
    rw [hPe] at hP hsmall hbig
    -- the power of two itself is a competitor among the multiples
    have hcomp : |fl64 x - x| ≤ |x| - P := by
      have hp := two_zpow_pos (fl64Exp x)
      have hPm : P = ((2 ^ 52 : ℤ) : ℝ) * 2 ^ fl64Exp x := by
        rw [← hPe, add_comm, zpow_add₀ (by norm_num)]; norm_num
      -- distance to a multiple of the unit
      have key : ∀ k : ℤ, |fl64 x - x| ≤ |k * (2 : ℝ) ^ fl64Exp x - x| := by
        intro k
        by_contra hc
        rw [not_le] at hc
        unfold fl64 at hc
        have herr := halfEven_le (x / 2 ^ fl64Exp x)
        obtain ⟨E, hE⟩ : ∃ E, (2 : ℝ) ^ fl64Exp x = E := ⟨_, rfl⟩
        rw [hE] at hc hp herr
        have e1 : (halfEven (x / E) : ℝ) * E - x = ((halfEven (x / E) : ℝ) - x / E) * E := by
          field_simp
        have e2 : (k : ℝ) * E - x = ((k : ℝ) - x / E) * E := by field_simp
        rw [e1, e2, abs_mul, abs_mul, abs_of_pos hp] at hc
        have hlt2 := lt_of_mul_lt_mul_right hc hp.le
        have : halfEven (x / E) = k := halfEven_eq (by rw [abs_sub_comm]; linarith)
        rw [this] at hlt2
        exact lt_irrefl _ hlt2
      rcases lt_or_gt_of_ne hx0 with hx | hx
      · have := key (-2 ^ 52)
        rw [abs_of_neg hx] at hbig ⊢
        have e : ((-2 ^ 52 : ℤ) : ℝ) * 2 ^ fl64Exp x = -P := by rw [hPm]; push_cast; ring
        rw [e] at this
        rwa [abs_of_nonneg (by linarith : 0 ≤ -P - x), show -P - x = -x - P by ring] at this
      · have := key (2 ^ 52)
        rw [abs_of_pos hx] at hbig ⊢
        rw [← hPm, abs_of_nonpos (by linarith : P - x ≤ 0)] at this
        linarith
    have : |x| - |z| ≤ |z - x| := by
      rw [abs_sub_comm]; exact abs_sub_abs_le_abs_sub x z
    linarith

end CrowdDynamics
