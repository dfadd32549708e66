import Verif.Spec.Strategies
import Verif.Props.Sampling
import Verif.Props.CoreTests
import Verif.Proofs.VectorTests
import Verif.Proofs.RoundedAngles

/-!
# Cases and helper lemmas for `Verif.Props.Strategies`
-/

namespace CrowdDynamics

open Spec Real

theorem strategy_error (min max : Option ℝ) (ez : ExcludeZero) :
    realsStrategy min max ez = .error .other ↔
      ∃ lo hi, min = some lo ∧ max = some hi ∧ hi ≤ lo := by
  classical
  unfold realsStrategy
  constructor
  · intro h
    split_ifs at h with hc
    obtain ⟨lo, h1, hi, h2, h3⟩ := hc
    exact ⟨lo, hi, h1, h2, not_lt.1 h3⟩
  · rintro ⟨lo, hi, h1, h2, h3⟩
    rw [if_pos ⟨lo, h1, hi, h2, not_lt.2 h3⟩]

theorem strategy_mem {min max : Option ℝ} {ez : ExcludeZero} {s : Set ℝ}
    (h : realsStrategy min max ez = .ok s) {x : ℝ} (hx : x ∈ s) :
    (fl64 x = x ∧ |x| < 2 ^ (1024 : ℤ)) ∧ FitsBounds min max ez x := by
  classical
  unfold realsStrategy at h
  split_ifs at h
  injection h with h
  rw [← h] at hx
  obtain ⟨h1, h2, h3, h4⟩ := hx
  refine ⟨h1, fun lo hl => h2 lo hl, fun hi hh => h3 hi hh, ?_, ?_⟩
  · rintro rfl
    exact h4
  · rintro rfl
    have := lt_of_not_isCloseF h4
    norm_num at this ⊢
    linarith

theorem roundTo_small {digits low : ℤ} {x : ℝ} (h0 : 0 < x) (h : x < 2 ^ (low - 1))
    (hd : 0 ≤ digits) : roundTo digits low x = 0 := by
  unfold roundTo
  have hlog : Int.log 2 |x| < low := by
    rw [abs_of_pos h0]
    have : x < (2 : ℕ) ^ low := by
      push_cast
      exact h.trans (zpow_lt_zpow_right₀ (by norm_num) (by omega))
    exact (Int.lt_zpow_iff_log_lt (by norm_num) h0).1 this
  dsimp only
  rw [max_eq_right (by omega)]
  have hp : (0 : ℝ) < 2 ^ low := by positivity
  have h2 : halfEven (x / 2 ^ low) = 0 := by
    refine halfEven_eq ?_
    rw [Int.cast_zero, sub_zero, abs_of_pos (div_pos h0 hp), div_lt_iff₀ hp]
    have : (2 : ℝ) ^ (low - 1) = 1 / 2 * 2 ^ low := by
      rw [zpow_sub_one₀ (by norm_num)]
      ring
    linarith
  rw [h2]
  simp

/-- The error of storing a number: half a unit in the last place. -/
theorem roundTo_err (digits low : ℤ) (x : ℝ) :
    |roundTo digits low x - x| ≤ max (|x| * (2 ^ (-digits) / 2)) (2 ^ low / 2) := by
  obtain ⟨e, he⟩ : ∃ e, e = max (Int.log 2 |x| - digits) low := ⟨_, rfl⟩
  have hp : (0 : ℝ) < 2 ^ e := by positivity
  have h1 : |roundTo digits low x - x| ≤ 2 ^ e / 2 := by
    unfold roundTo
    dsimp only
    rw [← he]
    have h := halfEven_le (x / 2 ^ e)
    have h2 : (halfEven (x / 2 ^ e) : ℝ) * 2 ^ e - x = ((halfEven (x / 2 ^ e) : ℝ) - x / 2 ^ e) * 2 ^ e := by
      field_simp
    rw [h2, abs_mul, abs_of_pos hp]
    nlinarith
  rcases eq_or_ne x 0 with rfl | hx0
  · have h0 : roundTo digits low 0 = 0 := by
      unfold roundTo
      have : halfEven 0 = 0 := by simpa using halfEven_intCast 0
      simp [this]
    rw [h0, sub_self, abs_zero]
    exact le_max_of_le_right (by positivity)
  refine h1.trans ?_
  rcases le_total (Int.log 2 |x| - digits) low with hc | hc
  · rw [max_eq_right hc] at he
    rw [he]
    exact le_max_right _ _
  · rw [max_eq_left hc] at he
    · refine le_max_of_le_left ?_
      have h := Int.zpow_log_le_self (b := 2) (r := |x|) (by norm_num) (abs_pos.2 hx0)
      push_cast at h
      have hd : (0 : ℝ) < 2 ^ (-digits) := by positivity
      have : (2 : ℝ) ^ e = 2 ^ Int.log 2 |x| * 2 ^ (-digits) := by
        rw [he, sub_eq_add_neg, zpow_add₀ (by norm_num)]
      rw [this]
      nlinarith

theorem one_draw {min max : Option ℝ} {ez : ExcludeZero} {dt : FloatDtype} {s : Set ℝ}
    (h : realsStrategy min max ez = .ok s) {x : ℝ} (hx : x ∈ s) :
    ∃ t, realsArray min max ez dt 1 = .ok t ∧ [castTo dt x] ∈ t := by
  unfold realsArray
  rw [h]
  refine ⟨_, rfl, rfl, ?_⟩
  intro v hv
  rw [List.mem_singleton] at hv
  exact ⟨x, hx, hv⟩

theorem free_strategy (ez : ExcludeZero) : ∃ s, realsStrategy none none ez = .ok s := by
  classical
  unfold realsStrategy
  rw [if_neg (by rintro ⟨lo, h, -⟩; exact absurd h (by simp))]
  exact ⟨_, rfl⟩

theorem free_mem {s : Set ℝ} (h : realsStrategy none none .exact = .ok s) {x : ℝ}
    (h1 : fl64 x = x) (h2 : |x| < 2 ^ (1024 : ℤ)) (h3 : x ≠ 0) : x ∈ s := by
  classical
  unfold realsStrategy at h
  rw [if_neg (by rintro ⟨lo, h, -⟩; exact absurd h (by simp))] at h
  injection h with h
  rw [← h]
  exact ⟨⟨h1, h2⟩, fun lo hl => absurd hl (by simp), fun hi hh => absurd hh (by simp), h3⟩

theorem vecs_mem {min max : Option ℝ} {ez : ExcludeZero} {n : ℕ} {s : Set (List Vec)}
    (h : realsVecs min max ez n = .ok s) {l : List Vec} (hl : l ∈ s) :
    l.length = n ∧ ∀ v ∈ l, FitsBounds min max ez v.1 ∧ FitsBounds min max ez v.2 := by
  unfold realsVecs at h
  rcases hr : realsStrategy min max ez with e | t
  · rw [hr] at h
    cases h
  rw [hr] at h
  injection h with h
  rw [← h] at hl
  exact ⟨hl.1, fun v hv => ⟨(strategy_mem hr (hl.2 v hv).1).2, (strategy_mem hr (hl.2 v hv).2).2⟩⟩

theorem mapM_forall₂ {α β : Type} {f : α → Option β} :
    ∀ {l : List α} {m : List β}, l.mapM f = some m → List.Forall₂ (fun a b => f a = some b) l m := by
  intro l
  induction l with
  | nil =>
    intro m h
    simp only [List.mapM_nil] at h
    injection h with h
    rw [← h]
    exact List.Forall₂.nil
  | cons a l ih =>
    intro m h
    rw [List.mapM_cons] at h
    rcases ha : f a with _ | b
    · rw [ha] at h
      cases h
    rcases hl : l.mapM f with _ | m'
    · rw [ha, hl] at h
      cases h
    rw [ha, hl] at h
    injection h with h
    rw [← h]
    exact List.Forall₂.cons ha (ih hl)

end CrowdDynamics
