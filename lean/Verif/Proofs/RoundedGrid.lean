import Verif.Model.RoundedMotion
import Verif.Proofs.CoreTests
import Verif.Proofs.Navigation
import Verif.Proofs.RoundedTime

/-!
# The grid of the navigation with rounding
-/

namespace CrowdDynamics

open Spec

/-- A number that is not too small is rounded with a relative error. -/
theorem fl64_rel_of_ge {x s : ℝ} (hs : (2 : ℝ) ^ (-900 : ℤ) ≤ s) (hx : s ≤ |x|) :
    |fl64 x - x| ≤ |x| * 2 ^ (-53 : ℤ) :=
  fl64_err_rel ((zpow_le_zpow_right₀ (by norm_num) (by norm_num : (-1022 : ℤ) ≤ -900)).trans
    (hs.trans hx))

/-- The quotient of the distance from the lower bound by the step. -/
theorem quot_err {x a s M : ℝ} (hs : (2 : ℝ) ^ (-900 : ℤ) ≤ s) (hM : |x - a| ≤ M) :
    |fl64 (fl64 (x - a) / s) - (x - a) / s| ≤ M / s * 2 ^ (-51 : ℤ) + 2 ^ (-100 : ℤ) := by
  have hs0 : 0 < s := (two_zpow_pos _).trans_le hs
  have hM0 : 0 ≤ M := (abs_nonneg _).trans hM
  have e1 := fl64_err_gen (x - a)
  have e2 := fl64_err_gen (fl64 (x - a) / s)
  obtain ⟨y, hy⟩ : ∃ y, fl64 (x - a) = y := ⟨_, rfl⟩
  rw [hy] at e1 e2 ⊢
  have hms : 0 ≤ M / s := div_nonneg hM0 hs0.le
  have t1 : (2 : ℝ) ^ (-1075 : ℤ) / s ≤ 2 ^ (-175 : ℤ) := by
    rw [div_le_iff₀ hs0]
    calc (2 : ℝ) ^ (-1075 : ℤ) = 2 ^ (-175 : ℤ) * 2 ^ (-900 : ℤ) := by
          rw [← zpow_add₀ (by norm_num)]; norm_num
      _ ≤ _ := mul_le_mul_of_nonneg_left hs (two_zpow_pos _).le
  have t2 : (2 : ℝ) ^ (-1075 : ℤ) ≤ 2 ^ (-175 : ℤ) := tiny_le' (by norm_num)
  -- first rounding
  have d1 : |y / s - (x - a) / s| ≤ M / s * 2 ^ (-53 : ℤ) + 2 ^ (-175 : ℤ) := by
    rw [← sub_div, abs_div, abs_of_pos hs0]
    calc |y - (x - a)| / s ≤ (M * 2 ^ (-53 : ℤ) + 2 ^ (-1075 : ℤ)) / s := by
          refine div_le_div_of_nonneg_right (e1.trans ?_) hs0.le
          exact add_le_add_left (mul_le_mul_of_nonneg_right hM (two_zpow_pos _).le) _
      _ = M / s * 2 ^ (-53 : ℤ) + 2 ^ (-1075 : ℤ) / s := by rw [add_div, mul_div_right_comm]
      _ ≤ _ := by linarith
  have d0 : |(x - a) / s| ≤ M / s := by
    rw [abs_div, abs_of_pos hs0]; exact div_le_div_of_nonneg_right hM hs0.le
  have d2 : |y / s| ≤ M / s * 2 + 2 ^ (-175 : ℤ) := by
    calc |y / s| = |(y / s - (x - a) / s) + (x - a) / s| := by congr 1; ring
      _ ≤ (M / s * 2 ^ (-53 : ℤ) + 2 ^ (-175 : ℤ)) + M / s := (abs_add_le _ _).trans (add_le_add d1 d0)
      _ ≤ _ := by
        have : M / s * 2 ^ (-53 : ℤ) ≤ M / s * 1 :=
          mul_le_mul_of_nonneg_left (by norm_num) hms
        linarith
  calc |fl64 (y / s) - (x - a) / s| = |(fl64 (y / s) - y / s) + (y / s - (x - a) / s)| := by
        congr 1; ring
    _ ≤ (|y / s| * 2 ^ (-53 : ℤ) + 2 ^ (-1075 : ℤ)) + (M / s * 2 ^ (-53 : ℤ) + 2 ^ (-175 : ℤ)) :=
        (abs_add_le _ _).trans (add_le_add e2 d1)
    _ ≤ ((M / s * 2 + 2 ^ (-175 : ℤ)) * 2 ^ (-53 : ℤ) + 2 ^ (-175 : ℤ)) +
        (M / s * 2 ^ (-53 : ℤ) + 2 ^ (-175 : ℤ)) := by
        exact add_le_add (add_le_add (mul_le_mul_of_nonneg_right d2 (two_zpow_pos (-53)).le) t2)
          le_rfl
    _ ≤ _ := by
        obtain ⟨m, hm⟩ : ∃ m, M / s = m := ⟨_, rfl⟩
        rw [hm] at hms ⊢
        norm_num
        linarith

/-- The rounded quotients that give the number of nodes of an axis and the index of a position. -/
theorem axis_quot {a b s : ℝ} (hs : (2 : ℝ) ^ (-900 : ℤ) ≤ s)
    (ha : |a| ≤ 2 ^ 44 * s) (hb : |b| ≤ 2 ^ 44 * s) :
    |fl64 (fl64 (fl64 (b + s) - a) / s) - ((b - a) / s + 1)| ≤ 1 / 8 ∧
    |fl64 (fl64 (b - a) / s) - (b - a) / s| ≤ 1 / 16 := by
  have hs0 : 0 < s := (two_zpow_pos _).trans_le hs
  rw [abs_le] at ha hb
  have hsum : |b + s| ≤ 2 ^ 45 * s := by
    rw [abs_le]; constructor <;> linarith
  have e1 := fl64_err_gen (b + s)
  have t2 : (2 : ℝ) ^ (-1075 : ℤ) ≤ 2 ^ (-175 : ℤ) * s := by
    calc (2 : ℝ) ^ (-1075 : ℤ) = 2 ^ (-175 : ℤ) * 2 ^ (-900 : ℤ) := by
          rw [← zpow_add₀ (by norm_num)]; norm_num
      _ ≤ _ := mul_le_mul_of_nonneg_left hs (two_zpow_pos _).le
  obtain ⟨y, hy⟩ : ∃ y, fl64 (b + s) = y := ⟨_, rfl⟩
  rw [hy] at e1 ⊢
  have e1' : |y - (b + s)| ≤ 1 / 16 * s := by
    refine e1.trans ?_
    have h1 := mul_le_mul_of_nonneg_right hsum (two_zpow_pos (-53)).le
    have h2 : (2 : ℝ) ^ 45 * s * 2 ^ (-53 : ℤ) = 2 ^ (-8 : ℤ) * s := by
      rw [mul_right_comm]; norm_num
    have h3 : (2 : ℝ) ^ (-175 : ℤ) * s ≤ 2 ^ (-8 : ℤ) * s :=
      mul_le_mul_of_nonneg_right (by norm_num) hs0.le
    have h4 : (2 : ℝ) ^ (-8 : ℤ) * s + 2 ^ (-8 : ℤ) * s ≤ 1 / 16 * s := by
      rw [← add_mul]; exact mul_le_mul_of_nonneg_right (by norm_num) hs0.le
    exact (add_le_add (h1.trans_eq h2) (t2.trans h3)).trans h4
  have e1a := abs_le.1 e1'
  have hq : |(y - a) / s - ((b - a) / s + 1)| ≤ 1 / 16 := by
    rw [show (y - a) / s - ((b - a) / s + 1) = (y - (b + s)) / s by field_simp; ring, abs_div,
      abs_of_pos hs0, div_le_iff₀ hs0]
    exact e1'
  have hM1 : |y - a| ≤ 2 ^ 46 * s := by
    rw [abs_le]; constructor <;> linarith
  have hM2 : |b - a| ≤ 2 ^ 46 * s := by rw [abs_le]; constructor <;> linarith
  have q1 := quot_err hs hM1
  have q2 := quot_err hs hM2
  rw [mul_div_assoc, div_self hs0.ne', mul_one] at q1 q2
  have hc : (2 : ℝ) ^ 46 * 2 ^ (-51 : ℤ) + 2 ^ (-100 : ℤ) ≤ 1 / 16 := by norm_num
  refine ⟨?_, q2.trans hc⟩
  calc |fl64 (fl64 (y - a) / s) - ((b - a) / s + 1)|
      = |(fl64 (fl64 (y - a) / s) - (y - a) / s) + ((y - a) / s - ((b - a) / s + 1))| := by
        congr 1; ring
    _ ≤ 1 / 16 + 1 / 16 := (abs_add_le _ _).trans (add_le_add (q1.trans hc) hq)
    _ = 1 / 8 := by norm_num

/-- Without rounding, `arange` is that of the exact model. -/
theorem arangeF_id (a b s : ℝ) : arangeF id a b s = arange a b s := by
  unfold arangeF arange
  refine List.map_congr_left fun k _ => ?_
  simp only [id_eq]
  split_ifs with h1 h2
  · subst h1; simp
  · subst h2; simp
  · ring

theorem arangeF_length (a b s : ℝ) (rnd : ℝ → ℝ) :
    (arangeF rnd a b s).length = ⌈rnd (rnd (b - a) / s)⌉.toNat := by simp [arangeF]

theorem arangeF_getD {rnd : ℝ → ℝ} {a b s : ℝ} {k : ℕ} (h : k < (arangeF rnd a b s).length) :
    (arangeF rnd a b s).getD k 0 = if k = 0 then a else if k = 1 then rnd (a + s) else
      rnd (a + rnd (k * rnd (rnd (a + s) - a))) := by
  simp only [arangeF, List.length_map, List.length_range] at h
  simp [arangeF, List.getD_eq_getElem?_getD, h]

/-- A number near an integer part of the exact quotient. -/
theorem ceil_near {q r e : ℝ} (he : |q - (r + 1)| ≤ e) (he1 : e ≤ 1 / 8) :
    ⌈r⌉ ≤ ⌈q⌉ ∧ ⌈q⌉ ≤ ⌈r⌉ + 2 ∧ ((∀ k : ℤ, e < |r - k|) → ⌈q⌉ = ⌈r⌉ + 1) := by
  rw [abs_le] at he
  have c1 := Int.le_ceil q
  have c2 := Int.ceil_lt_add_one q
  have c3 := Int.le_ceil r
  have c4 := Int.ceil_lt_add_one r
  obtain ⟨n, hn⟩ : ∃ n, ⌈q⌉ = n := ⟨_, rfl⟩
  obtain ⟨m, hm⟩ : ∃ m, ⌈r⌉ = m := ⟨_, rfl⟩
  rw [hn] at c1 c2 ⊢
  rw [hm] at c3 c4 ⊢
  refine ⟨?_, ?_, fun h => ?_⟩
  · have : (m : ℝ) < n + 1 := by linarith
    have : m < n + 1 := by exact_mod_cast this
    omega
  · have : (n : ℝ) < m + 3 := by linarith
    have : n < m + 3 := by exact_mod_cast this
    omega
  · have h1 := h m
    have h2 := h (m - 1)
    push_cast at h2
    rw [abs_of_nonpos (by linarith)] at h1
    rw [abs_of_nonneg (by linarith)] at h2
    have a1 : (n : ℝ) < m + 2 := by linarith
    have a2 : (m : ℝ) < n := by linarith
    have a1 : n < m + 2 := by exact_mod_cast a1
    have a2 : m < n := by exact_mod_cast a2
    omega

/-- The number of nodes of an axis, with rounding. -/
theorem axis_length {a b s : ℝ} (hs : (2 : ℝ) ^ (-900 : ℤ) ≤ s) (hab : a ≤ b)
    (ha : |a| ≤ 2 ^ 44 * s) (hb : |b| ≤ 2 ^ 44 * s) :
    ⌈(b - a) / s⌉ ≤ (arangeF fl64 a (fl64 (b + s)) s).length ∧
    (arangeF fl64 a (fl64 (b + s)) s).length ≤ ⌈(b - a) / s⌉ + 2 ∧
    (b - a) / s + 7 / 8 ≤ (arangeF fl64 a (fl64 (b + s)) s).length ∧
    ((∀ k : ℤ, 1 / 8 < |(b - a) / s - k|) →
      (arangeF fl64 a (fl64 (b + s)) s).length = ⌈(b - a) / s⌉ + 1) := by
  have hs0 : 0 < s := (two_zpow_pos _).trans_le hs
  have hr : 0 ≤ (b - a) / s := div_nonneg (sub_nonneg.2 hab) hs0.le
  obtain ⟨h1, -⟩ := axis_quot hs ha hb
  obtain ⟨c1, c2, c3⟩ := ceil_near h1 le_rfl
  have h1' := abs_le.1 h1
  have hl := Int.le_ceil (fl64 (fl64 (fl64 (b + s) - a) / s))
  have hr' := Int.ceil_nonneg hr
  rw [arangeF_length]
  have e : ((⌈fl64 (fl64 (fl64 (b + s) - a) / s)⌉.toNat : ℕ) : ℤ) =
      ⌈fl64 (fl64 (fl64 (b + s) - a) / s)⌉ := Int.toNat_of_nonneg (hr'.trans c1)
  have e' : ((⌈fl64 (fl64 (fl64 (b + s) - a) / s)⌉.toNat : ℕ) : ℝ) =
      ⌈fl64 (fl64 (fl64 (b + s) - a) / s)⌉ := by exact_mod_cast e
  rw [e, e']
  exact ⟨c1, c2, by linarith, c3⟩

/-- The index of a position between the bounds, with rounding. -/
theorem axis_index {a b s x : ℝ} (hs : (2 : ℝ) ^ (-900 : ℤ) ≤ s) (hax : a ≤ x) (hxb : x ≤ b)
    (ha : |a| ≤ 2 ^ 44 * s) (hb : |b| ≤ 2 ^ 44 * s) :
    ∃ k : ℕ, truncInt (fl64 (fl64 (x - a) / s)) = k ∧
      k < (arangeF fl64 a (fl64 (b + s)) s).length ∧
      a + k * s ≤ x + s / 16 ∧ x < a + k * s + s + s / 16 := by
  have hs0 : 0 < s := (two_zpow_pos _).trans_le hs
  have hx : |x| ≤ 2 ^ 44 * s := by
    rw [abs_le] at *
    exact ⟨by linarith, by linarith⟩
  obtain ⟨-, h2⟩ := axis_quot hs ha hx
  have h0 : 0 ≤ fl64 (fl64 (x - a) / s) :=
    fl64_nonneg (div_nonneg (fl64_nonneg (sub_nonneg.2 hax)) hs0.le)
  obtain ⟨-, -, hl, -⟩ := axis_length hs (hax.trans hxb) ha hb
  rw [abs_le] at h2
  obtain ⟨q, hq⟩ : ∃ q, fl64 (fl64 (x - a) / s) = q := ⟨_, rfl⟩
  rw [hq] at h0 h2 ⊢
  have f1 := Int.floor_le q
  have f2 := Int.lt_floor_add_one q
  have e : ((⌊q⌋.toNat : ℕ) : ℤ) = ⌊q⌋ := Int.toNat_of_nonneg (Int.floor_nonneg.2 h0)
  have e' : ((⌊q⌋.toNat : ℕ) : ℝ) = ⌊q⌋ := by exact_mod_cast e
  have hle : (x - a) / s ≤ (b - a) / s := div_le_div_of_nonneg_right (by linarith) hs0.le
  have hxa : (x - a) / s * s = x - a := div_mul_cancel₀ _ hs0.ne'
  refine ⟨⌊q⌋.toNat, by rw [truncInt_of_nonneg h0, e], ?_, ?_, ?_⟩
  · have : ((⌊q⌋.toNat : ℕ) : ℝ) < (arangeF fl64 a (fl64 (b + s)) s).length := by
      rw [e']; linarith
    exact_mod_cast this
  · rw [e']
    have : (⌊q⌋ : ℝ) * s ≤ ((x - a) / s + 1 / 16) * s :=
      mul_le_mul_of_nonneg_right (by linarith) hs0.le
    rw [add_mul, hxa] at this
    linarith
  · rw [e']
    have : ((x - a) / s - 1 / 16) * s < ((⌊q⌋ : ℝ) + 1) * s :=
      mul_lt_mul_of_pos_right (by linarith) hs0
    rw [sub_mul, hxa] at this
    linarith

/-- Rounding of a number bounded by a multiple of the step. -/
theorem fl64_err_step {z s : ℝ} {m : ℕ} (hs : (2 : ℝ) ^ (-900 : ℤ) ≤ s) (h : |z| ≤ 2 ^ m * s) :
    |fl64 z - z| ≤ (2 ^ m * 2 ^ (-53 : ℤ) + 2 ^ (-175 : ℤ)) * s := by
  have hs0 : 0 < s := (two_zpow_pos _).trans_le hs
  have t2 : (2 : ℝ) ^ (-1075 : ℤ) ≤ 2 ^ (-175 : ℤ) * s := by
    calc (2 : ℝ) ^ (-1075 : ℤ) = 2 ^ (-175 : ℤ) * 2 ^ (-900 : ℤ) := by
          rw [← zpow_add₀ (by norm_num)]; norm_num
      _ ≤ _ := mul_le_mul_of_nonneg_left hs (two_zpow_pos _).le
  refine (fl64_err_gen z).trans ?_
  have h1 := mul_le_mul_of_nonneg_right h (two_zpow_pos (-53)).le
  rw [add_mul, mul_right_comm]
  exact add_le_add h1 t2

/-- The nodes of an axis, with rounding. -/
theorem axis_node {a b s : ℝ} (hs : (2 : ℝ) ^ (-900 : ℤ) ≤ s) (hab : a ≤ b)
    (ha : |a| ≤ 2 ^ 20 * s) (hb : |b| ≤ 2 ^ 20 * s) {k : ℕ}
    (hk : k < (arangeF fl64 a (fl64 (b + s)) s).length) :
    |(arangeF fl64 a (fl64 (b + s)) s).getD k 0 - (a + k * s)| ≤ s / 128 := by
  have hs0 : 0 < s := (two_zpow_pos _).trans_le hs
  have h2044 : (2 : ℝ) ^ 20 * s ≤ 2 ^ 44 * s := mul_le_mul_of_nonneg_right (by norm_num) hs0.le
  obtain ⟨-, hl, -, -⟩ := axis_length hs hab (ha.trans h2044) (hb.trans h2044)
  have ha' := abs_le.1 ha
  have hb' := abs_le.1 hb
  have hk' : (k : ℝ) ≤ 2 ^ 22 := by
    have c := Int.ceil_lt_add_one ((b - a) / s)
    have d : (b - a) / s ≤ 2 ^ 21 := by
      rw [div_le_iff₀ hs0]; linarith
    have e : (k : ℤ) < ⌈(b - a) / s⌉ + 2 := by omega
    have e : (k : ℝ) < ⌈(b - a) / s⌉ + 2 := by exact_mod_cast e
    linarith
  have hk0 : (0 : ℝ) ≤ k := Nat.cast_nonneg k
  rw [arangeF_getD hk]
  have e1 : |fl64 (a + s) - (a + s)| ≤ 2 ^ (-31 : ℤ) * s := by
    refine (fl64_err_step (m := 21) hs ?_).trans (mul_le_mul_of_nonneg_right (by norm_num) hs0.le)
    rw [abs_le]; constructor <;> linarith
  split_ifs with h1 h2
  · subst h1; simp; positivity
  · subst h2
    rw [Nat.cast_one, one_mul]
    refine e1.trans ?_
    rw [div_eq_inv_mul]
    exact mul_le_mul_of_nonneg_right (by norm_num) hs0.le
  · obtain ⟨y, hy⟩ : ∃ y, fl64 (a + s) = y := ⟨_, rfl⟩
    rw [hy] at e1 ⊢
    have e1' := abs_le.1 e1
    have p31 : (2 : ℝ) ^ (-31 : ℤ) * s ≤ s := by
      calc _ ≤ 1 * s := mul_le_mul_of_nonneg_right (by norm_num) hs0.le
        _ = s := one_mul s
    have e2 : |fl64 (y - a) - (y - a)| ≤ 2 ^ (-51 : ℤ) * s := by
      refine (fl64_err_step (m := 1) hs ?_).trans (mul_le_mul_of_nonneg_right (by norm_num) hs0.le)
      rw [abs_le]; constructor <;> linarith
    obtain ⟨d, hd⟩ : ∃ d, fl64 (y - a) = d := ⟨_, rfl⟩
    rw [hd] at e2 ⊢
    have ed : |d - s| ≤ 2 ^ (-30 : ℤ) * s := by
      calc |d - s| = |(d - (y - a)) + (y - (a + s))| := by congr 1; ring
        _ ≤ 2 ^ (-51 : ℤ) * s + 2 ^ (-31 : ℤ) * s := (abs_add_le _ _).trans (add_le_add e2 e1)
        _ = (2 ^ (-51 : ℤ) + 2 ^ (-31 : ℤ)) * s := by ring
        _ ≤ _ := mul_le_mul_of_nonneg_right (by norm_num) hs0.le
    have ekd : |k * d - k * s| ≤ 2 ^ (-8 : ℤ) * s := by
      rw [← mul_sub, abs_mul, abs_of_nonneg hk0]
      calc (k : ℝ) * |d - s| ≤ 2 ^ 22 * (2 ^ (-30 : ℤ) * s) :=
            mul_le_mul hk' ed (abs_nonneg _) (by positivity)
        _ = (2 ^ 22 * 2 ^ (-30 : ℤ)) * s := by ring
        _ = _ := by norm_num
    have p8 : (2 : ℝ) ^ (-8 : ℤ) * s ≤ s := by
      calc _ ≤ 1 * s := mul_le_mul_of_nonneg_right (by norm_num) hs0.le
        _ = s := one_mul s
    have ekd' := abs_le.1 ekd
    have hks : (k : ℝ) * s ≤ 2 ^ 22 * s := mul_le_mul_of_nonneg_right hk' hs0.le
    have hks0 : 0 ≤ (k : ℝ) * s := mul_nonneg hk0 hs0.le
    have e3 : |fl64 (k * d) - k * d| ≤ 2 ^ (-29 : ℤ) * s := by
      refine (fl64_err_step (m := 23) hs ?_).trans (mul_le_mul_of_nonneg_right (by norm_num) hs0.le)
      rw [abs_le]; constructor <;> linarith
    obtain ⟨w, hw⟩ : ∃ w, fl64 (k * d) = w := ⟨_, rfl⟩
    rw [hw] at e3 ⊢
    have p29 : (2 : ℝ) ^ (-29 : ℤ) * s ≤ s := by
      calc _ ≤ 1 * s := mul_le_mul_of_nonneg_right (by norm_num) hs0.le
        _ = s := one_mul s
    have e3' := abs_le.1 e3
    have e4 : |fl64 (a + w) - (a + w)| ≤ 2 ^ (-28 : ℤ) * s := by
      refine (fl64_err_step (m := 24) hs ?_).trans (mul_le_mul_of_nonneg_right (by norm_num) hs0.le)
      rw [abs_le]; constructor <;> linarith
    calc |fl64 (a + w) - (a + k * s)|
        = |(fl64 (a + w) - (a + w)) + ((w - k * d) + (k * d - k * s))| := by congr 1; ring
      _ ≤ 2 ^ (-28 : ℤ) * s + (2 ^ (-29 : ℤ) * s + 2 ^ (-8 : ℤ) * s) :=
          (abs_add_le _ _).trans (add_le_add e4 ((abs_add_le _ _).trans (add_le_add e3 ekd)))
      _ = (2 ^ (-28 : ℤ) + 2 ^ (-29 : ℤ) + 2 ^ (-8 : ℤ)) * s := by ring
      _ ≤ 128⁻¹ * s := mul_le_mul_of_nonneg_right (by norm_num) hs0.le
      _ = s / 128 := by rw [div_eq_inv_mul]

/-! ## The step `0.1` -/

theorem fl64_tenth : fl64 (1 / 10) = 7205759403792794 * 2 ^ (-56 : ℤ) := by
  have := fl64_eq_of_near (x := 1 / 10) (m := 7205759403792794) (e := -56) (by
    rw [abs_of_pos (by norm_num)]; norm_num) (by
    rw [abs_of_pos (by norm_num)]; norm_num) (by norm_num) (by
    rw [abs_lt]; constructor <;> norm_num)
  rw [this]; norm_num

theorem fl64_fifth : fl64 (1 / 5) = 7205759403792794 * 2 ^ (-55 : ℤ) := by
  have := fl64_eq_of_near (x := 1 / 5) (m := 7205759403792794) (e := -55) (by
    rw [abs_of_pos (by norm_num)]; norm_num) (by
    rw [abs_of_pos (by norm_num)]; norm_num) (by norm_num) (by
    rw [abs_lt]; constructor <;> norm_num)
  rw [this]; norm_num

/-- `0.2 + 0.1` is rounded up. -/
theorem fl64_three_tenths : fl64 (fl64 (1 / 5) + fl64 (1 / 10)) =
    (10808639105689192 : ℕ) * 2 ^ (-55 : ℤ) := by
  have h : roundNat 10808639105689191 = 10808639105689192 := by decide +kernel
  rw [← h, ← fl64_natCast (by norm_num) (by norm_num), fl64_tenth, fl64_fifth]
  norm_num

/-- The axis from `0` to `0.2` with the step `0.1` has four nodes. -/
theorem arange_fifth :
    (arangeF fl64 0 (fl64 (fl64 (1 / 5) + fl64 (1 / 10))) (fl64 (1 / 10))).length = 4 := by
  rw [arangeF_length, sub_zero, fl64_idem, fl64_three_tenths, fl64_tenth]
  have h : roundNat (3 * 2 ^ 55 + 9) = 3 * 2 ^ 55 + 16 := by decide +kernel
  have lo : (((3 * 2 ^ 55 + 16 : ℕ) : ℝ)) * 2 ^ (-55 : ℤ) ≤
      fl64 ((10808639105689192 : ℕ) * 2 ^ (-55 : ℤ) / (7205759403792794 * 2 ^ (-56 : ℤ))) := by
    rw [← h, ← fl64_natCast (by norm_num) (by norm_num)]
    refine fl64_mono ?_
    norm_num
  have hi : fl64 ((10808639105689192 : ℕ) * 2 ^ (-55 : ℤ) / (7205759403792794 * 2 ^ (-56 : ℤ))) ≤
      4 := by
    have h4 : fl64 ((2 : ℝ) ^ (2 : ℤ)) = 2 ^ (2 : ℤ) := fl64_two_zpow (by norm_num)
    have : fl64 ((10808639105689192 : ℕ) * 2 ^ (-55 : ℤ) / (7205759403792794 * 2 ^ (-56 : ℤ))) ≤
      fl64 ((2 : ℝ) ^ (2 : ℤ)) := fl64_mono (by norm_num)
    rw [h4] at this
    refine this.trans (by norm_num)
  obtain ⟨q, hq⟩ : ∃ q, fl64 ((10808639105689192 : ℕ) * 2 ^ (-55 : ℤ) /
    (7205759403792794 * 2 ^ (-56 : ℤ))) = q := ⟨_, rfl⟩
  rw [hq] at lo hi ⊢
  have : ⌈q⌉ = 4 := by
    rw [Int.ceil_eq_iff]
    norm_num at lo ⊢
    exact ⟨by linarith, hi⟩
  rw [this]; rfl

end CrowdDynamics
