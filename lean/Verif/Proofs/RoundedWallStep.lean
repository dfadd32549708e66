import Verif.Proofs.RoundedWall
import Verif.Proofs.RoundedWalk

/-!
# One update of an agent who walks against a wall, with rounding
-/

namespace CrowdDynamics

open Spec

/-! ## Errors -/

lemma near64 {z b : ℝ} (h : |z| ≤ b) (hb : 1e-10 ≤ b) : |fl64 z - z| ≤ b * 2e-16 := by
  have h1 := fl64_err_abs h
  have h2 : (2 : ℝ) ^ (-200 : ℤ) ≤ 2 ^ (-100 : ℤ) := zpow_le_zpow_right₀ (by norm_num) (by norm_num)
  have h3 : (2 : ℝ) ^ (-100 : ℤ) ≤ 1e-27 := by norm_num
  have h4 : (2 : ℝ) ^ (-53 : ℤ) ≤ 1.2e-16 := by norm_num
  have h5 : b * (2 : ℝ) ^ (-53 : ℤ) ≤ b * 1.2e-16 := mul_le_mul_of_nonneg_left h4 (by linarith)
  refine h1.trans ((add_le_add h5 (h2.trans h3)).trans ?_)
  linarith

lemma near_mul {a b x y e f M N : ℝ} (ha : |a - x| ≤ e) (hb : |b - y| ≤ f) (hx : |x| ≤ M)
    (hN : |b| ≤ N) : |a * b - x * y| ≤ e * N + M * f := by
  have e1 : a * b - x * y = (a - x) * b + x * (b - y) := by ring
  rw [e1]
  refine (abs_add_le _ _).trans (add_le_add ?_ ?_)
  · rw [abs_mul]
    exact mul_le_mul ha hN (abs_nonneg _) ((abs_nonneg _).trans ha)
  · rw [abs_mul]
    exact mul_le_mul hx hb (abs_nonneg _) ((abs_nonneg _).trans hx)

/-- The distance at which the computed contact begins. -/
lemma contact_threshold {r : ℝ} (hr : Binary64 r) (r0 : 0 ≤ r) (r1 : r ≤ 1) :
    ∃ ρ, r - 1e-12 ≤ ρ ∧ ρ ≤ r ∧
      ∀ y, (∃ n : ℤ, y = n * (2 : ℝ) ^ (-1074 : ℤ)) → (fl64 y < r ↔ y < ρ) := by
  obtain ⟨k, hk⟩ := binary64_grid hr
  have hp := two_zpow_pos (-1074)
  have hfr := (binary64_iff r).1 hr
  have hbdd : ∀ z : ℤ, r ≤ fl64 (z * (2 : ℝ) ^ (-1074 : ℤ)) → -1 ≤ z := by
    intro z hz
    by_contra hc
    push Not at hc
    have h1 : (z : ℝ) * (2 : ℝ) ^ (-1074 : ℤ) ≤ -1 * (2 : ℝ) ^ (-1074 : ℤ) :=
      mul_le_mul_of_nonneg_right (by exact_mod_cast hc.le) hp.le
    have h2 := fl64_mono h1
    rw [neg_one_mul, fl64_neg, fl64_two_zpow (by norm_num)] at h2
    linarith
  obtain ⟨n, hn, hmin⟩ := Int.exists_least_of_bdd
    (P := fun z : ℤ => r ≤ fl64 (z * (2 : ℝ) ^ (-1074 : ℤ))) ⟨-1, hbdd⟩
    ⟨k, by rw [← hk, hfr]⟩
  refine ⟨n * (2 : ℝ) ^ (-1074 : ℤ), ?_, ?_, ?_⟩
  · have hle : (n : ℝ) * (2 : ℝ) ^ (-1074 : ℤ) ≤ r := by
      rw [hk]
      exact mul_le_mul_of_nonneg_right (by exact_mod_cast hmin k (by rw [← hk, hfr])) hp.le
    have hge : -1 ≤ (n : ℝ) * (2 : ℝ) ^ (-1074 : ℤ) := by
      have h1 : (-1 : ℝ) * (2 : ℝ) ^ (-1074 : ℤ) ≤ n * (2 : ℝ) ^ (-1074 : ℤ) :=
        mul_le_mul_of_nonneg_right (by exact_mod_cast hbdd n hn) hp.le
      have h2 : (2 : ℝ) ^ (-1074 : ℤ) ≤ 2 ^ (0 : ℤ) := zpow_le_zpow_right₀ (by norm_num) (by norm_num)
      rw [zpow_zero] at h2
      linarith
    have := abs_le.1 (near64 (abs_le.2 ⟨hge, hle.trans r1⟩) (by norm_num))
    linarith
  · rw [hk]
    exact mul_le_mul_of_nonneg_right (by exact_mod_cast hmin k (by rw [← hk, hfr])) hp.le
  · rintro y ⟨z, rfl⟩
    rw [← not_le, ← not_le, not_iff_not]
    constructor
    · intro h
      exact mul_le_mul_of_nonneg_right (by exact_mod_cast hmin z h) hp.le
    · intro h
      exact hn.trans (fl64_mono h)

/-- The computed force along the axis. -/
noncomputable def pressForce (m V r X x u : ℝ) : ℝ :=
  let adj := fl64 (fl64 (m / (1 / 2)) * fl64 (V - u))
  let h := fl64 (fl64 (X - x) - r)
  if h < 0 then fl64 (adj + fl64 (fl64 (h * 1.2e5) + fl64 (500 * u))) else adj

/-- The computed velocity. -/
noncomputable def pressSpeed (m dt u f F : ℝ) : ℝ :=
  fl64 (u + fl64 (fl64 (fl64 (fl64 (f / m) + fl64 (F / m)) / 2) * dt))

/-- The computed position. -/
noncomputable def pressMove (m dt x u' F : ℝ) : ℝ :=
  fl64 (x + fl64 (fl64 (u' * dt) + halfSquareF fl64 dt (fl64 (F / m))))

lemma press_force_near {m V r ρ X x u : ℝ} (m0 : 50 ≤ m) (m1 : m ≤ 90) (V0 : 0 ≤ V) (V1 : V ≤ 2)
    (u1 : |u| ≤ 26) (r0 : 0 ≤ r) (r1 : r ≤ 1) (ρ0 : r - 1e-12 ≤ ρ) (ρ1 : ρ ≤ r) (hr : Binary64 r)
    (hy0 : ρ - 0.15 ≤ X - x)
    (ht : fl64 (X - x) < r ↔ X - x < ρ) :
    |fl64 (pressForce m V r X x u / m) -
      (2 * (V - u) - if X - x < ρ then 1.2e5 / m * (ρ - (X - x)) - 500 / m * u else 0)| ≤ 1e-7 ∧
    |pressForce m V r X x u / m -
      (2 * (V - u) - if X - x < ρ then 1.2e5 / m * (ρ - (X - x)) - 500 / m * u else 0)| ≤ 1e-7 := by
  have mp : 0 < m := by linarith
  have u2 := abs_le.1 u1
  obtain ⟨q, hq⟩ : ∃ q, fl64 (m / (1 / 2)) = q := ⟨_, rfl⟩
  obtain ⟨s, hs⟩ : ∃ s, fl64 (V - u) = s := ⟨_, rfl⟩
  have q1 : |q - 2 * m| ≤ 180 * 2e-16 := by
    rw [← hq, show m / (1 / 2) = 2 * m by ring]
    exact near64 (abs_le.2 ⟨by linarith, by linarith⟩) (by norm_num)
  have s1 : |s - (V - u)| ≤ 28 * 2e-16 := by
    rw [← hs]
    exact near64 (abs_le.2 ⟨by linarith, by linarith⟩) (by norm_num)
  have q2 := abs_le.1 q1
  have s2 := abs_le.1 s1
  have s3 : |s| ≤ 29 := abs_le.2 ⟨by linarith, by linarith⟩
  have qs := near_mul q1 s1 (M := 180) (N := 29) (abs_le.2 ⟨by linarith, by linarith⟩) s3
  have qs2 := abs_le.1 qs
  have mV : |2 * m * (V - u)| ≤ 180 * 28 := by
    rw [abs_mul]
    exact mul_le_mul (abs_le.2 ⟨by linarith, by linarith⟩) (abs_le.2 ⟨by linarith, by linarith⟩)
      (abs_nonneg _) (by norm_num)
  have mV2 := abs_le.1 mV
  obtain ⟨adj, hadj⟩ : ∃ adj, fl64 (q * s) = adj := ⟨_, rfl⟩
  have a1 : |adj - q * s| ≤ 6000 * 2e-16 := by
    rw [← hadj]
    exact near64 (abs_le.2 ⟨by linarith, by linarith⟩) (by norm_num)
  have a2 := abs_le.1 a1
  have a3 : |adj - 2 * m * (V - u)| ≤ 1e-11 := by
    rw [abs_le]
    constructor <;> linarith
  have a4 := abs_le.1 a3
  -- it suffices to look at the force
  suffices hF : |pressForce m V r X x u -
      (2 * m * (V - u) - if X - x < ρ then 1.2e5 * (ρ - (X - x)) - 500 * u else 0)| ≤ 1e-6 ∧
      |pressForce m V r X x u| ≤ 50000 by
    obtain ⟨hF, hF'⟩ := hF
    have e1 : (2 * (V - u) - if X - x < ρ then 1.2e5 / m * (ρ - (X - x)) - 500 / m * u else 0) =
        (2 * m * (V - u) - if X - x < ρ then 1.2e5 * (ρ - (X - x)) - 500 * u else 0) / m := by
      split_ifs
      · field_simp
      · rw [sub_zero, sub_zero]
        field_simp
    have h1 : |pressForce m V r X x u / m -
        (2 * (V - u) - if X - x < ρ then 1.2e5 / m * (ρ - (X - x)) - 500 / m * u else 0)| ≤ 2e-8 := by
      rw [e1, ← sub_div, abs_div, abs_of_pos mp, div_le_iff₀ mp]
      linarith
    have h2 : |pressForce m V r X x u / m| ≤ 1000 := by
      rw [abs_div, abs_of_pos mp, div_le_iff₀ mp]
      linarith
    have h3 := abs_le.1 (near64 h2 (by norm_num))
    have h4 := abs_le.1 h1
    refine ⟨?_, h1.trans (by norm_num)⟩
    rw [abs_le]
    constructor <;> linarith
  unfold pressForce
  simp only
  rw [hq, hs, hadj]
  obtain ⟨d, hd⟩ : ∃ d, fl64 (X - x) = d := ⟨_, rfl⟩
  have bd : Binary64 d := hd ▸ binary64_fl64 _
  rw [hd] at ht ⊢
  have hsign : fl64 (d - r) < 0 ↔ X - x < ρ := by
    rw [← ht]
    obtain ⟨z, hz⟩ := binary64_sub_grid bd hr
    constructor
    · intro h
      by_contra hc
      push Not at hc
      have := fl64_nonneg (sub_nonneg.2 hc)
      linarith
    · intro h
      have hp := two_zpow_pos (-1074)
      have z1 : z < 0 := by
        by_contra hc
        push Not at hc
        have : (0 : ℝ) ≤ z * (2 : ℝ) ^ (-1074 : ℤ) := mul_nonneg (by exact_mod_cast hc) hp.le
        linarith
      have h1 : d - r ≤ -(2 : ℝ) ^ (-1074 : ℤ) := by
        rw [hz]
        have : (z : ℝ) ≤ -1 := by exact_mod_cast (by omega : z ≤ -1)
        have := mul_le_mul_of_nonneg_right this hp.le
        linarith
      have h2 := fl64_mono h1
      rw [fl64_neg, fl64_two_zpow (by norm_num)] at h2
      linarith
  by_cases hc : X - x < ρ
  · rw [if_pos (hsign.2 hc), if_pos hc]
    have d1 : |d - (X - x)| ≤ 2e-16 := by
      rw [← hd]
      have := near64 (z := X - x) (b := 1) (abs_le.2 ⟨by linarith, by linarith⟩) (by norm_num)
      linarith
    have d2 := abs_le.1 d1
    obtain ⟨h, hh⟩ : ∃ h, fl64 (d - r) = h := ⟨_, rfl⟩
    have h1 : |h - (d - r)| ≤ 2e-16 := by
      rw [← hh]
      have := near64 (z := d - r) (b := 1) (abs_le.2 ⟨by linarith, by linarith⟩) (by norm_num)
      linarith
    have h2 := abs_le.1 h1
    rw [hh]
    obtain ⟨k, hk⟩ : ∃ k, fl64 (h * 1.2e5) = k := ⟨_, rfl⟩
    have k1 : |k - h * 1.2e5| ≤ 20000 * 2e-16 := by
      rw [← hk]
      exact near64 (abs_le.2 ⟨by linarith, by linarith⟩) (by norm_num)
    have k2 := abs_le.1 k1
    obtain ⟨g, hg⟩ : ∃ g, fl64 (500 * u) = g := ⟨_, rfl⟩
    have g1 : |g - 500 * u| ≤ 13000 * 2e-16 := by
      rw [← hg]
      exact near64 (abs_le.2 ⟨by linarith, by linarith⟩) (by norm_num)
    have g2 := abs_le.1 g1
    rw [hk, hg]
    obtain ⟨C, hC⟩ : ∃ C, fl64 (k + g) = C := ⟨_, rfl⟩
    have C1 : |C - (k + g)| ≤ 40000 * 2e-16 := by
      rw [← hC]
      exact near64 (abs_le.2 ⟨by linarith, by linarith⟩) (by norm_num)
    have C2 := abs_le.1 C1
    rw [hC]
    have F1 : |fl64 (adj + C) - (adj + C)| ≤ 45000 * 2e-16 :=
      near64 (abs_le.2 ⟨by linarith, by linarith⟩) (by norm_num)
    have F2 := abs_le.1 F1
    refine ⟨?_, ?_⟩ <;> rw [abs_le] <;> constructor <;> linarith
  · rw [if_neg (fun h => hc (hsign.1 h)), if_neg hc, sub_zero]
    refine ⟨by linarith, ?_⟩
    rw [abs_le]
    constructor <;> linarith

lemma press_speed_near {m dt u f F : ℝ} (hdt : |dt - 0.01| ≤ 1e-17) (u1 : |u| ≤ 26)
    (o1 : |fl64 (f / m)| ≤ 1000) (a1 : |fl64 (F / m)| ≤ 1001) :
    |pressSpeed m dt u f F - (u + 0.005 * (fl64 (f / m) + fl64 (F / m)))| ≤ 1e-12 := by
  unfold pressSpeed
  obtain ⟨o, ho⟩ : ∃ o, fl64 (f / m) = o := ⟨_, rfl⟩
  obtain ⟨a, ha⟩ : ∃ a, fl64 (F / m) = a := ⟨_, rfl⟩
  rw [ho] at o1 ⊢
  rw [ha] at a1 ⊢
  have o2 := abs_le.1 o1
  have a2 := abs_le.1 a1
  have u2 := abs_le.1 u1
  have dt2 := abs_le.1 hdt
  obtain ⟨b, hb⟩ : ∃ b, fl64 (o + a) = b := ⟨_, rfl⟩
  have b1 : |b - (o + a)| ≤ 2001 * 2e-16 := by
    rw [← hb]
    exact near64 (abs_le.2 ⟨by linarith, by linarith⟩) (by norm_num)
  have b2 := abs_le.1 b1
  obtain ⟨c, hc⟩ : ∃ c, fl64 (b / 2) = c := ⟨_, rfl⟩
  have c1 : |c - b / 2| ≤ 1001 * 2e-16 := by
    rw [← hc]
    exact near64 (abs_le.2 ⟨by linarith, by linarith⟩) (by norm_num)
  have c2 := abs_le.1 c1
  have c3 : |c - (o + a) / 2| ≤ 1e-12 := abs_le.2 ⟨by linarith, by linarith⟩
  have p1 := near_mul c3 hdt (M := 1001) (N := 0.011) (abs_le.2 ⟨by linarith, by linarith⟩)
    (abs_le.2 ⟨by linarith, by linarith⟩)
  have p2 := abs_le.1 p1
  rw [hb, hc]
  obtain ⟨d, hd⟩ : ∃ d, fl64 (c * dt) = d := ⟨_, rfl⟩
  have d1 : |d - c * dt| ≤ 11 * 2e-16 := by
    rw [← hd]
    exact near64 (abs_le.2 ⟨by linarith, by linarith⟩) (by norm_num)
  have d2 := abs_le.1 d1
  rw [hd]
  have s1 : |fl64 (u + d) - (u + d)| ≤ 40 * 2e-16 :=
    near64 (abs_le.2 ⟨by linarith, by linarith⟩) (by norm_num)
  have s2 := abs_le.1 s1
  rw [abs_le]
  constructor <;> linarith

lemma press_move_near {m dt x u F : ℝ} (hdt : |dt - 0.01| ≤ 1e-17) (u1 : |u| ≤ 40)
    (x1 : |x| ≤ 2200) (a1 : |fl64 (F / m)| ≤ 1001) :
    |pressMove m dt x u F - (x + 0.01 * u + 0.00005 * fl64 (F / m))| ≤ 1e-12 := by
  unfold pressMove halfSquareF
  obtain ⟨a, ha⟩ : ∃ a, fl64 (F / m) = a := ⟨_, rfl⟩
  rw [ha] at a1 ⊢
  have a2 := abs_le.1 a1
  have u2 := abs_le.1 u1
  have x2 := abs_le.1 x1
  have dt2 := abs_le.1 hdt
  have p1 := near_mul (a := u) (x := u) (e := 0) (by simp) hdt (M := 40) (N := 0.011) u1
    (abs_le.2 ⟨by linarith, by linarith⟩)
  have p2 := abs_le.1 p1
  obtain ⟨b, hb⟩ : ∃ b, fl64 (u * dt) = b := ⟨_, rfl⟩
  have b1 : |b - u * dt| ≤ 1 * 2e-16 := by
    rw [← hb]
    exact near64 (abs_le.2 ⟨by linarith, by linarith⟩) (by norm_num)
  have b2 := abs_le.1 b1
  have dd := near_mul hdt hdt (M := 0.01) (N := 0.011) (by norm_num [abs_of_pos])
    (abs_le.2 ⟨by linarith, by linarith⟩)
  have dd2 := abs_le.1 dd
  obtain ⟨e, he⟩ : ∃ e, fl64 (dt * dt) = e := ⟨_, rfl⟩
  have e1 : |e - dt * dt| ≤ 0.001 * 2e-16 := by
    rw [← he]
    exact near64 (abs_le.2 ⟨by linarith, by linarith⟩) (by norm_num)
  have e2 := abs_le.1 e1
  have e3 : |e - 0.0001| ≤ 1e-18 := abs_le.2 ⟨by linarith, by linarith⟩
  obtain ⟨c, hc⟩ : ∃ c, fl64 (a / 2) = c := ⟨_, rfl⟩
  have c1 : |c - a / 2| ≤ 1001 * 2e-16 := by
    rw [← hc]
    exact near64 (abs_le.2 ⟨by linarith, by linarith⟩) (by norm_num)
  have c2 := abs_le.1 c1
  have g1 := near_mul c1 e3 (M := 1001) (N := 0.001) (abs_le.2 ⟨by linarith, by linarith⟩)
    (abs_le.2 ⟨by linarith, by linarith⟩)
  have g2 := abs_le.1 g1
  rw [hb, he, hc]
  obtain ⟨g, hg⟩ : ∃ g, fl64 (c * e) = g := ⟨_, rfl⟩
  have g3 : |g - c * e| ≤ 1 * 2e-16 := by
    rw [← hg]
    exact near64 (abs_le.2 ⟨by linarith, by linarith⟩) (by norm_num)
  have g4 := abs_le.1 g3
  rw [hg]
  obtain ⟨k, hk⟩ : ∃ k, fl64 (b + g) = k := ⟨_, rfl⟩
  have k1 : |k - (b + g)| ≤ 2 * 2e-16 := by
    rw [← hk]
    exact near64 (abs_le.2 ⟨by linarith, by linarith⟩) (by norm_num)
  have k2 := abs_le.1 k1
  rw [hk]
  have s1 : |fl64 (x + k) - (x + k)| ≤ 2201 * 2e-16 :=
    near64 (abs_le.2 ⟨by linarith, by linarith⟩) (by norm_num)
  have s2 := abs_le.1 s1
  rw [abs_le]
  constructor <;> linarith

end CrowdDynamics
