import Verif.Model.RoundedContact
import Verif.Proofs.Distance
import Verif.Proofs.VectorTests
import Verif.Proofs.RoundedMotion

/-!
# Distances of bodies and walls with rounding
-/

namespace CrowdDynamics

open Spec Real

/-! ## Lengths -/

theorem abs_fst_le (v : Vec) : |v.1| ≤ length v := by
  unfold length
  exact Real.abs_le_sqrt (by nlinarith [sq_nonneg v.2])

theorem abs_snd_le (v : Vec) : |v.2| ≤ length v := by
  unfold length
  exact Real.abs_le_sqrt (by nlinarith [sq_nonneg v.1])

/-- The rounded difference of two points, and its computed length. -/
theorem length_err {A : Arith} (hr : A.rnd = fl64) (H : AccurateHypot A.hypot) (p q : Vec) :
    |lengthF A (vecSubF A.rnd p q) - length (p - q)| ≤ 8 * length (p - q) * uu + 8 * eta := by
  have hu := uu_pos
  have he := eta_pos
  rw [hr]
  have hL := length_nonneg (p - q)
  have a1 := abs_fst_le (p - q)
  have a2 := abs_snd_le (p - q)
  have e1 := fl_err_one (p.1 - q.1)
  have e2 := fl_err_one (p.2 - q.2)
  rw [Prod.fst_sub] at a1
  rw [Prod.snd_sub] at a2
  have lip := norm_pair_lip (fl64 (p.1 - q.1)) (fl64 (p.2 - q.2)) (p.1 - q.1) (p.2 - q.2)
  have near := H.near (fl64 (p.1 - q.1)) (fl64 (p.2 - q.2))
  have hD : length (p - q) = √((p.1 - q.1) ^ 2 + (p.2 - q.2) ^ 2) := rfl
  unfold lengthF vecSubF
  simp only
  rw [← hD] at lip
  obtain ⟨D, hD'⟩ : ∃ D, length (p - q) = D := ⟨_, rfl⟩
  obtain ⟨s, hs⟩ : ∃ s, √((fl64 (p.1 - q.1)) ^ 2 + (fl64 (p.2 - q.2)) ^ 2) = s := ⟨_, rfl⟩
  rw [hs] at lip near
  rw [hD'] at hL a1 a2 lip ⊢
  have h2u : (2 : ℝ) ^ (-52 : ℤ) = 2 * uu := by unfold uu; norm_num
  have h2e : (2 : ℝ) ^ (-1074 : ℤ) = 2 * eta := by
    unfold eta
    rw [show (2 : ℝ) * 2 ^ (-1075 : ℤ) = 2 ^ (1 : ℤ) * 2 ^ (-1075 : ℤ) by norm_num,
      ← zpow_add₀ (by norm_num)]
    norm_num
  rw [h2u, h2e] at near
  have b1 : |fl64 (p.1 - q.1) - (p.1 - q.1)| ≤ 2 * D * uu + 2 * eta := by
    have := mul_le_mul_of_nonneg_right a1 hu.le
    linarith
  have b2 : |fl64 (p.2 - q.2) - (p.2 - q.2)| ≤ 2 * D * uu + 2 * eta := by
    have := mul_le_mul_of_nonneg_right a2 hu.le
    linarith
  have hs1 : |s - D| ≤ 4 * D * uu + 4 * eta := by linarith
  have hs2 := (abs_le.1 hs1).2
  have hu1 : uu ≤ 1 / 16 := by unfold uu; norm_num
  have hsu : s * uu ≤ D * uu + (D * uu / 4 + eta / 4) := by
    have m1 := mul_le_mul_of_nonneg_right (show s ≤ D + (4 * D * uu + 4 * eta) by linarith) hu.le
    have m2 : (4 * D * uu + 4 * eta) * uu ≤ (4 * D * uu + 4 * eta) * (1 / 16) :=
      mul_le_mul_of_nonneg_left hu1 (by positivity)
    linarith
  have hDu : 0 ≤ D * uu := mul_nonneg hL hu.le
  calc |A.hypot (fl64 (p.1 - q.1)) (fl64 (p.2 - q.2)) - D|
      = |(A.hypot (fl64 (p.1 - q.1)) (fl64 (p.2 - q.2)) - s) + (s - D)| := by congr 1; ring
    _ ≤ (s * (2 * uu) + 2 * eta) + (4 * D * uu + 4 * eta) :=
        (abs_add_le _ _).trans (add_le_add near hs1)
    _ ≤ _ := by linarith

/-- The computed skin distance of two circles. -/
theorem circles_err {A : Arith} (hr : A.rnd = fl64) (H : AccurateHypot A.hypot) (x0 : Vec) (r0 : ℝ)
    (x1 : Vec) (r1 : ℝ) (h0 : 0 ≤ r0 + r1) :
    |(distanceCirclesF A x0 r0 x1 r1).1 - (Spec.dist x0 x1 - (r0 + r1))| ≤
      10 * (Spec.dist x0 x1 + (r0 + r1)) * uu + 12 * eta := by
  have hd : Spec.dist x0 x1 = length (x0 - x1) := rfl
  have e1 := length_err hr H x0 x1
  have e2 := fl_err_one (r0 + r1)
  rw [← hd] at e1
  have hD : 0 ≤ Spec.dist x0 x1 := by rw [hd]; exact length_nonneg _
  rw [abs_of_nonneg h0] at e2
  have e2' : |-fl64 (r0 + r1) - -(r0 + r1)| ≤ 2 * (r0 + r1) * uu + 2 * eta := by
    rw [show -fl64 (r0 + r1) - -(r0 + r1) = -(fl64 (r0 + r1) - (r0 + r1)) by ring, abs_neg]
    exact e2
  have e3 := err_add e1 e2' hD h0 (le_refl 8) (by norm_num)
  have e4 := fl_err_step (S := Spec.dist x0 x1 + (r0 + r1)) (by
    rw [abs_le]; constructor <;> linarith) e3 (by norm_num) (by norm_num)
  have e5 : (distanceCirclesF A x0 r0 x1 r1).1 =
      fl64 (lengthF A (vecSubF A.rnd x0 x1) + -fl64 (r0 + r1)) := by
    unfold distanceCirclesF
    simp only
    rw [hr, sub_eq_add_neg]
  rw [e5, show Spec.dist x0 x1 - (r0 + r1) = Spec.dist x0 x1 + -(r0 + r1) by ring]
  refine e4.trans_eq ?_
  ring

/-! ## Distance of a point and a wall -/

/-- A wall and a point in the coordinates of the wall. -/
structure WallFrame (x p0 p1 : Vec) (L s b : ℝ) (t : Vec) : Prop where
  /-- the wall has a length -/
  pos : 0 < L
  /-- its length -/
  len : length (p1 - p0) = L
  /-- its direction -/
  dir : t = ((p1 - p0).1 / L, (p1 - p0).2 / L)
  /-- a unit vector -/
  unit : t.1 ^ 2 + t.2 ^ 2 = 1
  /-- coordinate along the wall -/
  along : dot t (x - p0) = s
  /-- the same from the other end -/
  along1 : dot t (x - p1) = s - L
  /-- coordinate across the wall -/
  across : dot (rotate90 t) (x - p0) = b
  /-- distance from the start -/
  d0 : length (x - p0) = √(s ^ 2 + b ^ 2)
  /-- distance from the end -/
  d1 : length (x - p1) = √((s - L) ^ 2 + b ^ 2)
  /-- distance from a point of the wall -/
  dist : ∀ τ : ℝ, Spec.dist x (p0 + τ • (p1 - p0)) = √((s - τ * L) ^ 2 + b ^ 2)

theorem wallFrame (x p0 p1 : Vec) (hne : p0 ≠ p1) : ∃ L s b t, WallFrame x p0 p1 L s b t := by
  have hd : p1 - p0 ≠ 0 := sub_ne_zero.2 (Ne.symm hne)
  have hl := length_pos hd
  generalize hlw : length (p1 - p0) = L at hl
  set t : Vec := ((p1 - p0).1 / L, (p1 - p0).2 / L) with ht
  have htt : t.1 ^ 2 + t.2 ^ 2 = 1 := by
    have := length_sq (p1 - p0)
    rw [hlw] at this
    simp only [ht, div_pow]
    rw [← add_div, ← this, div_self (by positivity)]
  have hdt : p1 - p0 = L • t := by
    ext
    · simp only [ht, Prod.smul_fst, smul_eq_mul]; field_simp
    · simp only [ht, Prod.smul_snd, smul_eq_mul]; field_simp
  set s := dot t (x - p0) with hs
  set b := dot (rotate90 t) (x - p0) with hb
  have hq0 : x - p0 = s • t + b • rotate90 t := frame_decomp htt _
  have hx : ∀ τ : ℝ, x - (p0 + τ • (p1 - p0)) = (s - τ * L) • t + b • rotate90 t := by
    intro τ
    rw [hdt, ← sub_sub, hq0, smul_smul, sub_smul]; abel
  have hq1 : x - p1 = (s - L) • t + b • rotate90 t := by
    have := hx 1
    rw [one_smul, one_mul] at this
    rw [← this]; congr 1; abel
  refine ⟨L, s, b, t, hl, hlw, ht, htt, rfl, ?_, rfl, ?_, ?_, ?_⟩
  · rw [hq1]
    simp only [dot, rotate90, Prod.fst_add, Prod.snd_add, Prod.smul_fst, Prod.smul_snd, smul_eq_mul]
    linear_combination (s - L) * htt
  · rw [hq0, dist_frame htt]
  · rw [hq1, dist_frame htt]
  · intro τ
    unfold Spec.dist
    rw [← length_eq, hx, dist_frame htt]

theorem sqrt_le_abs_add (a b : ℝ) : √(a ^ 2 + b ^ 2) ≤ |a| + |b| := by
  rw [Real.sqrt_le_left (by positivity)]
  nlinarith [sq_abs a, sq_abs b, mul_nonneg (abs_nonneg a) (abs_nonneg b)]

theorem abs_le_sqrt_right (a b : ℝ) : |b| ≤ √(a ^ 2 + b ^ 2) :=
  Real.abs_le_sqrt (by nlinarith [sq_nonneg a])

/-- The three values that the code can take for the distance of a wall, when the branch is wrong by
at most `e`. -/
theorem wall_branch {x p0 p1 : Vec} {L s b : ℝ} {t : Vec} (F : WallFrame x p0 p1 L s b t) {e : ℝ}
    (he : 0 ≤ e) :
    (s ≤ e → (∃ q ∈ segment ℝ p0 p1, Spec.dist x q ≤ length (x - p0)) ∧
      ∀ q ∈ segment ℝ p0 p1, length (x - p0) - e ≤ Spec.dist x q) ∧
    (L - s ≤ e → (∃ q ∈ segment ℝ p0 p1, Spec.dist x q ≤ length (x - p1)) ∧
      ∀ q ∈ segment ℝ p0 p1, length (x - p1) - e ≤ Spec.dist x q) ∧
    (-s ≤ e → s - L ≤ e → (∃ q ∈ segment ℝ p0 p1, Spec.dist x q ≤ |b| + e) ∧
      ∀ q ∈ segment ℝ p0 p1, |b| ≤ Spec.dist x q) := by
  have hL := F.pos
  refine ⟨fun h => ⟨⟨p0, left_mem_segment ℝ _ _, le_rfl⟩, fun q hq => ?_⟩,
    fun h => ⟨⟨p1, right_mem_segment ℝ _ _, le_rfl⟩, fun q hq => ?_⟩, fun h1 h2 => ⟨?_, fun q hq => ?_⟩⟩
  · rw [mem_segment_iff] at hq
    obtain ⟨τ, t0, t1, rfl⟩ := hq
    rw [F.dist, F.d0]
    rcases le_or_gt s 0 with hs | hs
    · have : √(s ^ 2 + b ^ 2) ≤ √((s - τ * L) ^ 2 + b ^ 2) := by
        apply Real.sqrt_le_sqrt
        have : 0 ≤ τ * L := mul_nonneg t0 hL.le
        nlinarith
      linarith
    · have h3 := sqrt_le_abs_add s b
      have h4 := abs_le_sqrt_right (s - τ * L) b
      rw [abs_of_pos hs] at h3
      linarith
  · rw [mem_segment_iff] at hq
    obtain ⟨τ, t0, t1, rfl⟩ := hq
    rw [F.dist, F.d1]
    rcases le_or_gt L s with hs | hs
    · have : √((s - L) ^ 2 + b ^ 2) ≤ √((s - τ * L) ^ 2 + b ^ 2) := by
        apply Real.sqrt_le_sqrt
        have : τ * L ≤ L := by nlinarith
        nlinarith
      linarith
    · have h3 := sqrt_le_abs_add (s - L) b
      have h4 := abs_le_sqrt_right (s - τ * L) b
      rw [abs_of_neg (by linarith)] at h3
      linarith
  · rcases le_or_gt s 0 with hs | hs
    · refine ⟨p0, left_mem_segment ℝ _ _, ?_⟩
      have h3 := sqrt_le_abs_add s b
      rw [abs_of_nonpos hs] at h3
      have := F.d0
      change length (x - p0) ≤ _
      linarith
    · rcases le_or_gt s L with hs' | hs'
      · refine ⟨p0 + (s / L) • (p1 - p0), ?_, ?_⟩
        · rw [mem_segment_iff]
          exact ⟨s / L, by positivity, by rw [div_le_one hL]; exact hs', rfl⟩
        · rw [F.dist, div_mul_cancel₀ _ hL.ne', sub_self]
          have := sqrt_le_abs_add 0 b
          rw [abs_zero] at this
          linarith
      · refine ⟨p1, right_mem_segment ℝ _ _, ?_⟩
        have h3 := sqrt_le_abs_add (s - L) b
        rw [abs_of_pos (by linarith)] at h3
        have := F.d1
        change length (x - p1) ≤ _
        linarith
  · rw [mem_segment_iff] at hq
    obtain ⟨τ, t0, t1, rfl⟩ := hq
    rw [F.dist]
    exact abs_le_sqrt_right _ _

theorem eta_le_uu {L : ℝ} (hL : (2 : ℝ) ^ (-500 : ℤ) ≤ L) : eta ≤ L * uu / 1024 := by
  have h : eta ≤ 2 ^ (-500 : ℤ) * uu / 1024 := by
    unfold eta uu
    rw [← zpow_add₀ (by norm_num), div_eq_mul_inv,
      show (1024 : ℝ)⁻¹ = 2 ^ (-10 : ℤ) by norm_num, ← zpow_add₀ (by norm_num)]
    exact zpow_le_zpow_right₀ (by norm_num) (by norm_num)
  refine h.trans ?_
  have := mul_le_mul_of_nonneg_right hL uu_pos.le
  linarith

/-- One coordinate of the computed direction of a wall. -/
theorem dir_err {a a' L l : ℝ} (hL : (2 : ℝ) ^ (-500 : ℤ) ≤ L) (ha : |a| ≤ L)
    (h1 : |a' - a| ≤ 2 * L * uu + 2 * eta) (h2 : |l - L| ≤ 8 * L * uu + 8 * eta) :
    |fl64 (a' / l) - a / L| ≤ 16 * uu := by
  have hu := uu_pos
  have he := eta_pos
  have hL0 : 0 < L := (two_zpow_pos _).trans_le hL
  have hel := eta_le_uu hL
  have hu1 : uu ≤ 1 / 2 ^ 40 := by unfold uu; norm_num
  have hLu : 0 < L * uu := mul_pos hL0 hu
  have h2' : |l - L| ≤ 9 * (L * uu) := by linarith
  have h1' : |a' - a| ≤ 3 * (L * uu) := by linarith
  have hl : L * (1 - 9 * uu) ≤ l := by have := (abs_le.1 h2').1; linarith
  have hl0 : 0 < l := by
    refine lt_of_lt_of_le (mul_pos hL0 ?_) hl
    norm_num at hu1 ⊢; linarith
  have key : |a' / l - a / L| ≤ 13 * 1 * uu + 0 * eta := by
    rw [show a' / l - a / L = ((a' - a) * L - a * (l - L)) / (l * L) by field_simp; ring, abs_div,
      abs_of_pos (mul_pos hl0 hL0), div_le_iff₀ (mul_pos hl0 hL0)]
    have b1 : |(a' - a) * L - a * (l - L)| ≤ 3 * (L * uu) * L + L * (9 * (L * uu)) := by
      refine (abs_sub _ _).trans ?_
      rw [abs_mul, abs_mul, abs_of_pos hL0]
      exact add_le_add (mul_le_mul_of_nonneg_right h1' hL0.le)
        (mul_le_mul ha h2' (abs_nonneg _) hL0.le)
    refine b1.trans ?_
    have b2 : 12 ≤ 13 * (1 - 9 * uu) := by norm_num at hu1 ⊢; linarith
    have b3 := mul_le_mul_of_nonneg_right hl (mul_pos hL0 hu).le
    have b4 := mul_le_mul_of_nonneg_right b2 (mul_pos (mul_pos hL0 hL0) hu).le
    linarith
  have hY : |a / L| ≤ 1 := by
    rw [abs_div, abs_of_pos hL0, div_le_one hL0]; exact ha
  have := fl_err_step hY key (by norm_num) (by norm_num)
  have he2 : eta ≤ uu / 1024 := by
    unfold eta uu
    rw [div_eq_mul_inv, show (1024 : ℝ)⁻¹ = 2 ^ (-10 : ℤ) by norm_num, ← zpow_add₀ (by norm_num)]
    exact zpow_le_zpow_right₀ (by norm_num) (by norm_num)
  linarith

/-- One product of a computed direction and a computed difference. -/
theorem prod_err {t t' q q' : ℝ} (ht : |t| ≤ 1) (h1 : |t' - t| ≤ 16 * uu)
    (h2 : |q' - q| ≤ 2 * |q| * uu + 2 * eta) :
    |fl64 (t' * q') - t * q| ≤ 21 * |q| * uu + 5 * eta := by
  have hu := uu_pos
  have he := eta_pos
  have hu1 : uu ≤ 1 / 1024 := by unfold uu; norm_num
  have hqu : 0 ≤ |q| * uu := mul_nonneg (abs_nonneg _) hu.le
  have key : |t' * q' - t * q| ≤ 19 * |q| * uu + 3 * eta := by
    have hq' : |q'| ≤ |q| + (2 * |q| * uu + 2 * eta) := by
      calc |q'| = |q + (q' - q)| := by congr 1; ring
        _ ≤ _ := (abs_add_le _ _).trans (add_le_add le_rfl h2)
    calc |t' * q' - t * q| = |(t' - t) * q' + t * (q' - q)| := by congr 1; ring
      _ ≤ 16 * uu * (|q| + (2 * |q| * uu + 2 * eta)) + 1 * (2 * |q| * uu + 2 * eta) := by
          refine (abs_add_le _ _).trans ?_
          rw [abs_mul, abs_mul]
          exact add_le_add (mul_le_mul h1 hq' (abs_nonneg _) (by positivity))
            (mul_le_mul ht h2 (abs_nonneg _) zero_le_one)
      _ ≤ _ := by
          have m1 := mul_le_mul_of_nonneg_right hu1 hqu
          have m2 := mul_le_mul_of_nonneg_right hu1 he.le
          linarith
  have hY : |t * q| ≤ |q| := by
    rw [abs_mul]
    calc |t| * |q| ≤ 1 * |q| := mul_le_mul_of_nonneg_right ht (abs_nonneg _)
      _ = _ := one_mul _
  have := fl_err_step hY key (by norm_num) (by norm_num)
  norm_num at this ⊢
  exact this

/-- The computed component of a difference in a computed direction. -/
theorem dot_err {t t' : Vec} {x p : Vec} (ht1 : |t.1| ≤ 1) (ht2 : |t.2| ≤ 1)
    (h1 : |t'.1 - t.1| ≤ 16 * uu) (h2 : |t'.2 - t.2| ≤ 16 * uu) :
    |dotF fl64 t' (vecSubF fl64 x p) - dot t (x - p)| ≤
      46 * length (x - p) * uu + 12 * eta := by
  have hu := uu_pos
  have e1 := prod_err ht1 h1 (fl_err_one (x.1 - p.1))
  have e2 := prod_err ht2 h2 (fl_err_one (x.2 - p.2))
  have e3 := err_add e1 e2 (abs_nonneg _) (abs_nonneg _) (le_refl 21) le_rfl
  have a1 := abs_fst_le (x - p)
  have a2 := abs_snd_le (x - p)
  rw [Prod.fst_sub] at a1
  rw [Prod.snd_sub] at a2
  have hY : |t.1 * (x.1 - p.1) + t.2 * (x.2 - p.2)| ≤ |x.1 - p.1| + |x.2 - p.2| := by
    refine (abs_add_le _ _).trans ?_
    rw [abs_mul, abs_mul]
    refine add_le_add ?_ ?_
    · calc _ ≤ 1 * |x.1 - p.1| := mul_le_mul_of_nonneg_right ht1 (abs_nonneg _)
        _ = _ := one_mul _
    · calc _ ≤ 1 * |x.2 - p.2| := mul_le_mul_of_nonneg_right ht2 (abs_nonneg _)
        _ = _ := one_mul _
  have e4 := fl_err_step hY e3 (by norm_num) (by norm_num)
  have m := mul_le_mul_of_nonneg_right (add_le_add a1 a2) hu.le
  unfold dotF vecSubF dot
  simp only [Prod.fst_sub, Prod.snd_sub]
  refine e4.trans ?_
  linarith

/-- The computed distance of a circle and a wall. -/
theorem wall_err {A : Arith} (hr : A.rnd = fl64) (H : AccurateHypot A.hypot) (x : Vec) (r : ℝ)
    (p0 p1 : Vec) (hr0 : 0 ≤ r) (hL : (2 : ℝ) ^ (-500 : ℤ) ≤ length (p1 - p0)) :
    ∃ h n, distanceCircleLineF A x r p0 p1 = some (h, n) ∧
      (∃ q ∈ segment ℝ p0 p1, Spec.dist x q ≤ h + r +
        (76 * (length (x - p0) + length (x - p1) + r) * uu + 31 * eta)) ∧
      ∀ q ∈ segment ℝ p0 p1, h + r ≤ Spec.dist x q +
        (76 * (length (x - p0) + length (x - p1) + r) * uu + 31 * eta) := by
  have hu := uu_pos
  have he := eta_pos
  have hLpos : 0 < length (p1 - p0) := (two_zpow_pos _).trans_le hL
  have hne : p0 ≠ p1 := by
    rintro rfl
    rw [sub_self] at hLpos
    exact absurd (length_eq_zero.2 rfl) hLpos.ne'
  obtain ⟨L, s, b, t, F⟩ := wallFrame x p0 p1 hne
  have hl := length_err hr H p1 p0
  have hq0 := length_err hr H x p0
  have hq1 := length_err hr H x p1
  have ha1 := abs_fst_le (p1 - p0)
  have ha2 := abs_snd_le (p1 - p0)
  have e1 := fl_err_one (p1.1 - p0.1)
  have e2 := fl_err_one (p1.2 - p0.2)
  rw [F.len] at hl ha1 ha2 hL
  have hL0 := F.pos
  rw [Prod.fst_sub] at ha1
  rw [Prod.snd_sub] at ha2
  have e1' : |fl64 (p1.1 - p0.1) - (p1.1 - p0.1)| ≤ 2 * L * uu + 2 * eta := by
    have := mul_le_mul_of_nonneg_right ha1 hu.le
    linarith
  have e2' : |fl64 (p1.2 - p0.2) - (p1.2 - p0.2)| ≤ 2 * L * uu + 2 * eta := by
    have := mul_le_mul_of_nonneg_right ha2 hu.le
    linarith
  obtain ⟨lw, hlw⟩ : ∃ lw, lengthF A (vecSubF A.rnd p1 p0) = lw := ⟨_, rfl⟩
  rw [hlw] at hl
  have t1 : |fl64 (fl64 (p1.1 - p0.1) / lw) - t.1| ≤ 16 * uu := by
    rw [F.dir]; exact dir_err hL ha1 e1' hl
  have t2 : |fl64 (fl64 (p1.2 - p0.2) / lw) - t.2| ≤ 16 * uu := by
    rw [F.dir]; exact dir_err hL ha2 e2' hl
  have ht1 : |t.1| ≤ 1 := by
    rw [abs_le]; have := F.unit; constructor <;> nlinarith [sq_nonneg t.2]
  have ht2 : |t.2| ≤ 1 := by
    rw [abs_le]; have := F.unit; constructor <;> nlinarith [sq_nonneg t.1]
  have hlw0 : lw ≠ 0 := by
    intro h0
    rw [h0, zero_sub, abs_neg, abs_of_pos hL0] at hl
    have hel := eta_le_uu hL
    have : L * uu ≤ L * (1 / 1024) := mul_le_mul_of_nonneg_left (by unfold uu; norm_num) hL0.le
    linarith
  obtain ⟨tw, htw⟩ : ∃ tw : Vec, (fl64 (fl64 (p1.1 - p0.1) / lw), fl64 (fl64 (p1.2 - p0.2) / lw)) = tw :=
    ⟨_, rfl⟩
  have t1' : |tw.1 - t.1| ≤ 16 * uu := by rw [← htw]; exact t1
  have t2' : |tw.2 - t.2| ≤ 16 * uu := by rw [← htw]; exact t2
  have s0 := dot_err (x := x) (p := p0) ht1 ht2 t1' t2'
  have s1 := dot_err (x := x) (p := p1) ht1 ht2 t1' t2'
  have sb := dot_err (t := rotate90 t) (t' := rotate90 tw) (x := x) (p := p0)
    (by simp only [rotate90, abs_neg]; exact ht2) (by simp only [rotate90]; exact ht1)
    (by
      simp only [rotate90]
      rw [show -tw.2 - -t.2 = -(tw.2 - t.2) by ring, abs_neg]; exact t2')
    (by simp only [rotate90]; exact t1')
  rw [F.along] at s0
  rw [F.along1] at s1
  rw [F.across] at sb
  obtain ⟨lt, hlt⟩ : ∃ lt, fl64 (-dotF fl64 tw (vecSubF fl64 x p1) -
    dotF fl64 tw (vecSubF fl64 x p0)) = lt := ⟨_, rfl⟩
  have hmod : ∃ d n, distanceCircleLineF A x r p0 p1 = some (fl64 (d - r), n) ∧
      ((lt > lw ∧ d = lengthF A (vecSubF A.rnd x p0)) ∨
        (lt < -lw ∧ d = lengthF A (vecSubF A.rnd x p1)) ∨
        (¬ lt > lw ∧ ¬ lt < -lw ∧ d = |dotF fl64 (rotate90 tw) (vecSubF fl64 x p0)|)) := by
    have htw' : ((A.rnd ((vecSubF A.rnd p1 p0).1 / lw), A.rnd ((vecSubF A.rnd p1 p0).2 / lw)) : Vec) =
        tw := by rw [hr, ← htw]; rfl
    have hlt' : A.rnd (-dotF A.rnd tw (vecSubF A.rnd x p1) - dotF A.rnd tw (vecSubF A.rnd x p0)) =
        lt := by rw [hr]; exact hlt
    unfold distanceCircleLineF
    simp only [hlw, if_neg hlw0, htw', hlt']
    by_cases c1 : lt > lw
    · simp only [if_pos c1]
      rw [hr]
      exact ⟨_, _, rfl, Or.inl ⟨c1, rfl⟩⟩
    · by_cases c2 : lt < -lw
      · simp only [if_neg c1, if_pos c2]
        rw [hr]
        exact ⟨_, _, rfl, Or.inr (Or.inl ⟨c2, rfl⟩)⟩
      · simp only [if_neg c1, if_neg c2]
        rw [hr]
        exact ⟨_, _, rfl, Or.inr (Or.inr ⟨c1, c2, rfl⟩)⟩
  have hQ0 := length_nonneg (x - p0)
  have hQ1 := length_nonneg (x - p1)
  have hLQ : L ≤ length (x - p0) + length (x - p1) := by
    rw [← F.len, show p1 - p0 = (x - p0) + -(x - p1) by abel, ← length_neg (x - p1)]
    exact length_add_le _ _
  have hsQ : |s| ≤ length (x - p0) := by
    rw [F.d0]; exact Real.abs_le_sqrt (by nlinarith [sq_nonneg b])
  have hsQ1 : |s - L| ≤ length (x - p1) := by
    rw [F.d1]; exact Real.abs_le_sqrt (by nlinarith [sq_nonneg b])
  have hbQ : |b| ≤ length (x - p0) := by
    rw [F.d0]; exact abs_le_sqrt_right _ _
  obtain ⟨Q0, hQ0'⟩ : ∃ Q, length (x - p0) = Q := ⟨_, rfl⟩
  obtain ⟨Q1, hQ1'⟩ : ∃ Q, length (x - p1) = Q := ⟨_, rfl⟩
  have hlterr : |lt - (L - 2 * s)| ≤ 48 * (Q1 + Q0) * uu + 26 * eta := by
    have s1' : |-dotF fl64 tw (vecSubF fl64 x p1) - -(s - L)| ≤ 46 * Q1 * uu + 12 * eta := by
      rw [← hQ1', show ∀ y : ℝ, -y - -(s - L) = -(y - (s - L)) by intro y; ring, abs_neg]; exact s1
    have s0' : |-dotF fl64 tw (vecSubF fl64 x p0) - -s| ≤ 46 * Q0 * uu + 12 * eta := by
      rw [← hQ0', show ∀ y : ℝ, -y - -s = -(y - s) by intro y; ring, abs_neg]; exact s0
    rw [hQ0'] at hQ0 hsQ
    rw [hQ1'] at hQ1 hsQ1
    have c := err_add s1' s0' hQ1 hQ0 (le_refl 46) le_rfl
    have d := fl_err_step (S := Q1 + Q0) ((abs_add_le _ _).trans
      (add_le_add (by rw [abs_neg]; exact hsQ1) (by rw [abs_neg]; exact hsQ))) c (by norm_num)
      (by norm_num)
    rw [← sub_eq_add_neg, hlt] at d
    rw [show L - 2 * s = -(s - L) + -s by ring]
    refine d.trans_eq ?_
    ring
  rw [hQ0'] at hQ0 hq0 hLQ hsQ hbQ sb
  rw [hQ1'] at hQ1 hq1 hLQ
  have hLu := mul_le_mul_of_nonneg_right hLQ hu.le
  have hlt2 := abs_le.1 hlterr
  have hl2 := abs_le.1 hl
  have hE0 : 0 ≤ 28 * (Q0 + Q1) * uu + 17 * eta := by positivity
  obtain ⟨W1, W2, W3⟩ := wall_branch F hE0
  have hQu0 : 0 ≤ Q0 * uu := mul_nonneg hQ0 hu.le
  have hQu1 : 0 ≤ Q1 * uu := mul_nonneg hQ1 hu.le
  obtain ⟨d, n, hd, hcase⟩ := hmod
  -- the distance before the radius is subtracted
  have hD : ∃ D, |d - D| ≤ 46 * (Q0 + Q1) * uu + 12 * eta ∧ |D| ≤ Q0 + Q1 ∧
      (∃ q ∈ segment ℝ p0 p1, Spec.dist x q ≤ D + (28 * (Q0 + Q1) * uu + 17 * eta)) ∧
      ∀ q ∈ segment ℝ p0 p1, D - (28 * (Q0 + Q1) * uu + 17 * eta) ≤ Spec.dist x q := by
    rcases hcase with ⟨c, rfl⟩ | ⟨c, rfl⟩ | ⟨c1, c2, rfl⟩
    · obtain ⟨⟨q, hq, h1⟩, h2⟩ := W1 (by linarith)
      rw [hQ0'] at h1 h2
      exact ⟨Q0, hq0.trans (by linarith), by rw [abs_of_nonneg hQ0]; linarith, ⟨q, hq, by linarith⟩,
        h2⟩
    · obtain ⟨⟨q, hq, h1⟩, h2⟩ := W2 (by linarith)
      rw [hQ1'] at h1 h2
      exact ⟨Q1, hq1.trans (by linarith), by rw [abs_of_nonneg hQ1]; linarith, ⟨q, hq, by linarith⟩,
        h2⟩
    · obtain ⟨⟨q, hq, h1⟩, h2⟩ := W3 (by linarith) (by linarith)
      refine ⟨|b|, ?_, by rw [abs_abs]; linarith, ⟨q, hq, h1⟩, fun q' hq' => by
        have := h2 q' hq'
        linarith⟩
      exact (abs_abs_sub_abs_le _ _).trans (sb.trans (by linarith))
  obtain ⟨D, hdD, hDQ, ⟨q, hq, hqD⟩, hall⟩ := hD
  have hfin : |fl64 (d - r) - (D - r)| ≤ 48 * (Q0 + Q1 + r) * uu + 14 * eta := by
    have c := err_add hdD (show |-r - -r| ≤ 0 * r * uu + 0 * eta by simp) (by positivity) hr0
      (le_refl 46) (by norm_num)
    have e := fl_err_step (S := Q0 + Q1 + r) ((abs_add_le _ _).trans
      (add_le_add hDQ (by rw [abs_neg, abs_of_nonneg hr0]))) c (by norm_num) (by norm_num)
    rw [← sub_eq_add_neg, ← sub_eq_add_neg] at e
    refine e.trans_eq ?_
    ring
  rw [hQ0', hQ1']
  have hfin2 := abs_le.1 hfin
  have hru : 0 ≤ r * uu := mul_nonneg hr0 hu.le
  refine ⟨_, n, hd, ⟨q, hq, by linarith⟩, fun q' hq' => ?_⟩
  have := hall q' hq'
  linarith

/-! ## Three circles -/

/-- The search over the nine pairs finds the least of the computed distances. -/
theorem three_min (A : Arith) (x0 : Fin 3 → Vec) (r0 : Fin 3 → ℝ) (x1 : Fin 3 → Vec) (r1 : Fin 3 → ℝ) :
    ∃ i j, (distanceThreeCirclesF A x0 r0 x1 r1).h =
        (distanceCirclesF A (x0 i) (r0 i) (x1 j) (r1 j)).1 ∧
      ∀ i' j', (distanceThreeCirclesF A x0 r0 x1 r1).h ≤
        (distanceCirclesF A (x0 i') (r0 i') (x1 j') (r1 j')).1 := by
  obtain ⟨h1, h2, -, h4⟩ := minStep_fold
    (fun k : Fin 3 × Fin 3 => distanceCirclesF A (x0 k.1) (r0 k.1) (x1 k.2) (r1 k.2))
    pairs33 pairs33_ne_nil (0, 0) (0, 0)
  unfold distanceThreeCirclesF
  simp only
  generalize pairs33.foldl (minStep fun k : Fin 3 × Fin 3 =>
    distanceCirclesF A (x0 k.1) (r0 k.1) (x1 k.2) (r1 k.2)) ⟨none, (0, 0), (0, 0)⟩ = s at *
  refine ⟨s.i.1, s.i.2, by rw [h1]; rfl, fun i' j' => ?_⟩
  rw [h1]
  exact h4 (i', j') (mem_pairs33 _)

/-! ## An agent on the end of a wall -/

/-- The wall from `(0, 0)` to `(2, 3)` and an agent on its first end. -/
theorem wall_nan : distanceCircleLineF Arith.machine (0, 0) 1 (0, 0) (2, 3) = some (-1, none) := by
  have b2 : fl64 2 = 2 := by exact_mod_cast fl64_int (n := 2) (by norm_num)
  have b3 : fl64 3 = 3 := by exact_mod_cast fl64_int (n := 3) (by norm_num)
  have bm1 : fl64 (-1) = -1 := by rw [fl64_neg, fl64_one]
  have hl : fl64 (√(2 ^ 2 + 3 ^ 2)) = 8118979690322419 * 2 ^ (-51 : ℤ) := by
    have h1 : (8118979690322419 - 1 / 2) * 2 ^ (-51 : ℤ) < √((2 : ℝ) ^ 2 + 3 ^ 2) := by
      apply Real.lt_sqrt_of_sq_lt; norm_num
    have h2 : √((2 : ℝ) ^ 2 + 3 ^ 2) < (8118979690322419 + 1 / 2) * 2 ^ (-51 : ℤ) := by
      rw [Real.sqrt_lt' (by norm_num)]; norm_num
    have := fl64_eq_of_near (x := √((2 : ℝ) ^ 2 + 3 ^ 2)) (m := 8118979690322419) (e := -51) (by
      rw [abs_of_nonneg (Real.sqrt_nonneg _)]; refine le_trans ?_ h1.le; norm_num) (by
      rw [abs_of_nonneg (Real.sqrt_nonneg _)]; refine h2.trans_le ?_; norm_num) (by norm_num) (by
      have hp : (0 : ℝ) < 2 ^ (-51 : ℤ) := two_zpow_pos _
      rw [← div_lt_iff₀ hp] at h2
      rw [← lt_div_iff₀ hp] at h1
      rw [abs_lt]
      push_cast
      constructor <;> linarith)
    rw [this]; norm_num
  have t1 : fl64 (2 / (8118979690322419 * 2 ^ (-51 : ℤ))) = 4996295194044566 * 2 ^ (-53 : ℤ) := by
    have := fl64_eq_of_near (x := 2 / (8118979690322419 * 2 ^ (-51 : ℤ))) (m := 4996295194044566)
      (e := -53) (by
      rw [abs_of_pos (by norm_num)]; norm_num) (by
      rw [abs_of_pos (by norm_num)]; norm_num) (by norm_num) (by
      rw [abs_lt]; constructor <;> norm_num)
    rw [this]; norm_num
  have t2 : fl64 (3 / (8118979690322419 * 2 ^ (-51 : ℤ))) = 7494442791066849 * 2 ^ (-53 : ℤ) := by
    have := fl64_eq_of_near (x := 3 / (8118979690322419 * 2 ^ (-51 : ℤ))) (m := 7494442791066849)
      (e := -53) (by
      rw [abs_of_pos (by norm_num)]; norm_num) (by
      rw [abs_of_pos (by norm_num)]; norm_num) (by norm_num) (by
      rw [abs_lt]; constructor <;> norm_num)
    rw [this]; norm_num
  have d1 : fl64 (4996295194044566 * 2 ^ (-53 : ℤ) * -2) = -(4996295194044566 * 2 ^ (-52 : ℤ)) := by
    rw [show (4996295194044566 : ℝ) * 2 ^ (-53 : ℤ) * -2 = -(4996295194044566 * 2 ^ (-52 : ℤ)) by
      norm_num, fl64_neg]
    congr 1
    exact_mod_cast fl64_of_mul (m := 4996295194044566) (e := -52) (by norm_num) (by norm_num)
  have d2 : fl64 (7494442791066849 * 2 ^ (-53 : ℤ) * -3) = -(5620832093300137 * 2 ^ (-51 : ℤ)) := by
    rw [mul_neg, fl64_neg]
    have := fl64_eq_of_near (x := 7494442791066849 * 2 ^ (-53 : ℤ) * 3) (m := 5620832093300137)
      (e := -51) (by
      rw [abs_of_pos (by norm_num)]; norm_num) (by
      rw [abs_of_pos (by norm_num)]; norm_num) (by norm_num) (by
      rw [abs_lt]; constructor <;> norm_num)
    rw [this]; norm_num
  have d3 : fl64 (-(4996295194044566 * 2 ^ (-52 : ℤ)) + -(5620832093300137 * 2 ^ (-51 : ℤ))) =
      -(8118979690322420 * 2 ^ (-51 : ℤ)) := by
    rw [← neg_add, fl64_neg]
    have := fl64_eq_of_near (x := 4996295194044566 * 2 ^ (-52 : ℤ) + 5620832093300137 * 2 ^ (-51 : ℤ))
      (m := 8118979690322420) (e := -51) (by
      rw [abs_of_pos (by norm_num)]; norm_num) (by
      rw [abs_of_pos (by norm_num)]; norm_num) (by norm_num) (by
      rw [abs_lt]; constructor <;> norm_num)
    rw [this]; norm_num
  have d4 : fl64 (8118979690322420 * 2 ^ (-51 : ℤ)) = 8118979690322420 * 2 ^ (-51 : ℤ) := by
    exact_mod_cast fl64_of_mul (m := 8118979690322420) (e := -51) (by norm_num) (by norm_num)
  unfold distanceCircleLineF lengthF vecSubF dotF unitF rotate90 Arith.machine
  simp only [sub_zero, zero_sub, b2, b3, hl, t1, t2, fl64_neg, fl64_zero, mul_zero, add_zero, d1, d2,
    d3, neg_neg, d4]
  rw [if_neg (by norm_num), if_pos (by norm_num)]
  norm_num [fl64_zero, fl64_one, fl64_neg]

/-! ## Without rounding -/

theorem wall_exact (x : Vec) (r : ℝ) (p0 p1 : Vec) :
    distanceCircleLineF Arith.exact x r p0 p1 =
      (distanceCircleLine x r p0 p1).map fun hn => (hn.1, some hn.2) := by
  have hv : ∀ u v, vecSubF Arith.exact.rnd u v = u - v := fun _ _ => rfl
  have hL : ∀ u, lengthF Arith.exact u = length u := fun _ => rfl
  have hd : ∀ u v, dotF Arith.exact.rnd u v = dot u v := fun _ _ => rfl
  have hi : ∀ u, Arith.exact.rnd u = u := fun _ => rfl
  unfold distanceCircleLineF distanceCircleLine
  simp only [hv, hL, hd, hi]
  by_cases h0 : length (p1 - p0) = 0
  · simp only [if_pos h0, Option.map_none]
  · have hne : p0 ≠ p1 := by
      rintro rfl
      exact h0 (by rw [sub_self]; exact length_eq_zero.2 rfl)
    obtain ⟨L, s, b, t, F⟩ := wallFrame x p0 p1 hne
    simp only [if_neg h0, Option.map_some]
    rw [F.len, ← F.dir, F.along, F.along1]
    by_cases c1 : -(s - L) - s > L
    · have hq : length (x - p0) ≠ 0 := by
        intro h
        have : |s| ≤ 0 := by rw [← h, F.d0]; exact Real.abs_le_sqrt (by nlinarith [sq_nonneg b])
        have := abs_nonpos_iff.1 this
        linarith
      simp only [if_pos c1, unitF, if_neg hq, hi]
    · by_cases c2 : -(s - L) - s < -L
      · have hq : length (x - p1) ≠ 0 := by
          intro h
          have : |s - L| ≤ 0 := by
            rw [← h, F.d1]; exact Real.abs_le_sqrt (by nlinarith [sq_nonneg b])
          have := abs_nonpos_iff.1 this
          linarith
        simp only [if_neg c1, if_pos c2, unitF, if_neg hq, hi]
      · simp only [if_neg c1, if_neg c2]

end CrowdDynamics
