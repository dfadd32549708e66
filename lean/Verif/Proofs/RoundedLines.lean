import Verif.Proofs.RoundedTotal
import Verif.Proofs.Motion
import Verif.Proofs.Geom2D

/-!
# Lemmas on intersections and clocks in floating point
-/

namespace CrowdDynamics

open Spec

theorem lineIntersectF_id (x0 x1 y0 y1 : Vec) :
    lineIntersectF id x0 x1 y0 y1 = lineIntersect x0 x1 y0 y1 := rfl

/-- Rounding a quotient of two integers below `2^51` keeps it on the same side of `0` and `1`. -/
theorem fl64_quot {a b : ℤ} (hb : b ≠ 0) (hb' : |b| ≤ 2 ^ 51) :
    (0 ≤ fl64 ((a : ℝ) / b) ↔ 0 ≤ (a : ℝ) / b) ∧ (fl64 ((a : ℝ) / b) ≤ 1 ↔ (a : ℝ) / b ≤ 1) := by
  have h1 : fl64 1 = 1 := by have := fl64_int (n := 1) (by norm_num); simpa using this
  have hbpos : (0 : ℝ) < |(b : ℝ)| := abs_pos.mpr (by exact_mod_cast hb)
  have hb2 : |(b : ℝ)| ≤ 2 ^ 51 := by exact_mod_cast hb'
  -- a nonzero multiple of `1/|b|` is at least `2^-51`
  have hgap : ∀ k : ℤ, 0 < k → (2 : ℝ) ^ (-51 : ℤ) ≤ k / |(b : ℝ)| := by
    intro k hk
    have hk1 : (1 : ℝ) ≤ k := by exact_mod_cast hk
    rw [le_div_iff₀ hbpos]
    calc (2 : ℝ) ^ (-51 : ℤ) * |(b : ℝ)| ≤ 2 ^ (-51 : ℤ) * 2 ^ 51 := by gcongr
      _ = 1 := by norm_num
      _ ≤ k := hk1
  -- write the quotient with a positive denominator
  obtain ⟨c, hc⟩ : ∃ c : ℤ, (a : ℝ) / b = c / |(b : ℝ)| := by
    rcases lt_or_gt_of_ne hb with h | h
    · refine ⟨-a, ?_⟩
      have : (b : ℝ) < 0 := by exact_mod_cast h
      rw [abs_of_neg this]; push_cast; rw [neg_div_neg_eq]
    · refine ⟨a, ?_⟩
      have : (0 : ℝ) < b := by exact_mod_cast h
      rw [abs_of_pos this]
  rw [hc]
  constructor
  · constructor
    · intro h
      by_contra hneg
      push Not at hneg
      have hc0 : c < 0 := by
        by_contra hcc
        push Not at hcc
        have : (0 : ℝ) ≤ c / |(b : ℝ)| := div_nonneg (by exact_mod_cast hcc) hbpos.le
        linarith
      have := hgap (-c) (by omega)
      have hle : (c : ℝ) / |(b : ℝ)| ≤ -(2 : ℝ) ^ (-51 : ℤ) := by
        push_cast at this; rw [neg_div] at this; linarith
      have h2 := fl64_mono hle
      rw [fl64_neg, fl64_two_zpow (by norm_num)] at h2
      have := two_zpow_pos (-51)
      linarith
    · intro h
      have := fl64_mono h
      rwa [fl64_zero] at this
  · constructor
    · intro h
      by_contra hgt
      push Not at hgt
      have hbi : ((|b| : ℤ) : ℝ) = |(b : ℝ)| := by push_cast; rfl
      have hc1 : |b| < c := by
        rw [lt_div_iff₀ hbpos, one_mul, ← hbi] at hgt
        exact_mod_cast hgt
      have := hgap (c - |b|) (by omega)
      have hge : (1 : ℝ) + 2 ^ (-51 : ℤ) ≤ c / |(b : ℝ)| := by
        push_cast at this
        rw [sub_div, div_self hbpos.ne'] at this
        linarith
      have h2 := fl64_mono hge
      have h3 : fl64 (1 + (2 : ℝ) ^ (-51 : ℤ)) = 1 + 2 ^ (-51 : ℤ) := by
        have := fl64_of_mul (m := 2251799813685249) (e := -51) (by norm_num) (by norm_num)
        norm_num at this ⊢; exact this
      rw [h3] at h2
      have := two_zpow_pos (-51)
      linarith
    · intro h
      have := fl64_mono h
      rwa [h1] at this

theorem vecSubF_grid {g : ℤ} (hg : -1074 ≤ g) {a b c d : ℤ} (ha : |a| ≤ 2 ^ 24) (hb : |b| ≤ 2 ^ 24)
    (hc : |c| ≤ 2 ^ 24) (hd : |d| ≤ 2 ^ 24) :
    vecSubF fl64 (a * (2 : ℝ) ^ g, b * (2 : ℝ) ^ g) (c * (2 : ℝ) ^ g, d * (2 : ℝ) ^ g) =
      ((a - c : ℤ) * (2 : ℝ) ^ g, (b - d : ℤ) * (2 : ℝ) ^ g) := by
  unfold vecSubF
  rw [abs_le] at ha hb hc hd
  have e1 : a * (2 : ℝ) ^ g - c * (2 : ℝ) ^ g = (a - c : ℤ) * (2 : ℝ) ^ g := by push_cast; ring
  have e2 : b * (2 : ℝ) ^ g - d * (2 : ℝ) ^ g = (b - d : ℤ) * (2 : ℝ) ^ g := by push_cast; ring
  simp only [e1, e2]
  rw [fl64_of_mul (by rw [abs_lt]; constructor <;> linarith [ha.1]) hg,
    fl64_of_mul (by rw [abs_lt]; constructor <;> linarith [ha.1]) hg]

theorem cross_grid {g : ℤ} (hg : -537 ≤ g) {a b c d : ℤ} (ha : |a| ≤ 2 ^ 25) (hb : |b| ≤ 2 ^ 25)
    (hc : |c| ≤ 2 ^ 25) (hd : |d| ≤ 2 ^ 25) :
    fl64 (fl64 (a * (2 : ℝ) ^ g * (d * (2 : ℝ) ^ g)) - fl64 (b * (2 : ℝ) ^ g * (c * (2 : ℝ) ^ g))) =
      (a * d - b * c : ℤ) * (2 : ℝ) ^ (2 * g) ∧ |a * d - b * c| ≤ 2 ^ 51 := by
  have hp : (2 : ℝ) ^ g * (2 : ℝ) ^ g = 2 ^ (2 * g) := by
    rw [two_mul, zpow_add₀ (by norm_num)]
  have h1 : |a * d| ≤ 2 ^ 50 := by
    rw [abs_mul]
    calc |a| * |d| ≤ 2 ^ 25 * 2 ^ 25 := mul_le_mul ha hd (abs_nonneg _) (by norm_num)
      _ = 2 ^ 50 := by norm_num
  have h2 : |b * c| ≤ 2 ^ 50 := by
    rw [abs_mul]
    calc |b| * |c| ≤ 2 ^ 25 * 2 ^ 25 := mul_le_mul hb hc (abs_nonneg _) (by norm_num)
      _ = 2 ^ 50 := by norm_num
  have h3 : |a * d - b * c| ≤ 2 ^ 51 := by
    rw [abs_le] at h1 h2 ⊢; constructor <;> linarith [h1.1, h1.2]
  have e1 : a * (2 : ℝ) ^ g * (d * (2 : ℝ) ^ g) = (a * d : ℤ) * (2 : ℝ) ^ (2 * g) := by
    rw [← hp]; push_cast; ring
  have e2 : b * (2 : ℝ) ^ g * (c * (2 : ℝ) ^ g) = (b * c : ℤ) * (2 : ℝ) ^ (2 * g) := by
    rw [← hp]; push_cast; ring
  refine ⟨?_, h3⟩
  rw [e1, e2, fl64_of_mul (by linarith) (by linarith), fl64_of_mul (by linarith) (by linarith)]
  have e3 : (a * d : ℤ) * (2 : ℝ) ^ (2 * g) - (b * c : ℤ) * (2 : ℝ) ^ (2 * g) =
      (a * d - b * c : ℤ) * (2 : ℝ) ^ (2 * g) := by push_cast; ring
  rw [e3, fl64_of_mul (by linarith) (by linarith)]

/-- On a grid the rounded test agrees with the exact one. -/
theorem lineIntersectF_grid {g : ℤ} (hg : -537 ≤ g) {a b c d e f i j : ℤ}
    (ha : |a| ≤ 2 ^ 24) (hb : |b| ≤ 2 ^ 24) (hc : |c| ≤ 2 ^ 24) (hd : |d| ≤ 2 ^ 24)
    (he : |e| ≤ 2 ^ 24) (hf : |f| ≤ 2 ^ 24) (hi : |i| ≤ 2 ^ 24) (hj : |j| ≤ 2 ^ 24) :
    lineIntersectF fl64 (a * (2 : ℝ) ^ g, b * (2 : ℝ) ^ g) (c * (2 : ℝ) ^ g, d * (2 : ℝ) ^ g)
        (e * (2 : ℝ) ^ g, f * (2 : ℝ) ^ g) (i * (2 : ℝ) ^ g, j * (2 : ℝ) ^ g) =
      lineIntersect (a * (2 : ℝ) ^ g, b * (2 : ℝ) ^ g) (c * (2 : ℝ) ^ g, d * (2 : ℝ) ^ g)
        (e * (2 : ℝ) ^ g, f * (2 : ℝ) ^ g) (i * (2 : ℝ) ^ g, j * (2 : ℝ) ^ g) := by
  have hg' : -1074 ≤ g := by omega
  have hdiff : ∀ p q : ℤ, |p| ≤ 2 ^ 24 → |q| ≤ 2 ^ 24 → |p - q| ≤ 2 ^ 25 := by
    intro p q hp hq
    rw [abs_le] at hp hq ⊢; constructor <;> linarith [hp.1, hp.2, hq.1, hq.2]
  have hpos : (0 : ℝ) < 2 ^ (2 * g) := two_zpow_pos _
  have hp : (2 : ℝ) ^ g * (2 : ℝ) ^ g = 2 ^ (2 * g) := by
    rw [two_mul, zpow_add₀ (by norm_num)]
  obtain ⟨D1, D2⟩ := cross_grid hg (hdiff c a hc ha) (hdiff d b hd hb) (hdiff i e hi he)
    (hdiff j f hj hf)
  obtain ⟨T1, -⟩ := cross_grid hg (hdiff e a he ha) (hdiff f b hf hb) (hdiff i e hi he)
    (hdiff j f hj hf)
  obtain ⟨S1, -⟩ := cross_grid hg (hdiff e a he ha) (hdiff f b hf hb) (hdiff c a hc ha)
    (hdiff d b hd hb)
  unfold lineIntersectF lineIntersect
  rw [vecSubF_grid hg' hc hd ha hb, vecSubF_grid hg' hi hj he hf, vecSubF_grid hg' he hf ha hb]
  simp only [D1, T1, S1, Prod.fst_sub, Prod.snd_sub]
  obtain ⟨kd, hkd⟩ : ∃ kd, (c - a) * (j - f) - (d - b) * (i - e) = kd := ⟨_, rfl⟩
  obtain ⟨kt, hkt⟩ : ∃ kt, (e - a) * (j - f) - (f - b) * (i - e) = kt := ⟨_, rfl⟩
  obtain ⟨ks, hks⟩ : ∃ ks, (e - a) * (d - b) - (f - b) * (c - a) = ks := ⟨_, rfl⟩
  have E1 : (c * (2 : ℝ) ^ g - a * 2 ^ g) * (j * 2 ^ g - f * 2 ^ g) -
      (d * (2 : ℝ) ^ g - b * 2 ^ g) * (i * 2 ^ g - e * 2 ^ g) = kd * 2 ^ (2 * g) := by
    rw [← hp, ← hkd]; push_cast; ring
  have E2 : (e * (2 : ℝ) ^ g - a * 2 ^ g) * (j * 2 ^ g - f * 2 ^ g) -
      (f * (2 : ℝ) ^ g - b * 2 ^ g) * (i * 2 ^ g - e * 2 ^ g) = kt * 2 ^ (2 * g) := by
    rw [← hp, ← hkt]; push_cast; ring
  have E3 : (e * (2 : ℝ) ^ g - a * 2 ^ g) * (d * 2 ^ g - b * 2 ^ g) -
      (f * (2 : ℝ) ^ g - b * 2 ^ g) * (c * 2 ^ g - a * 2 ^ g) = ks * 2 ^ (2 * g) := by
    rw [← hp, ← hks]; push_cast; ring
  simp only [E1, E2, E3, hkd, hkt, hks]
  rw [hkd] at D2
  by_cases h0 : kd = 0
  · simp [h0]
  · have hne : (kd : ℝ) * 2 ^ (2 * g) ≠ 0 := mul_ne_zero (by exact_mod_cast h0) hpos.ne'
    rw [if_neg hne, if_neg hne, mul_div_mul_right _ _ hpos.ne', mul_div_mul_right _ _ hpos.ne']
    obtain ⟨q1, q2⟩ := fl64_quot (a := kt) h0 D2
    obtain ⟨q3, q4⟩ := fl64_quot (a := ks) h0 D2
    rw [decide_eq_decide, q1, q2, q3, q4]

/-! ## Clocks -/

theorem poissonClockLoopF_id (draws : ℕ → ℝ) (dt : ℝ) (fuel : ℕ) :
    ∀ pos t, poissonClockLoopF id draws dt fuel pos t = poissonClockLoop draws dt fuel pos t := by
  induction fuel with
  | zero => intro pos t; rfl
  | succ fuel ih =>
    intro pos t
    unfold poissonClockLoopF poissonClockLoop
    rw [ih]; rfl

/-- Adding something nonnegative to a rounded number and rounding does not decrease it. -/
theorem rnd_add_ge {rnd : ℝ → ℝ} (h : FairRounding rnd) {t d : ℝ} (ht : rnd t = t) (hd : 0 ≤ d) :
    t ≤ rnd (t + d) := by
  have := h.mono (show t ≤ t + d by linarith)
  rwa [ht] at this

theorem poissonClockLoopF_sorted {rnd : ℝ → ℝ} (h : FairRounding rnd) {draws : ℕ → ℝ}
    (hd : ∀ k, 0 ≤ draws k) (dt : ℝ) (fuel : ℕ) : ∀ pos t ts pos', rnd t = t →
      poissonClockLoopF rnd draws dt fuel pos t = some (ts, pos') →
      ts.Pairwise (· ≤ ·) ∧ (∀ s ∈ ts, t ≤ s ∧ s < dt) ∧ pos' = pos + ts.length := by
  induction fuel with
  | zero => intro pos t ts pos' _ hr; simp [poissonClockLoopF] at hr
  | succ fuel ih =>
    intro pos t ts pos' ht hr
    unfold poissonClockLoopF at hr
    split_ifs at hr with hlt
    · cases hres : poissonClockLoopF rnd draws dt fuel (pos + 1) (rnd (t + draws pos)) with
      | none => rw [hres] at hr; simp at hr
      | some r =>
        obtain ⟨ts', pos''⟩ := r
        rw [hres] at hr
        simp only [Option.some.injEq, Prod.mk.injEq] at hr
        obtain ⟨rfl, rfl⟩ := hr
        obtain ⟨h1, h2, h3⟩ := ih _ _ _ _ (h.idem _) hres
        have hge := rnd_add_ge h ht (hd pos)
        refine ⟨List.pairwise_cons.mpr ⟨fun s hs => hge.trans (h2 s hs).1, h1⟩, ?_, ?_⟩
        · intro s hs
          rcases List.mem_cons.1 hs with rfl | hs
          · exact ⟨le_rfl, hlt⟩
          · exact ⟨hge.trans (h2 s hs).1, (h2 s hs).2⟩
        · rw [h3, List.length_cons]; omega
    · simp only [Option.some.injEq, Prod.mk.injEq] at hr
      obtain ⟨rfl, rfl⟩ := hr
      simp

theorem poissonClockLoopF_stops {rnd : ℝ → ℝ} (h : FairRounding rnd) {draws : ℕ → ℝ}
    (hd : ∀ k, 0 ≤ draws k) {dt : ℝ} (hdt : rnd dt = dt) (fuel : ℕ) : ∀ pos t N, 0 ≤ t →
      dt ≤ draws (pos + N) → N + 1 < fuel →
      (poissonClockLoopF rnd draws dt fuel pos t).isSome := by
  have hz : rnd 0 = 0 := by
    have := h.neg 0; rw [neg_zero] at this; linarith
  induction fuel with
  | zero => intro pos t N _ _ hf; omega
  | succ fuel ih =>
    intro pos t N ht hN hf
    unfold poissonClockLoopF
    split_ifs with hlt
    · have hnn : 0 ≤ rnd (t + draws pos) := by
        have := h.mono (show 0 ≤ t + draws pos by linarith [hd pos])
        rwa [hz] at this
      have hsome : (poissonClockLoopF rnd draws dt fuel (pos + 1) (rnd (t + draws pos))).isSome := by
        cases N with
        | zero =>
          have hge : dt ≤ rnd (t + draws pos) := by
            have := h.mono (show dt ≤ t + draws pos by simp at hN; linarith)
            rwa [hdt] at this
          cases fuel with
          | zero => omega
          | succ fuel => unfold poissonClockLoopF; rw [if_neg (not_lt.mpr hge)]; rfl
        | succ N =>
          refine ih _ _ N hnn ?_ (by omega)
          rw [show pos + 1 + N = pos + (N + 1) by omega]; exact hN
      obtain ⟨r, hr⟩ := Option.isSome_iff_exists.1 hsome
      rw [hr]; rfl
    · rfl

/-- The rounded times stay close to the exact ones. -/
theorem poissonClockLoopF_near {draws : ℕ → ℝ} (hd : ∀ k, 0 ≤ draws k) {dt : ℝ} (hdt : fl64 dt = dt)
    (start fuel : ℕ) : ∀ (k : ℕ) t ts pos', 0 ≤ t →
      |t - tick draws start k| ≤ k * (dt * 2 ^ (-53 : ℤ) + 2 ^ (-1075 : ℤ)) →
      poissonClockLoopF fl64 draws dt fuel (start + k + 1) t = some (ts, pos') →
      ∀ m (hm : m < ts.length), |ts[m] - tick draws start (k + m)| ≤
        ((k + m : ℕ) : ℝ) * (dt * 2 ^ (-53 : ℤ) + 2 ^ (-1075 : ℤ)) := by
  obtain ⟨E, hE⟩ : ∃ E : ℝ, dt * 2 ^ (-53 : ℤ) + 2 ^ (-1075 : ℤ) = E := ⟨_, rfl⟩
  rw [hE]
  induction fuel with
  | zero => intro k t ts pos' _ _ hr; simp [poissonClockLoopF] at hr
  | succ fuel ih =>
    intro k t ts pos' ht hk hr m hm
    unfold poissonClockLoopF at hr
    split_ifs at hr with hlt
    · cases hres : poissonClockLoopF fl64 draws dt fuel (start + k + 1 + 1)
          (fl64 (t + draws (start + k + 1))) with
      | none => rw [hres] at hr; simp at hr
      | some r =>
        obtain ⟨ts', pos''⟩ := r
        rw [hres] at hr
        simp only [Option.some.injEq, Prod.mk.injEq] at hr
        obtain ⟨rfl, rfl⟩ := hr
        cases m with
        | zero => simpa using hk
        | succ m =>
          have hm' : m < ts'.length := by simpa using hm
          have hnn : 0 ≤ t + draws (start + k + 1) := by linarith [hd (start + k + 1)]
          -- the next time is before `dt`, for it is yielded
          have hnext : fl64 (t + draws (start + k + 1)) < dt := by
            by_contra hge
            cases fuel with
            | zero => simp [poissonClockLoopF] at hres
            | succ fuel =>
              unfold poissonClockLoopF at hres
              rw [if_neg hge] at hres
              simp only [Option.some.injEq, Prod.mk.injEq] at hres
              rw [← hres.1] at hm'; simp at hm'
          have hx : t + draws (start + k + 1) < dt := by
            by_contra hge
            have := fl64_mono (not_lt.mp hge)
            rw [hdt] at this; linarith
          have herr := fl64_err_gen (t + draws (start + k + 1))
          rw [abs_of_nonneg hnn] at herr
          have herr' : |fl64 (t + draws (start + k + 1)) - (t + draws (start + k + 1))| ≤ E := by
            refine herr.trans ?_
            rw [← hE]
            have : (0 : ℝ) < 2 ^ (-53 : ℤ) := two_zpow_pos _
            have := mul_le_mul_of_nonneg_right hx.le this.le
            linarith
          have hk1 : |fl64 (t + draws (start + k + 1)) - tick draws start (k + 1)| ≤
              ((k + 1 : ℕ) : ℝ) * E := by
            rw [tick_succ, show start + (k + 1) = start + k + 1 by omega]
            rw [abs_le] at herr' hk ⊢
            push_cast
            constructor <;> linarith [herr'.1, herr'.2, hk.1, hk.2]
          have := ih (k + 1) _ ts' pos'' (fl64_nonneg hnn) hk1
            (by rw [show start + (k + 1) + 1 = start + k + 1 + 1 by omega]; exact hres) m hm'
          rw [show k + (m + 1) = k + 1 + m by omega]
          simpa using this
    · simp only [Option.some.injEq, Prod.mk.injEq] at hr
      obtain ⟨rfl, -⟩ := hr
      simp at hm

end CrowdDynamics
