import Verif.Proofs.RoundedWallStep
import Verif.Proofs.RoundedTime
import Verif.Model.RoundedRun
import Verif.Spec.RoundedWall

/-!
# Runs of an agent who walks against a wall, with rounding
-/

namespace CrowdDynamics

open Spec

/-- The agent in the course of the run. -/
def pressRow (a : Agent) (x u f : ℝ) : Agent :=
  { a with
    position := (x, a.position.2), velocity := (u, 0), targetDirection := (1, 0)
    force := 0, forcePrev := (f, 0) }

lemma fixed_timestepF {n : ℕ} (A : Arith) (agents : Crowd n) (dt : ℝ) :
    adaptiveTimestepF A agents dt dt = dt := by
  unfold adaptiveTimestepF
  simp only
  split_ifs with h1 h2 h3
  · rfl
  · rfl
  · rfl
  · linarith

/-- The computed distance from an upright wall, the first end below. -/
lemma upright_distance_up {X x η Y0 Y1 r : ℝ} (hY : 0 < fl64 (Y1 - Y0)) (h0 : Y0 ≤ η) (h1 : η ≤ Y1)
    (hx : 1 / 64 ≤ X - x) :
    distanceCircleLineF Arith.machine (x, η) r (X, Y0) (X, Y1) =
      some (fl64 (fl64 (X - x) - r), some (-1, 0)) := by
  obtain ⟨L, hL⟩ : ∃ L, fl64 (Y1 - Y0) = L := ⟨_, rfl⟩
  have eL : fl64 L = L := by rw [← hL, fl64_idem]
  rw [hL] at hY
  have d0 : 0 < fl64 (X - x) := by
    have := fl64_ge_two_zpow (e := -6) (by norm_num) (x := X - x) (by norm_num; linarith)
    exact (two_zpow_pos _).trans_le this
  have en : fl64 (x - X) = -fl64 (X - x) := by rw [← fl64_neg, neg_sub]
  have b0 : fl64 (η - Y0) ≤ L := by rw [← hL]; exact fl64_mono (by linarith)
  have b1 : fl64 (Y1 - η) ≤ L := by rw [← hL]; exact fl64_mono (by linarith)
  have b2 : 0 ≤ fl64 (η - Y0) := fl64_nonneg (by linarith)
  have b3 : 0 ≤ fl64 (Y1 - η) := fl64_nonneg (by linarith)
  have en' : fl64 (η - Y1) = -fl64 (Y1 - η) := by rw [← fl64_neg, neg_sub]
  have hlw : lengthF Arith.machine (vecSubF Arith.machine.rnd (X, Y1) (X, Y0)) = L := by
    simp only [lengthF, Arith.machine, vecSubF, sub_self, fl64_zero, hL]
    rw [show (0 : ℝ) ^ 2 + L ^ 2 = L ^ 2 by ring, Real.sqrt_sq hY.le, eL]
  have h3 : ¬ (fl64 (fl64 (Y1 - η) - fl64 (η - Y0)) > L) := by
    rw [not_lt]
    have := fl64_mono (show fl64 (Y1 - η) - fl64 (η - Y0) ≤ L by linarith)
    rwa [eL] at this
  have h4 : ¬ (fl64 (fl64 (Y1 - η) - fl64 (η - Y0)) < -L) := by
    rw [not_lt]
    have := fl64_mono (show -L ≤ fl64 (Y1 - η) - fl64 (η - Y0) by linarith)
    rwa [fl64_neg, eL] at this
  unfold distanceCircleLineF
  simp only
  rw [hlw, if_neg hY.ne']
  simp only [Arith.machine, vecSubF, sub_self, fl64_zero, hL, zero_div, div_self hY.ne', fl64_one, rotate90,
    dotF, zero_mul, one_mul, zero_add, add_zero, fl64_idem, neg_mul, en, neg_neg, en', fl64_neg]
  rw [if_neg h3, if_neg h4]
  simp [npSign, d0, abs_of_pos d0]

/-- The computed distance from an upright wall, the first end above. -/
lemma upright_distance_down {X x η Y0 Y1 r : ℝ} (hY : 0 < fl64 (Y0 - Y1)) (h0 : Y1 ≤ η) (h1 : η ≤ Y0)
    (hx : 1 / 64 ≤ X - x) :
    distanceCircleLineF Arith.machine (x, η) r (X, Y0) (X, Y1) =
      some (fl64 (fl64 (X - x) - r), some (-1, 0)) := by
  obtain ⟨L, hL⟩ : ∃ L, fl64 (Y0 - Y1) = L := ⟨_, rfl⟩
  have eL : fl64 L = L := by rw [← hL, fl64_idem]
  have hL' : fl64 (Y1 - Y0) = -L := by rw [← hL, ← fl64_neg, neg_sub]
  rw [hL] at hY
  have d0 : 0 < fl64 (X - x) := by
    have := fl64_ge_two_zpow (e := -6) (by norm_num) (x := X - x) (by norm_num; linarith)
    exact (two_zpow_pos _).trans_le this
  have en : fl64 (x - X) = -fl64 (X - x) := by rw [← fl64_neg, neg_sub]
  have b0 : fl64 (η - Y1) ≤ L := by rw [← hL]; exact fl64_mono (by linarith)
  have b1 : fl64 (Y0 - η) ≤ L := by rw [← hL]; exact fl64_mono (by linarith)
  have b2 : 0 ≤ fl64 (η - Y1) := fl64_nonneg (by linarith)
  have b3 : 0 ≤ fl64 (Y0 - η) := fl64_nonneg (by linarith)
  have en' : fl64 (η - Y0) = -fl64 (Y0 - η) := by rw [← fl64_neg, neg_sub]
  have hlw : lengthF Arith.machine (vecSubF Arith.machine.rnd (X, Y1) (X, Y0)) = L := by
    simp only [lengthF, Arith.machine, vecSubF, sub_self, fl64_zero, hL']
    rw [show (0 : ℝ) ^ 2 + (-L) ^ 2 = L ^ 2 by ring, Real.sqrt_sq hY.le, eL]
  have h3 : ¬ (fl64 (fl64 (η - Y1) - fl64 (Y0 - η)) > L) := by
    rw [not_lt]
    have := fl64_mono (show fl64 (η - Y1) - fl64 (Y0 - η) ≤ L by linarith)
    rwa [eL] at this
  have h4 : ¬ (fl64 (fl64 (η - Y1) - fl64 (Y0 - η)) < -L) := by
    rw [not_lt]
    have := fl64_mono (show -L ≤ fl64 (η - Y1) - fl64 (Y0 - η) by linarith)
    rwa [fl64_neg, eL] at this
  unfold distanceCircleLineF
  simp only
  rw [hlw, if_neg hY.ne']
  simp only [Arith.machine, vecSubF, sub_self, fl64_zero, hL', zero_div, neg_div, div_self hY.ne', fl64_one,
    rotate90, dotF, zero_mul, one_mul, zero_add, add_zero, fl64_idem, neg_mul, en, neg_neg, en', fl64_neg]
  rw [if_neg h3, if_neg h4]
  simp [npSign, d0, not_lt.2 d0.le, abs_of_pos d0]

lemma wall_length_pos {y z : ℝ} (hy : Binary64 y) (hz : Binary64 z) (h : y < z) : 0 < fl64 (z - y) := by
  obtain ⟨n, hn⟩ := binary64_sub_grid hz hy
  have hp := two_zpow_pos (-1074)
  have h1 : 0 < n * (2 : ℝ) ^ (-1074 : ℤ) := by rw [← hn]; linarith
  have h2 : (0 : ℝ) < n := by
    by_contra hc
    exact absurd h1 (not_lt.2 (mul_nonpos_of_nonpos_of_nonneg (not_lt.1 hc) hp.le))
  have h3 : (1 : ℝ) ≤ n := by exact_mod_cast h2
  exact hp.trans_le (fl64_ge_two_zpow le_rfl (by rw [hn]; exact le_mul_of_one_le_left hp.le h3))

/-- The computed distance from an upright wall. -/
lemma upright_distance {X x η Y0 Y1 r : ℝ} (b0 : Binary64 Y0) (b1 : Binary64 Y1) (hne : Y0 ≠ Y1)
    (hη : η ∈ Set.uIcc Y0 Y1) (hx : 1 / 64 ≤ X - x) :
    distanceCircleLineF Arith.machine (x, η) r (X, Y0) (X, Y1) =
      some (fl64 (fl64 (X - x) - r), some (-1, 0)) := by
  rcases lt_or_gt_of_ne hne with h | h
  · rw [Set.uIcc_of_le h.le] at hη
    exact upright_distance_up (wall_length_pos b0 b1 h) hη.1 hη.2 hx
  · rw [Set.uIcc_of_ge h.le] at hη
    exact upright_distance_down (wall_length_pos b1 b0 h) hη.1 hη.2 hx

lemma press_update {a : Agent} {X Y0 Y1 dt x u f : ℝ} (hτ : a.tauAdj = 1 / 2) (hmu : a.mu = 1.2e5)
    (hda : a.damping = 500) (hV : Binary64 a.targetVelocity) (hη : Binary64 a.position.2)
    (hY0 : Binary64 Y0) (hY1 : Binary64 Y1) (hne : Y0 ≠ Y1) (hb : a.position.2 ∈ Set.uIcc Y0 Y1)
    (hx : 1 / 64 ≤ X - x) (hu : Binary64 u) :
    updateF Arith.machine [⟨(X, Y0), (X, Y1)⟩] dt dt (fun _ => 0) (fun _ => (1, 0)) []
      (fun _ : Fin 1 => pressRow a x u f) =
    some fun _ => pressRow a
      (pressMove a.mass dt x
        (pressSpeed a.mass dt u f (pressForce a.mass a.targetVelocity a.radius X x u))
        (pressForce a.mass a.targetVelocity a.radius X x u))
      (pressSpeed a.mass dt u f (pressForce a.mass a.targetVelocity a.radius X x u))
      (pressForce a.mass a.targetVelocity a.radius X x u) := by
  have eV := (binary64_iff _).1 hV
  have eu := (binary64_iff _).1 hu
  have eη := (binary64_iff _).1 hη
  have emu : fl64 (1.2e5 : ℝ) = 1.2e5 := by
    have := fl64_int (n := 120000) (by norm_num)
    norm_num at this ⊢
    exact this
  have hdist := upright_distance (r := a.radius) hY0 hY1 hne hb hx
  obtain ⟨h, hh⟩ : ∃ h, fl64 (fl64 (X - x) - a.radius) = h := ⟨_, rfl⟩
  rw [hh] at hdist
  have f1 : Arith.machine.rnd (Arith.machine.rnd ((0 : Vec).1 + (0 : Vec).1) +
      forceAdjustF Arith.machine.rnd a.mass a.tauAdj a.targetVelocity 1 u) =
      fl64 (fl64 (a.mass / (1 / 2)) * fl64 (a.targetVelocity - u)) := by
    simp only [Arith.machine, forceAdjustF, Prod.fst_zero, add_zero, fl64_zero, zero_add, mul_one, eV, hτ,
      fl64_idem]
  have f2 : Arith.machine.rnd (Arith.machine.rnd ((0 : Vec).2 + (0 : Vec).2) +
      forceAdjustF Arith.machine.rnd a.mass a.tauAdj a.targetVelocity 0 0) = 0 := by
    simp only [Arith.machine, forceAdjustF, Prod.snd_zero, add_zero, fl64_zero, mul_zero, sub_self]
  have hc : forceContactF Arith.machine.rnd h (-1, 0) (u, 0) (rotate270 (-1, 0)) a.mu a.kappa a.damping =
      (fl64 (fl64 (h * 1.2e5) + fl64 (500 * u)), 0) := by
    simp only [Arith.machine, forceContactF, dotF, rotate270, mul_zero, fl64_zero, add_zero, mul_neg, mul_one, fl64_neg,
      eu, hmu, hda, emu, sub_zero, neg_mul, neg_neg, fl64_idem, sub_self]
  unfold updateF
  simp only [agentAgentCircularF, List.foldl_nil, fixed_timestepF]
  have hwall : agentCircularObstacleF Arith.machine (fun _ : Fin 1 => forceAdjustRowF Arith.machine.rnd
      { pressRow a x u f with
        targetDirection := (1, 0)
        force := (Arith.machine.rnd ((pressRow a x u f).force.1 + (0 : Vec).1),
          Arith.machine.rnd ((pressRow a x u f).force.2 + (0 : Vec).2)) })
      [⟨(X, Y0), (X, Y1)⟩] =
      some fun _ => { pressRow a x u f with
        force := (pressForce a.mass a.targetVelocity a.radius X x u, 0) } := by
    unfold agentCircularObstacleF
    simp only [List.finRange_succ, List.finRange_zero, List.map_nil, List.foldlM_cons, List.foldlM_nil,
      interactionAgentCircularObstacleF, forceAdjustRowF, pressRow, hdist]
    rw [f1, f2, hc]
    unfold pressForce
    simp only
    rw [hh]
    by_cases hn : h < 0
    · rw [if_pos hn, if_pos hn]
      refine congrArg some (funext fun i => ?_)
      obtain rfl : i = 0 := Subsingleton.elim _ _
      simp only [addForceF, Function.update_self, add_zero, Arith.machine, fl64_zero]
    · rw [if_neg hn, if_neg hn]
      rfl
  rw [hwall]
  simp only [translationalVerletRowF, pressRow, Arith.machine, zero_div, fl64_zero, add_zero, zero_mul, halfSquareF,
    eη, pressSpeed, pressMove]

/-- What is known after `k` updates. -/
def PressAt (a : Agent) (X Y0 Y1 ρ : ℝ) (k : ℕ) (x u f w t : ℝ) : Prop :=
  runF Arith.machine [⟨(X, Y0), (X, Y1)⟩] (fl64 (1 / 100)) (fl64 (1 / 100)) (fun _ => 0)
    (fun _ => (1, 0)) [] (fun _ : Fin 1 => a) k = some (fun _ => pressRow a x u f) ∧
  Binary64 x ∧ Binary64 u ∧
  PressState ρ (500 / a.mass) (X - x) (-u) (-(fl64 (f / a.mass))) w t

lemma press_first {a : Agent} {X Y0 Y1 ρ : ℝ} (h : PressStart a X Y0 Y1) (ρ1 : ρ ≤ a.radius) :
    PressAt a X Y0 Y1 ρ 0 a.position.1 a.velocity.1 0 (-a.velocity.1) (-a.velocity.1) := by
  refine ⟨?_, h.place.1, h.slow.1, ?_⟩
  · have : pressRow a a.position.1 a.velocity.1 0 = a := by
      have e1 := h.slow.2.2
      have e2 := h.aim
      have e3 := h.force.1
      have e4 := h.force.2
      unfold pressRow
      rw [← e2, show ((0 : ℝ), (0 : ℝ)) = a.forcePrev from e4.symm, ← e3,
        show (a.velocity.1, (0 : ℝ)) = a.velocity from Prod.ext rfl e1.symm]
    rw [this]
    rfl
  · rw [zero_div, fl64_zero, neg_zero]
    have := abs_le.1 h.slow.2.1
    exact press_start (by linarith [h.clear.1]) h.clear.2 (by linarith) (by linarith)

lemma press_next {a : Agent} {X Y0 Y1 ρ : ℝ} (h : PressStart a X Y0 Y1) (ρ0 : a.radius - 1e-12 ≤ ρ)
    (ρ1 : ρ ≤ a.radius)
    (hρ : ∀ y, (∃ n : ℤ, y = n * (2 : ℝ) ^ (-1074 : ℤ)) → (fl64 y < a.radius ↔ y < ρ))
    {k : ℕ} {x u f w t : ℝ} (hk : PressAt a X Y0 Y1 ρ k x u f w t) :
    ∃ x' u' f' w' t', PressAt a X Y0 Y1 ρ (k + 1) x' u' f' w' t' ∧
      (ρ ≤ X - x → 0.99 * w' + 2 * (X - x') - 0.02 * t' ≤ 0.99 * w + 2 * (X - x) - 0.02 * t - 0.0079) := by
  obtain ⟨m0, m1⟩ := h.mass
  have mp : 0 < a.mass := by linarith
  have hC := press_constants m0 m1
  have hdt : |fl64 (1 / 100) - 0.01| ≤ 1e-17 := by
    have := near64 (z := 1 / 100) (b := 0.01) (by norm_num [abs_of_pos]) (by norm_num)
    rw [show (0.01 : ℝ) = 1 / 100 by norm_num] at this ⊢
    refine this.trans (by norm_num)
  obtain ⟨hk, bx, bu, hs⟩ := hk
  obtain ⟨F, hF⟩ : ∃ F, pressForce a.mass a.targetVelocity a.radius X x u = F := ⟨_, rfl⟩
  obtain ⟨B1, B2, B3⟩ := hs.walk.bounds hC
  have n1 := abs_le.1 hs.mean
  have n2 := hs.top'
  have n3 := hs.far
  have n4 := hs.acc
  have X1 := abs_le.1 h.wall.2.1
  obtain ⟨-, R0, R1⟩ := h.radius
  obtain ⟨bV, V0, V1⟩ := h.pace
  have u1 : |u| ≤ 26 := abs_le.2 ⟨by linarith, by linarith⟩
  have u2 := abs_le.1 u1
  have x1 : |x| ≤ 2200 := abs_le.2 ⟨by linarith, by linarith⟩
  rw [abs_neg] at n4
  have o2 := abs_le.1 n4
  have hup := press_update (f := f) (dt := fl64 (1 / 100)) h.tau h.mu h.damping bV h.place.2 h.wall.2.2.1
    h.wall.2.2.2.1 h.wall.2.2.2.2 h.beside (X := X) (x := x) (by linarith) bu
  rw [hF] at hup
  have hacc := (press_force_near m0 m1 (by linarith) (by linarith) u1 (by linarith) R1 ρ0 ρ1 h.radius.1
    B1 (hρ _ (binary64_sub_grid h.wall.1 bx)) (V := a.targetVelocity)).1
  rw [hF] at hacc
  have K0 : (0 : ℝ) ≤ 1.2e5 / a.mass := by positivity
  have K1 : 1.2e5 / a.mass ≤ 2400 := by rw [div_le_iff₀ mp]; linarith
  have c0 : 5 ≤ 500 / a.mass := by rw [le_div_iff₀ mp]; linarith
  have c1 : 500 / a.mass ≤ 10 := by rw [div_le_iff₀ mp]; linarith
  have a1 : |fl64 (F / a.mass)| ≤ 1001 := by
    have h1 := abs_le.1 hacc
    by_cases hy : X - x < ρ
    · rw [if_pos hy] at h1
      have h2 : 1.2e5 / a.mass * (ρ - (X - x)) ≤ 2400 * 0.15 :=
        mul_le_mul K1 (by linarith) (by linarith) (by norm_num)
      have h3 : 0 ≤ 1.2e5 / a.mass * (ρ - (X - x)) := mul_nonneg K0 (by linarith)
      have h4 : |500 / a.mass * u| ≤ 10 * 26 := by
        rw [abs_mul, abs_of_nonneg (by linarith : 0 ≤ 500 / a.mass)]
        exact mul_le_mul c1 u1 (abs_nonneg _) (by norm_num)
      have h5 := abs_le.1 h4
      exact abs_le.2 ⟨by linarith, by linarith⟩
    · rw [if_neg hy] at h1
      exact abs_le.2 ⟨by linarith, by linarith⟩
  have a2 := abs_le.1 a1
  have hspeed := press_speed_near (m := a.mass) hdt u1 n4 a1
  obtain ⟨u', hu'⟩ : ∃ u', pressSpeed a.mass (fl64 (1 / 100)) u f F = u' := ⟨_, rfl⟩
  rw [hu'] at hspeed hup
  have s2 := abs_le.1 hspeed
  have hmove := press_move_near (m := a.mass) (F := F) hdt (u := u') (abs_le.2 ⟨by linarith, by linarith⟩) x1 a1
  obtain ⟨x', hx'⟩ : ∃ x', pressMove a.mass (fl64 (1 / 100)) x u' F = x' := ⟨_, rfl⟩
  rw [hx'] at hmove hup
  have g1 : |-u' - (-u + 0.005 * (-fl64 (f / a.mass) + -fl64 (F / a.mass)))| ≤ 1e-12 := by
    rw [← abs_neg]
    convert hspeed using 2
    ring
  have g2 : |X - x' - (X - x + 0.01 * -u' + 0.00005 * -fl64 (F / a.mass))| ≤ 1e-12 := by
    rw [← abs_neg]
    convert hmove using 2
    ring
  have g3 : |-fl64 (F / a.mass) - (-2 * (a.targetVelocity + -u) +
      if X - x < ρ then 1.2e5 / a.mass * (ρ - (X - x)) + 500 / a.mass * -u else 0)| ≤ 1e-7 := by
    rw [← abs_neg]
    convert hacc using 2
    split_ifs <;> ring
  refine ⟨x', u', F, _, _, ⟨?_, hx' ▸ binary64_fl64 _, hu' ▸ binary64_fl64 _,
    press_step (V := a.targetVelocity) (by linarith) hC K1 c0 c1 V0 V1 hs g1 g2 g3⟩, fun hfree => ?_⟩
  · rw [runF, hk, Option.bind_some, hup]
  · rw [if_neg (not_lt.2 hfree), add_zero] at g3
    exact press_fall V0 hs g1 g2 g3

lemma press_all {a : Agent} {X Y0 Y1 ρ : ℝ} (h : PressStart a X Y0 Y1) (ρ0 : a.radius - 1e-12 ≤ ρ)
    (ρ1 : ρ ≤ a.radius)
    (hρ : ∀ y, (∃ n : ℤ, y = n * (2 : ℝ) ^ (-1074 : ℤ)) → (fl64 y < a.radius ↔ y < ρ)) (k : ℕ) :
    ∃ x u f w t, PressAt a X Y0 Y1 ρ k x u f w t := by
  induction k with
  | zero => exact ⟨_, _, _, _, _, press_first h ρ1⟩
  | succ k ih =>
    obtain ⟨x, u, f, w, t, hk⟩ := ih
    obtain ⟨x', u', f', w', t', h', -⟩ := press_next h ρ0 ρ1 hρ hk
    exact ⟨x', u', f', w', t', h'⟩

lemma press_run {a : Agent} {X Y0 Y1 : ℝ} (h : PressStart a X Y0 Y1) :
    ∃ ρ, a.radius - 1e-12 ≤ ρ ∧ ∀ k, ∃ x u f w t, PressAt a X Y0 Y1 ρ k x u f w t := by
  obtain ⟨ρ, ρ0, ρ1, hρ⟩ := contact_threshold h.radius.1 (by linarith [h.radius.2.1]) h.radius.2.2
  exact ⟨ρ, ρ0, press_all h ρ0 ρ1 hρ⟩

/-- The wall is touched again and again. -/
lemma press_again {a : Agent} {X Y0 Y1 : ℝ} (h : PressStart a X Y0 Y1) (k : ℕ) :
    ∃ j ≤ 260000, ∃ x u f,
      runF Arith.machine [⟨(X, Y0), (X, Y1)⟩] (fl64 (1 / 100)) (fl64 (1 / 100)) (fun _ => 0)
        (fun _ => (1, 0)) [] (fun _ : Fin 1 => a) (k + j) = some (fun _ => pressRow a x u f) ∧
      X - x < a.radius := by
  obtain ⟨ρ, ρ0, ρ1, hρ⟩ := contact_threshold h.radius.1 (by linarith [h.radius.2.1]) h.radius.2.2
  by_contra hcon
  push Not at hcon
  have hfall : ∀ j : ℕ, j ≤ 260000 → ∃ x u f w t, PressAt a X Y0 Y1 ρ (k + j) x u f w t ∧
      0.99 * w + 2 * (X - x) - 0.02 * t ≤ 2010 - 0.0079 * j := by
    intro j
    induction j with
    | zero =>
      intro _
      obtain ⟨x, u, f, w, t, hk⟩ := press_all h ρ0 ρ1 hρ k
      refine ⟨x, u, f, w, t, hk, ?_⟩
      have := hk.2.2.2.far
      push_cast
      linarith
    | succ j ih =>
      intro hj
      obtain ⟨x, u, f, w, t, hk, hb⟩ := ih (by omega)
      obtain ⟨x', u', f', w', t', h', hd⟩ := press_next h ρ0 ρ1 hρ hk
      have hfree := hcon j (by omega) x u f hk.1
      have := hd (by linarith)
      refine ⟨x', u', f', w', t', h', ?_⟩
      push_cast
      linarith
  obtain ⟨x, u, f, w, t, hk, hb⟩ := hfall 260000 le_rfl
  have hs := hk.2.2.2
  obtain ⟨B1, B2, B3⟩ := hs.walk.bounds (press_constants h.mass.1 h.mass.2)
  have n1 := hs.top'
  have n2 := h.radius.2.1
  push_cast at hb
  linarith

end CrowdDynamics
