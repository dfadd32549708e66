import Verif.Proofs.Ieee
import Verif.Proofs.RoundedAngles

/-!
# Two agents that touch and slide: helper lemmas
-/

namespace CrowdDynamics

open Spec Real

/-! ### Evaluating `fl64` -/

/-- Rounding of a subnormal number. -/
theorem fl64_subnormal {x : ℝ} {m : ℤ} (hx : x ≠ 0) (h : |x| < 2 ^ (-1021 : ℤ))
    (hm : |x / 2 ^ (-1074 : ℤ) - m| < 1 / 2) : fl64 x = m * 2 ^ (-1074 : ℤ) := by
  have hE : fl64Exp x = -1074 := by
    unfold fl64Exp
    have : Int.log 2 |x| < -1021 := by
      rw [← Int.lt_zpow_iff_log_lt (by norm_num) (abs_pos.2 hx)]
      exact_mod_cast h
    omega
  unfold fl64
  rw [hE, halfEven_eq hm]

/-- A number that is much smaller is lost in a sum. -/
theorem fl_absorb {k : ℤ} {y : ℝ} (hk : -1000 ≤ k) (hy : |y| < 2 ^ (k - 54)) :
    fl64 (2 ^ k + y) = 2 ^ k := by
  have hp := two_zpow_pos (k - 54)
  have e1 : (2 : ℝ) ^ k = 2 ^ 54 * 2 ^ (k - 54) := by
    rw [← zpow_natCast, ← zpow_add₀ (by norm_num)]
    congr 1
    push_cast
    ring
  have e2 : (2 : ℝ) ^ (k - 52) = 2 ^ 2 * 2 ^ (k - 54) := by
    rw [← zpow_natCast, ← zpow_add₀ (by norm_num)]
    congr 1
    push_cast
    ring
  have e3 : (2 : ℝ) ^ (k - 53) = 2 * 2 ^ (k - 54) := by
    rw [← zpow_one_add₀ (by norm_num)]
    congr 1
    ring
  have hy' := abs_lt.1 hy
  rcases le_or_gt 0 y with h0 | h0
  · have h1 : |2 ^ k + y| = 2 ^ k + y := abs_of_nonneg (by positivity)
    have := fl64_eq_of_near (x := 2 ^ k + y) (m := 2 ^ 52) (e := k - 52)
      (by rw [h1, show k - 52 + 52 = k by ring]; linarith)
      (by
        rw [h1, show k - 52 + 53 = k + 1 by ring, zpow_add_one₀ (by norm_num)]
        linarith)
      (by omega)
      (by
        have h2 : (2 ^ k + y) / 2 ^ (k - 52) - ((2 ^ 52 : ℤ) : ℝ) = y / (2 ^ 2 * 2 ^ (k - 54)) := by
          rw [e1, e2]
          field_simp
          push_cast
          ring
        rw [h2, abs_of_nonneg (by positivity), div_lt_iff₀ (by positivity)]
        linarith)
    rw [this, e2, e1]
    push_cast
    ring
  · have h1 : |2 ^ k + y| = 2 ^ k + y := abs_of_nonneg (by rw [e1]; linarith)
    have := fl64_eq_of_near (x := 2 ^ k + y) (m := 2 ^ 53) (e := k - 53)
      (by
        rw [h1, show k - 53 + 52 = k - 1 by ring, zpow_sub_one₀ (by norm_num), e1]
        linarith)
      (by rw [h1, show k - 53 + 53 = k by ring]; linarith)
      (by omega)
      (by
        have h2 : (2 ^ k + y) / 2 ^ (k - 53) - ((2 ^ 53 : ℤ) : ℝ) = y / (2 * 2 ^ (k - 54)) := by
          rw [e1, e3]
          field_simp
          push_cast
          ring
        rw [h2, abs_div, abs_of_pos (by positivity : (0 : ℝ) < 2 * 2 ^ (k - 54)),
          div_lt_iff₀ (by positivity)]
        linarith)
    rw [this, e3, e1]
    push_cast
    ring

/-! ### The agents -/

/-- The first agent: it touches the second one and slides past it with the speed `2 ^ -T`; it
comes nearer with the speed `(2 ^ 20 + 1) 2 ^ -550`. -/
noncomputable def slider (T : ℤ) : Agent :=
  { Agent.zero with
    position := (1, 0)
    velocity := (-(1048577 * 2 ^ (-550 : ℤ)), 2 ^ (-T))
    radius := 1 / 2
    mass := 80
    kSoc := 1.5
    tau0 := 3 }

/-- The second agent stands still. -/
noncomputable def stander : Agent :=
  { Agent.zero with
    position := (0, 0)
    velocity := (0, 0)
    radius := 1 / 2
    mass := 80
    kSoc := 1.5
    tau0 := 3 }

/-! ### Their social force -/

theorem p_mul (i j : ℤ) : (2 : ℝ) ^ i * 2 ^ j = 2 ^ (i + j) := (zpow_add₀ (by norm_num) _ _).symm

theorem p_div (i j : ℤ) : (2 : ℝ) ^ i / 2 ^ j = 2 ^ (i - j) := (zpow_sub₀ (by norm_num) _ _).symm

theorem p_le {i j : ℤ} (h : i ≤ j) : (2 : ℝ) ^ i ≤ 2 ^ j := zpow_le_zpow_right₀ (by norm_num) h

theorem p_lt {i j : ℤ} (h : i < j) : (2 : ℝ) ^ i < 2 ^ j := zpow_lt_zpow_right₀ (by norm_num) h

theorem isNum_of {X : F64} {x y : ℝ} {k : ℤ} (h : IsNum X x k) (e : x = y) : X = .num y := by
  rw [h.1, e]

theorem isNum_num {x : ℝ} {k : ℤ} (h : |x| ≤ 2 ^ k) : IsNum (.num x) x k := ⟨rfl, h⟩

theorem add_eval {x y z : ℝ} (h : fl64 (x + y) = z) (hz : |z| < 2 ^ (1024 : ℤ)) :
    (F64.num x).add fl64 (.num y) = .num z := by
  show F64.pack (fl64 (x + y)) = _
  rw [h, F64.pack, if_pos hz]

theorem sub_eval {x y z : ℝ} (h : fl64 (x - y) = z) (hz : |z| < 2 ^ (1024 : ℤ)) :
    (F64.num x).sub fl64 (.num y) = .num z := by
  rw [sub_eq_add_neg] at h
  exact add_eval h hz

theorem mul_eval {x y z : ℝ} (h : fl64 (x * y) = z) (hz : |z| < 2 ^ (1024 : ℤ)) :
    (F64.num x).mul fl64 (.num y) = .num z := by
  show F64.pack (fl64 (x * y)) = _
  rw [h, F64.pack, if_pos hz]

theorem div_eval {x y z : ℝ} (hy : y ≠ 0) (h : fl64 (x / y) = z) (hz : |z| < 2 ^ (1024 : ℤ)) :
    (F64.num x).div fl64 (.num y) = .num z := by
  show (if y = 0 then _ else F64.pack (fl64 (x / y))) = _
  rw [if_neg hy, h, F64.pack, if_pos hz]

theorem sdiv_eval {X : F64} {y : ℝ} (hy : y ≠ 0) :
    X.sdiv fl64 (.num y) = .ok (X.div fl64 (.num y)) := by
  unfold F64.sdiv
  rw [if_neg]
  intro h
  injection h with h
  exact hy h

theorem p_small {k : ℤ} (hk : k < 1024) : |(2 : ℝ) ^ k| < 2 ^ (1024 : ℤ) := by
  rw [abs_of_pos (two_zpow_pos k)]
  exact p_lt hk

theorem one_small : |(1 : ℝ)| < 2 ^ (1024 : ℤ) := by
  have := p_small (k := 0) (by norm_num)
  rwa [zpow_zero] at this

theorem zero_small : |(0 : ℝ)| < 2 ^ (1024 : ℤ) := by
  rw [abs_zero]
  exact two_zpow_pos _

/-- The speed of the approach. -/
noncomputable def creep : ℝ := 1048577 * 2 ^ (-550 : ℤ)

theorem creep_pos : 0 < creep := mul_pos (by norm_num) (two_zpow_pos _)

theorem creep_lt : creep < 2 ^ (-529 : ℤ) := by
  have h : (2 : ℝ) ^ (-529 : ℤ) = 2 ^ 21 * 2 ^ (-550 : ℤ) := by
    rw [← zpow_natCast, p_mul]
    norm_num
  rw [h]
  exact mul_lt_mul_of_pos_right (by norm_num) (two_zpow_pos _)

theorem fl_creep : fl64 creep = creep := by
  have := fl64_of_mul (m := 1048577) (e := -550) (by norm_num) (by norm_num)
  unfold creep
  exact_mod_cast this

theorem creep_small : |creep| < 2 ^ (1024 : ℤ) := by
  rw [abs_of_pos creep_pos]
  exact creep_lt.trans (p_lt (by norm_num))

theorem fl_creep_sq : fl64 (creep * creep) = 2 ^ (-1060 : ℤ) := by
  have e : creep * creep = 1048577 ^ 2 / 2 ^ 26 * 2 ^ (-1074 : ℤ) := by
    have : (2 : ℝ) ^ (-550 : ℤ) * 2 ^ (-550 : ℤ) = 2 ^ (-26 : ℤ) * 2 ^ (-1074 : ℤ) := by
      rw [p_mul, p_mul]
      norm_num
    unfold creep
    calc (1048577 : ℝ) * 2 ^ (-550 : ℤ) * (1048577 * 2 ^ (-550 : ℤ))
        = 1048577 ^ 2 * (2 ^ (-550 : ℤ) * 2 ^ (-550 : ℤ)) := by ring
      _ = 1048577 ^ 2 * (2 ^ (-26 : ℤ) * 2 ^ (-1074 : ℤ)) := by rw [this]
      _ = _ := by
        rw [show (2 : ℝ) ^ (-26 : ℤ) = 1 / 2 ^ 26 by norm_num]
        ring
  have hp := two_zpow_pos (-1074)
  rw [fl64_subnormal (m := 2 ^ 14) (mul_pos creep_pos creep_pos).ne']
  · rw [show ((2 ^ 14 : ℤ) : ℝ) = 2 ^ (14 : ℤ) by norm_num, p_mul]
    norm_num
  · rw [abs_of_pos (mul_pos creep_pos creep_pos)]
    have := mul_lt_mul'' creep_lt creep_lt creep_pos.le creep_pos.le
    rw [p_mul] at this
    exact this.trans_le (p_le (by norm_num))
  · rw [e, mul_div_assoc, div_self hp.ne']
    norm_num [abs_lt]

/-- The coefficients of the equation, and the time to collision. -/
theorem slider_reduces {T : ℤ} (h0 : 0 ≤ T) (h1 : T ≤ 50) {A : Arith} (hr : A.rnd = fl64) :
    ∃ grad : F64 × F64, grad.1 = .num (-2 ^ (530 : ℤ)) ∧
    forceSocialCircularI A (slider T) stander = (do
      let magI ← magnitudeI A (.num (2 ^ (2 * T - 550))) (.num 3)
      let magJ ← magnitudeI A (.num (2 ^ (2 * T - 550))) (.num 3)
      let forceI ← truncateI A (socialPartI A (slider T) grad magI) (.num fSocMax)
      let partJ := socialPartI A stander grad magJ
      let forceJ ← truncateI A (partJ.1.neg, partJ.2.neg) (.num fSocMax)
      .ok (forceI, forceJ)) := by
  classical
  obtain ⟨rnd, hyp, exp⟩ := A
  obtain rfl : rnd = fl64 := hr
  have f1 : fl64 1 = 1 := by simpa using fl64_int (n := 1) (by norm_num)
  have fp : ∀ k : ℤ, -1074 ≤ k → fl64 ((2 : ℝ) ^ k) = 2 ^ k := fun k hk => fl64_two_zpow hk
  have ex : subI fl64 (slider T).position stander.position = (.num 1, .num 0) :=
    Prod.ext (sub_eval (by show fl64 (1 - 0) = 1; rw [sub_zero, f1]) one_small)
      (sub_eval (by show fl64 (0 - 0) = 0; rw [sub_zero, fl64_zero]) zero_small)
  have ev : subI fl64 (slider T).velocity stander.velocity = (.num (-creep), .num (2 ^ (-T))) :=
    Prod.ext (sub_eval (by show fl64 (-creep - 0) = _; rw [sub_zero, fl64_neg, fl_creep])
        (by rw [abs_neg]; exact creep_small))
      (sub_eval (by show fl64 (2 ^ (-T) - 0) = _; rw [sub_zero, fp _ (by omega)])
        (p_small (by omega)))
  have er : (F64.num (slider T).radius).add fl64 (.num stander.radius) = .num 1 :=
    add_eval (by show fl64 (1 / 2 + 1 / 2) = 1; rw [add_halves, f1]) one_small
  have ea : dotI fl64 (.num (-creep), .num (2 ^ (-T))) (.num (-creep), .num (2 ^ (-T))) =
      .num (2 ^ (-(2 * T))) := by
    unfold dotI
    dsimp only
    rw [mul_eval (z := 2 ^ (-1060 : ℤ)) (by rw [neg_mul_neg, fl_creep_sq]) (p_small (by norm_num)),
      mul_eval (z := 2 ^ (-(2 * T))) (by
        rw [p_mul, show -T + -T = -(2 * T) by ring, fp _ (by omega)]) (p_small (by omega))]
    refine add_eval ?_ (p_small (by omega))
    rw [add_comm]
    refine fl_absorb (by omega) ?_
    rw [abs_of_pos (two_zpow_pos _)]
    exact p_lt (by omega)
  have eb : (dotI fl64 (.num 1, .num 0) (.num (-creep), .num (2 ^ (-T)))).neg = .num creep := by
    unfold dotI
    dsimp only
    rw [mul_eval (z := -creep) (by rw [one_mul, fl64_neg, fl_creep])
        (by rw [abs_neg]; exact creep_small),
      mul_eval (z := 0) (by rw [zero_mul, fl64_zero]) zero_small,
      add_eval (z := -creep) (by rw [add_zero, fl64_neg, fl_creep])
        (by rw [abs_neg]; exact creep_small)]
    unfold F64.neg
    dsimp only
    rw [neg_neg]
  have ec : (dotI fl64 (.num 1, .num 0) (.num 1, .num 0)).sub fl64
      ((F64.num 1).mul fl64 (.num 1)) = .num 0 := by
    unfold dotI
    dsimp only
    rw [mul_eval (z := 1) (by rw [one_mul, f1]) one_small,
      mul_eval (z := 0) (by rw [zero_mul, fl64_zero]) zero_small,
      add_eval (z := 1) (by rw [add_zero, f1]) one_small]
    exact sub_eval (by rw [sub_self, fl64_zero]) zero_small
  have ed : F64.sqrt fl64 (((F64.num creep).mul fl64 (.num creep)).sub fl64
      ((F64.num (2 ^ (-(2 * T)))).mul fl64 (.num 0))) = .num (2 ^ (-530 : ℤ)) := by
    rw [mul_eval (z := 2 ^ (-1060 : ℤ)) fl_creep_sq (p_small (by norm_num)),
      mul_eval (z := 0) (by rw [mul_zero, fl64_zero]) zero_small,
      sub_eval (z := 2 ^ (-1060 : ℤ)) (by rw [sub_zero, fp _ (by norm_num)])
        (p_small (by norm_num))]
    show (if (2 : ℝ) ^ (-1060 : ℤ) < 0 then _ else F64.pack (fl64 (√(2 ^ (-1060 : ℤ))))) = _
    rw [if_neg (not_lt.2 (two_zpow_pos _).le)]
    have : √((2 : ℝ) ^ (-1060 : ℤ)) = 2 ^ (-530 : ℤ) := by
      rw [show (-1060 : ℤ) = -530 + -530 by norm_num, ← p_mul,
        Real.sqrt_mul_self (two_zpow_pos _).le]
    rw [this, fp _ (by norm_num), F64.pack, if_pos (p_small (by norm_num))]
  have ebd : (F64.num creep).sub fl64 (.num (2 ^ (-530 : ℤ))) = .num (2 ^ (-550 : ℤ)) := by
    refine sub_eval ?_ (p_small (by norm_num))
    have : creep - 2 ^ (-530 : ℤ) = 2 ^ (-550 : ℤ) := by
      rw [show (-530 : ℤ) = 20 + -550 by norm_num, ← p_mul]
      unfold creep
      norm_num
      ring
    rw [this, fp _ (by norm_num)]
  have et : F64.sdiv fl64 (.num (2 ^ (-550 : ℤ))) (.num (2 ^ (-(2 * T)))) =
      .ok (.num (2 ^ (2 * T - 550))) := by
    rw [sdiv_eval (two_zpow_pos _).ne', div_eval (two_zpow_pos _).ne' (z := 2 ^ (2 * T - 550))
      (by
        rw [p_div, show (-550 : ℤ) - -(2 * T) = 2 * T - 550 by ring, fp _ (by omega)])
      (p_small (by omega))]
  refine ⟨gradientI fl64 (.num 1, .num 0) (.num (-creep), .num (2 ^ (-T))) (.num (2 ^ (-(2 * T))))
    (.num creep) (.num (2 ^ (-530 : ℤ))), ?_, ?_⟩
  · unfold gradientI
    dsimp only
    rw [mul_eval (z := -2 ^ (-1060 : ℤ)) (by rw [neg_mul, fl64_neg, fl_creep_sq])
        (by rw [abs_neg]; exact p_small (by norm_num)),
      mul_eval (z := 2 ^ (-(2 * T))) (by rw [one_mul, fp _ (by omega)]) (p_small (by omega)),
      add_eval (z := 2 ^ (-(2 * T))) (by
        rw [add_comm]
        refine fl_absorb (by omega) ?_
        rw [abs_neg, abs_of_pos (two_zpow_pos _)]
        exact p_lt (by omega)) (p_small (by omega)),
      div_eval (two_zpow_pos _).ne' (z := 2 ^ (530 - 2 * T)) (by
        rw [p_div, show -(2 * T) - -530 = 530 - 2 * T by ring, fp _ (by omega)])
        (p_small (by omega)),
      sub_eval (z := -2 ^ (530 - 2 * T)) (by
        rw [show -creep - 2 ^ (530 - 2 * T) = -(2 ^ (530 - 2 * T) + creep) by ring, fl64_neg,
          fl_absorb (by omega)]
        rw [abs_of_pos creep_pos]
        exact creep_lt.trans (p_lt (by omega))) (by rw [abs_neg]; exact p_small (by omega))]
    refine div_eval (two_zpow_pos _).ne' ?_ (by rw [abs_neg]; exact p_small (by norm_num))
    rw [neg_div, p_div, show 530 - 2 * T - -(2 * T) = 530 by ring, fl64_neg, fp _ (by norm_num)]
  · unfold forceSocialCircularI
    dsimp only
    rw [ex, ev, er, ea, eb, ec, ed, ebd, et, if_neg (by
      rintro (h | h | h)
      · exact F64.noConfusion h
      · injection h with h
        exact absurd h (two_zpow_pos _).ne'
      · injection h with h
        exact absurd h (two_zpow_pos _).ne')]
    show (if F64.le (.num (2 ^ (2 * T - 550))) (.num 0) ∨
      F64.gt (.num (2 ^ (2 * T - 550))) (.num 30) then _ else _) = _
    rw [if_neg]
    · rfl
    · rintro (h | h)
      · exact absurd h (not_le.2 (two_zpow_pos _))
      · refine absurd (show (2 : ℝ) ^ (2 * T - 550) > 30 from h) (not_lt.2 ?_)
        exact (p_le (show 2 * T - 550 ≤ 0 by omega)).trans (by norm_num)

/-- The quotients in the magnitude of the force, for a time horizon of three seconds. -/
theorem third_quotients {k : ℤ} (h0 : -1000 ≤ k) (h1 : k ≤ 0) :
    ∃ q e : ℝ, (F64.num 2).sdiv fl64 (.num (2 ^ k)) = .ok (.num (2 ^ (1 - k))) ∧
      (F64.num 1).sdiv fl64 (.num 3) = .ok (.num q) ∧ 0 ≤ q ∧ q ≤ 1 ∧
      (F64.num (2 ^ k)).neg.sdiv fl64 (.num 3) = .ok (.num e) ∧ -(1 / 2) ≤ e ∧ e ≤ 0 := by
  have f1 : fl64 1 = 1 := by simpa using fl64_int (n := 1) (by norm_num)
  have fh : fl64 (1 / 2) = 1 / 2 := by
    have := fl64_two_zpow (e := -1) (by norm_num)
    norm_num at this ⊢
    exact this
  have hk : (2 : ℝ) ^ k ≤ 1 := by simpa using p_le h1
  have h3 : (3 : ℝ) ≠ 0 := by norm_num
  have q0 : 0 ≤ fl64 (1 / 3) := fl64_nonneg (by norm_num)
  have q1 : fl64 (1 / 3) ≤ 1 := by
    have := fl64_mono (show (1 : ℝ) / 3 ≤ 1 by norm_num)
    rwa [f1] at this
  have e0 : fl64 (-2 ^ k / 3) ≤ 0 := by
    have := fl64_mono (show -(2 : ℝ) ^ k / 3 ≤ 0 by linarith [two_zpow_pos k])
    rwa [fl64_zero] at this
  have e1 : -(1 / 2) ≤ fl64 (-2 ^ k / 3) := by
    have := fl64_mono (show -(1 / 2) ≤ -(2 : ℝ) ^ k / 3 by linarith)
    rwa [fl64_neg, fh] at this
  refine ⟨fl64 (1 / 3), fl64 (-2 ^ k / 3), ?_, ?_, q0, q1, ?_, e1, e0⟩
  · rw [sdiv_eval (two_zpow_pos _).ne', div_eval (z := 2 ^ (1 - k)) (two_zpow_pos _).ne' ?_ (p_small (by omega))]
    rw [show (2 : ℝ) / 2 ^ k = 2 ^ (1 : ℤ) / 2 ^ k by norm_num, p_div, fl64_two_zpow (by omega)]
  · rw [sdiv_eval h3, div_eval h3 rfl]
    rw [abs_of_nonneg q0]
    exact q1.trans_lt (by simpa using one_small)
  · show (F64.num (-2 ^ k)).sdiv fl64 (.num 3) = _
    rw [sdiv_eval h3, div_eval h3 rfl]
    rw [abs_of_nonpos e0]
    exact (show -fl64 (-2 ^ k / 3) ≤ 1 by linarith).trans_lt (by simpa using one_small)

theorem pack_inf {x : ℝ} (h : 2 ^ (1024 : ℤ) ≤ x) : F64.pack x = .inf false := by
  have h0 : 0 ≤ x := (two_zpow_pos _).le.trans h
  unfold F64.pack
  rw [if_neg (by rw [abs_of_nonneg h0]; exact not_lt.2 h), decide_eq_false (not_lt.2 h0)]

/-- The square of `2 ^ -550` vanishes: division by zero. -/
theorem magnitude_zero_division {A : Arith} (hr : A.rnd = fl64) :
    magnitudeI A (.num (2 ^ (-550 : ℤ))) (.num 3) = .error .other := by
  obtain ⟨rnd, hyp, exp⟩ := A
  obtain rfl : rnd = fl64 := hr
  obtain ⟨q, e, h1, h2, -, -, h3, -, -⟩ := third_quotients (k := -550) (by norm_num) (by norm_num)
  have ht : (F64.num (2 ^ (-550 : ℤ))).mul fl64 (.num (2 ^ (-550 : ℤ))) = .num 0 := by
    refine mul_eval ?_ zero_small
    rw [p_mul]
    have := fl64_subnormal (x := 2 ^ (-550 + -550 : ℤ)) (m := 0) (two_zpow_pos _).ne'
      (by rw [abs_of_pos (two_zpow_pos _)]; exact p_lt (by norm_num))
      (by
        rw [p_div, Int.cast_zero, sub_zero, abs_of_pos (two_zpow_pos _)]
        exact (p_lt (show (-550 + -550 - -1074 : ℤ) < -1 by norm_num)).trans_le (by norm_num))
    simpa using this
  unfold magnitudeI
  dsimp only
  rw [h1, h2, h3, ht]
  show F64.sdiv fl64 _ (.num 0) = _
  unfold F64.sdiv
  rw [if_pos rfl]

/-- The magnitude of the force overflows. -/
theorem magnitude_overflow :
    magnitudeI Arith.machine (.num (2 ^ (-450 : ℤ))) (.num 3) = .ok (.inf false) := by
  have f1 : fl64 1 = 1 := by simpa using fl64_int (n := 1) (by norm_num)
  have fp : ∀ k : ℤ, -1074 ≤ k → fl64 ((2 : ℝ) ^ k) = 2 ^ k := fun k hk => fl64_two_zpow hk
  obtain ⟨q, e, h1, h2, hq0, hq1, h3, he0, he1⟩ :=
    third_quotients (k := -450) (by norm_num) (by norm_num)
  have ht : (F64.num (2 ^ (-450 : ℤ))).mul fl64 (.num (2 ^ (-450 : ℤ))) = .num (2 ^ (-900 : ℤ)) := by
    refine mul_eval ?_ (p_small (by norm_num))
    rw [p_mul, fp _ (by norm_num)]
    norm_num
  have hE0 : 2 ^ (-1 : ℤ) ≤ fl64 (Real.exp e) := by
    rw [← fp (-1) (by norm_num)]
    refine fl64_mono ?_
    have := Real.add_one_le_exp e
    norm_num
    linarith
  have hE1 : fl64 (Real.exp e) ≤ 1 := by
    rw [← f1]
    exact fl64_mono (Real.exp_le_one_iff.2 he1)
  have hE : F64.exp Arith.machine (.num e) = .num (fl64 (Real.exp e)) := by
    show F64.pack _ = _
    unfold F64.pack
    rw [if_pos]
    · rfl
    show |fl64 (Real.exp e)| < _
    rw [abs_of_nonneg ((two_zpow_pos _).le.trans hE0)]
    exact hE1.trans_lt (by simpa using one_small)
  have h1' : (1 - -450 : ℤ) = 451 := by norm_num
  have hS0 : (2 : ℝ) ^ (451 : ℤ) ≤ fl64 (2 ^ (451 : ℤ) + q) := by
    conv_lhs => rw [← fp 451 (by norm_num)]
    exact fl64_mono (by linarith)
  have hp : (1 : ℝ) ≤ 2 ^ (451 : ℤ) := by
    have := p_le (show (0 : ℤ) ≤ 451 by norm_num)
    rwa [zpow_zero] at this
  have hS1 : fl64 (2 ^ (451 : ℤ) + q) ≤ 2 ^ (452 : ℤ) := by
    rw [← fp 452 (by norm_num)]
    refine fl64_mono ?_
    have : (2 : ℝ) ^ (452 : ℤ) = 2 ^ (451 : ℤ) * 2 := by
      rw [show (452 : ℤ) = 451 + 1 by norm_num, ← p_mul, zpow_one]
    rw [this]
    generalize (2 : ℝ) ^ (451 : ℤ) = y at hp
    linarith
  obtain ⟨S, hS⟩ : ∃ S, fl64 (2 ^ (451 : ℤ) + q) = S := ⟨_, rfl⟩
  obtain ⟨E, hEE⟩ : ∃ E, fl64 (Real.exp e) = E := ⟨_, rfl⟩
  rw [hS] at hS0 hS1
  rw [hEE] at hE0 hE1 hE
  have hpS := (two_zpow_pos 451).trans_le hS0
  have hpE := (two_zpow_pos (-1)).trans_le hE0
  have hP0 : (2 : ℝ) ^ (450 : ℤ) ≤ fl64 (S * E) := by
    rw [← fp 450 (by norm_num)]
    refine fl64_mono ?_
    have := mul_le_mul hS0 hE0 (two_zpow_pos _).le hpS.le
    rw [p_mul] at this
    exact (p_le (by norm_num)).trans this
  have hP1 : fl64 (S * E) ≤ 2 ^ (452 : ℤ) := by
    rw [← fp 452 (by norm_num)]
    refine fl64_mono ?_
    have := mul_le_mul hS1 hE1 hpE.le (two_zpow_pos _).le
    rwa [mul_one] at this
  obtain ⟨P, hP⟩ : ∃ P, fl64 (S * E) = P := ⟨_, rfl⟩
  rw [hP] at hP0 hP1
  have hpP := (two_zpow_pos 450).trans_le hP0
  have a1 : (F64.num (2 ^ (451 : ℤ))).add fl64 (.num q) = .num S := add_eval hS (by
    rw [abs_of_pos hpS]
    exact hS1.trans_lt (p_lt (by norm_num)))
  have a2 : (F64.num S).mul fl64 (.num E) = .num P := mul_eval hP (by
    rw [abs_of_pos hpP]
    exact hP1.trans_lt (p_lt (by norm_num)))
  unfold magnitudeI
  rw [show Arith.machine.rnd = fl64 from rfl, h1, h2, h3, ht, h1']
  show F64.sdiv fl64 (((F64.num (2 ^ (451 : ℤ))).add fl64 (.num q)).mul fl64
    (F64.exp Arith.machine (.num e))) (.num (2 ^ (-900 : ℤ))) = _
  rw [a1, hE, a2, sdiv_eval (two_zpow_pos _).ne']
  congr 1
  show (if (2 : ℝ) ^ (-900 : ℤ) = 0 then _ else F64.pack (fl64 (P / 2 ^ (-900 : ℤ)))) = _
  rw [if_neg (two_zpow_pos _).ne']
  refine pack_inf ?_
  have : fl64 (2 ^ (1350 : ℤ)) ≤ fl64 (P / 2 ^ (-900 : ℤ)) := by
    refine fl64_mono ?_
    rw [le_div_iff₀ (two_zpow_pos _), p_mul]
    exact (p_le (by norm_num)).trans hP0
  rw [fp _ (by norm_num)] at this
  exact (p_le (by norm_num)).trans this

/-- Truncating an infinite vector to a finite length gives NaN. -/
theorem truncate_inf (A : Arith) (s : Bool) (y : F64) (l : ℝ) :
    ∃ z, truncateI A (.inf s, y) (.num l) = .ok (.nan, z) := by
  classical
  have hh : F64.hypot A (.inf s) y = .inf false := by cases y <;> rfl
  unfold truncateI
  dsimp only
  rw [hh, if_pos (show F64.gt (.inf false) (.num l) from rfl)]
  have : F64.sdiv A.rnd (.num l) (.inf false) = .ok (.num 0) := by
    unfold F64.sdiv
    rw [if_neg (fun h => F64.noConfusion h)]
    rfl
  rw [this]
  refine ⟨y.mul A.rnd (.num 0), ?_⟩
  show Except.ok ((F64.inf s).mul A.rnd (.num 0), _) = _
  have : (F64.inf s).mul A.rnd (.num 0) = .nan := by
    unfold F64.mul
    simp
  rw [this]

/-- A large gradient times an infinite magnitude. -/
theorem socialPart_inf {ag : Agent} (hm : ag.mass = 80) (hk : ag.kSoc = 1.5)
    {grad : F64 × F64} (hg : grad.1 = .num (-2 ^ (530 : ℤ))) :
    (socialPartI Arith.machine ag grad (.inf false)).1 = .inf false := by
  unfold socialPartI
  dsimp only
  rw [show Arith.machine.rnd = fl64 from rfl, hm, hk, hg]
  have f120 : fl64 120 = 120 := by simpa using fl64_int (n := 120) (by norm_num)
  have e1 : (F64.num 80).neg.mul fl64 (.num 1.5) = .num (-120) := by
    show (F64.num (-80)).mul fl64 (.num 1.5) = _
    refine mul_eval ?_ ?_
    · rw [show (-80 : ℝ) * 1.5 = -120 by norm_num, fl64_neg, f120]
    · rw [abs_neg, abs_of_pos (by norm_num)]
      exact (show (120 : ℝ) < 2 ^ (7 : ℤ) by norm_num).trans (p_lt (by norm_num))
  have f : fl64 (120 * 2 ^ (530 : ℤ)) = 120 * 2 ^ (530 : ℤ) := by
    have := fl64_of_mul (m := 120) (e := 530) (by norm_num) (by norm_num)
    exact_mod_cast this
  have hpos : (0 : ℝ) < 120 * 2 ^ (530 : ℤ) := mul_pos (by norm_num) (two_zpow_pos _)
  have e2 : (F64.num (-120)).mul fl64 (.num (-2 ^ (530 : ℤ))) = .num (120 * 2 ^ (530 : ℤ)) := by
    refine mul_eval ?_ ?_
    · rw [neg_mul_neg, f]
    · rw [abs_of_pos hpos]
      have := mul_lt_mul_of_pos_right (show (120 : ℝ) < 2 ^ (7 : ℤ) by norm_num)
        (two_zpow_pos 530)
      rw [p_mul] at this
      exact this.trans (p_lt (by norm_num))
  rw [e1, e2]
  obtain ⟨x, hx⟩ : ∃ x : ℝ, 120 * 2 ^ (530 : ℤ) = x := ⟨_, rfl⟩
  rw [hx] at hpos ⊢
  unfold F64.mul
  simp [hpos.ne', not_lt.2 hpos.le]

theorem slider_nan : ∃ y z, forceSocialCircularI Arith.machine (slider 50) stander =
    .ok ((.nan, y), (.nan, z)) := by
  obtain ⟨grad, hg, h⟩ := slider_reduces (T := 50) (by norm_num) (by norm_num)
    (A := Arith.machine) rfl
  rw [h, show (2 * 50 - 550 : ℤ) = -450 by norm_num, magnitude_overflow]
  obtain ⟨p1, p2⟩ : (socialPartI Arith.machine (slider 50) grad (.inf false)).1 = .inf false ∧
      (socialPartI Arith.machine stander grad (.inf false)).1 = .inf false :=
    ⟨socialPart_inf rfl rfl hg, socialPart_inf rfl rfl hg⟩
  obtain ⟨y, hy⟩ := truncate_inf Arith.machine false
    (socialPartI Arith.machine (slider 50) grad (.inf false)).2 fSocMax
  obtain ⟨z, hz⟩ := truncate_inf Arith.machine true
    (socialPartI Arith.machine stander grad (.inf false)).2.neg fSocMax
  refine ⟨y, z, ?_⟩
  rw [show (F64.inf false, (socialPartI Arith.machine (slider 50) grad (.inf false)).2) =
    socialPartI Arith.machine (slider 50) grad (.inf false) from Prod.ext p1.symm rfl] at hy
  rw [show F64.inf true = (socialPartI Arith.machine stander grad (.inf false)).1.neg by
    rw [p2]; rfl] at hz
  show (do
    let forceI ← truncateI Arith.machine (socialPartI Arith.machine (slider 50) grad (.inf false))
      (.num fSocMax)
    let forceJ ← truncateI Arith.machine
      ((socialPartI Arith.machine stander grad (.inf false)).1.neg,
        (socialPartI Arith.machine stander grad (.inf false)).2.neg) (.num fSocMax)
    Except.ok (forceI, forceJ)) = _
  rw [hy, hz]
  rfl

theorem slider_zero_division {A : Arith} (hr : A.rnd = fl64) :
    forceSocialCircularI A (slider 0) stander = .error .other := by
  obtain ⟨grad, -, h⟩ := slider_reduces (T := 0) le_rfl (by norm_num) hr
  rw [h, show (2 * 0 - 550 : ℤ) = -550 by norm_num, magnitude_zero_division hr]
  rfl

end CrowdDynamics
