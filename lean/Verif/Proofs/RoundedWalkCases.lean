import Verif.Proofs.RoundedWalk
import Mathlib.Analysis.SpecificLimits.Basic

/-!
# Helper lemmas for property C187
-/

namespace CrowdDynamics

open Spec

theorem walkStepF_frame (rnd : ℝ → ℝ) (dt : ℝ) (agent : Agent) (j : ℕ) :
    ((walkStepF rnd dt)^[j] agent).mass = agent.mass ∧
    ((walkStepF rnd dt)^[j] agent).tauAdj = agent.tauAdj ∧
    ((walkStepF rnd dt)^[j] agent).targetVelocity = agent.targetVelocity ∧
    ((walkStepF rnd dt)^[j] agent).targetDirection = agent.targetDirection := by
  induction j with
  | zero => exact ⟨rfl, rfl, rfl, rfl⟩
  | succ j ih =>
    rw [Function.iterate_succ_apply']
    exact ih

theorem forceAdjustF_fl64 (m τ v0 e v : ℝ) :
    fl64 (0 + forceAdjustF fl64 m τ v0 e v) = forceAdjustF fl64 m τ v0 e v := by
  rw [zero_add]
  exact (binary64_iff _).1 (binary64_fl64 _)

theorem walkSeq_fst {dt : ℝ} {agent : Agent} (h0 : (2 : ℝ) ^ (-500 : ℤ) ≤ dt) (h1 : dt ≤ 1)
    (hp : agent.forcePrev = 0) (hv : Binary64 agent.velocity.1) :
    WalkSeq dt agent.mass agent.tauAdj agent.targetVelocity agent.targetDirection.1
      (fun j => ((walkStepF fl64 dt)^[j] agent).velocity.1)
      (fun j => ((walkStepF fl64 dt)^[j] agent).forcePrev.1) where
  float := by
    intro j
    cases j with
    | zero => exact hv
    | succ j =>
      simp only [Function.iterate_succ_apply']
      exact binary64_fl64 _
  first := by
    simp only [Function.iterate_zero, id_eq, hp]
    rfl
  force := by
    intro j
    obtain ⟨a, b, c, d⟩ := walkStepF_frame fl64 dt agent j
    simp only [Function.iterate_succ_apply']
    rw [← a, ← b, ← c, ← d]
    exact forceAdjustF_fl64 _ _ _ _ _
  speed := by
    intro j
    obtain ⟨a, b, c, d⟩ := walkStepF_frame fl64 dt agent j
    simp only [Function.iterate_succ_apply']
    rw [← a]
    exact (C179_verlet_partial dt (forceAdjustRowF fl64
      { (walkStepF fl64 dt)^[j] agent with force := 0 }) h0 h1).1

theorem walkSeq_snd {dt : ℝ} {agent : Agent} (h0 : (2 : ℝ) ^ (-500 : ℤ) ≤ dt) (h1 : dt ≤ 1)
    (hp : agent.forcePrev = 0) (hv : Binary64 agent.velocity.2) :
    WalkSeq dt agent.mass agent.tauAdj agent.targetVelocity agent.targetDirection.2
      (fun j => ((walkStepF fl64 dt)^[j] agent).velocity.2)
      (fun j => ((walkStepF fl64 dt)^[j] agent).forcePrev.2) where
  float := by
    intro j
    cases j with
    | zero => exact hv
    | succ j =>
      simp only [Function.iterate_succ_apply']
      exact binary64_fl64 _
  first := by
    simp only [Function.iterate_zero, id_eq, hp]
    rfl
  force := by
    intro j
    obtain ⟨a, b, c, d⟩ := walkStepF_frame fl64 dt agent j
    simp only [Function.iterate_succ_apply']
    rw [← a, ← b, ← c, ← d]
    exact forceAdjustF_fl64 _ _ _ _ _
  speed := by
    intro j
    obtain ⟨a, b, c, d⟩ := walkStepF_frame fl64 dt agent j
    simp only [Function.iterate_succ_apply']
    rw [← a]
    exact (C179_verlet_partial dt (forceAdjustRowF fl64
      { (walkStepF fl64 dt)^[j] agent with force := 0 }) h0 h1).2.1

/-- The bound of `walkSeq_bound` against the exact desired velocity. -/
theorem walkSeq_limit {dt m τ v0 e : ℝ} {V P : ℕ → ℝ} (H : WalkSeq dt m τ v0 e V P)
    (hm : (2 : ℝ) ^ (-100 : ℤ) ≤ m) (hτ0 : 0 < τ) (hτ : τ ≤ 2 ^ (100 : ℤ)) (hdt0 : 0 < dt)
    (hdt : dt ≤ 1) (hlo : (2 : ℝ) ^ (-40 : ℤ) ≤ dt / τ) (hhi : dt / τ ≤ 3 / 10) (j : ℕ) :
    |V j - v0 * e| ≤ 2 * (1 - dt / τ) ^ j * |V 0 - v0 * e| +
      (2 ^ (-43 : ℤ) * (|v0 * e| + |V 0|) + 2 ^ (-890 : ℤ)) / (dt / τ) := by
  have main := walkSeq_bound H hm hτ0 hτ hdt0 hdt hlo hhi j
  have hδ := fl64_err_gen (v0 * e)
  obtain ⟨w, hw⟩ : ∃ w, v0 * e = w := ⟨_, rfl⟩
  obtain ⟨U, hU⟩ : ∃ U, fl64 (v0 * e) = U := ⟨_, rfl⟩
  obtain ⟨h, hh⟩ : ∃ h, dt / τ = h := ⟨_, rfl⟩
  rw [hU, hh] at main
  rw [hU, hw] at hδ
  rw [hh] at hlo hhi
  rw [hw, hh]
  have hh0 : 0 < h := (two_zpow_pos _).trans_le hlo
  have tiny : (2 : ℝ) ^ (-1075 : ℤ) * 4 + 2 ^ (-900 : ℤ) * 4 ≤ 2 ^ (-890 : ℤ) := by
    have h1 : (2 : ℝ) ^ (-1075 : ℤ) ≤ 2 ^ (-900 : ℤ) :=
      zpow_le_zpow_right₀ (by norm_num) (by norm_num)
    have h2 : (2 : ℝ) ^ (-900 : ℤ) * 8 ≤ 2 ^ (-890 : ℤ) := by
      rw [show (8 : ℝ) = 2 ^ (3 : ℤ) by norm_num, ← zpow_add₀ (by norm_num)]
      exact zpow_le_zpow_right₀ (by norm_num) (by norm_num)
    linarith
  obtain ⟨ζ, hζ⟩ : ∃ ζ, (2 : ℝ) ^ (-1075 : ℤ) = ζ := ⟨_, rfl⟩
  obtain ⟨θ, hθ⟩ : ∃ θ, (2 : ℝ) ^ (-900 : ℤ) = θ := ⟨_, rfl⟩
  obtain ⟨κ, hκ⟩ : ∃ κ, (2 : ℝ) ^ (-890 : ℤ) = κ := ⟨_, rfl⟩
  have hζ0 : 0 < ζ := hζ ▸ two_zpow_pos _
  have hθ0 : 0 < θ := hθ ▸ two_zpow_pos _
  rw [hζ] at hδ
  rw [hζ, hθ, hκ] at tiny
  rw [hθ] at main
  rw [hκ]
  have hpow0 : 0 ≤ (1 - h) ^ j := pow_nonneg (by linarith) _
  have hpow1 : (1 - h) ^ j ≤ 1 := pow_le_one₀ (by linarith) (by linarith)
  have t1 : |V 0 - U| ≤ |V 0 - w| + |U - w| := by
    have := abs_sub (V 0 - w) (U - w)
    rwa [show V 0 - w - (U - w) = V 0 - U by ring] at this
  have t2 : |V j - w| ≤ |V j - U| + |U - w| := by
    have := abs_add_le (V j - U) (U - w)
    rwa [show V j - U + (U - w) = V j - w by ring] at this
  have t3 : |V 0 - w| ≤ |V 0| + |w| := abs_sub _ _
  have t4 : |U| ≤ |w| + |U - w| := by
    have := abs_add_le w (U - w)
    rwa [show w + (U - w) = U by ring] at this
  have t5 : 2 * (1 - h) ^ j * |V 0 - U| ≤ 2 * (1 - h) ^ j * |V 0 - w| + 2 * |U - w| := by
    have := mul_le_mul_of_nonneg_left t1 hpow0
    have := mul_le_mul_of_nonneg_right hpow1 (abs_nonneg (U - w))
    linarith
  have hw0 := abs_nonneg w
  have hV0 := abs_nonneg (V 0)
  have num : 3 * |U - w| + (3 * (2 ^ (-49 : ℤ) * |U| + θ) + 16 * 2 ^ (-48 : ℤ) * |V 0 - U|) / h ≤
      (2 ^ (-43 : ℤ) * (|w| + |V 0|) + κ) / h := by
    have g : 3 * |U - w| ≤ |U - w| / h := by
      rw [le_div_iff₀ hh0]
      have := mul_le_mul_of_nonneg_left hhi (abs_nonneg (U - w))
      linarith [abs_nonneg (U - w)]
    refine (add_le_add g le_rfl).trans ?_
    rw [← add_div]
    refine div_le_div_of_nonneg_right ?_ hh0.le
    norm_num at hδ ⊢
    linarith
  linarith

/-- A bound that decays to less than the rounding errors. -/
theorem walk_eventually {h d w v : ℝ} {E : ℕ → ℝ} (hh0 : 0 < h) (hhi : h ≤ 3 / 10)
    (bound : ∀ j, |E j| ≤ 2 * (1 - h) ^ j * d +
      (2 ^ (-43 : ℤ) * (|w| + |v|) + 2 ^ (-890 : ℤ)) / h)
    (hw : (2 : ℝ) ^ (-500 : ℤ) ≤ |w|) :
    ∀ᶠ j in Filter.atTop, |E j| < 2 ^ (-42 : ℤ) * (|w| + |v|) / h := by
  have lim : Filter.Tendsto (fun j : ℕ => 2 * (1 - h) ^ j * d +
      (2 ^ (-43 : ℤ) * (|w| + |v|) + 2 ^ (-890 : ℤ)) / h) Filter.atTop
      (nhds (2 * 0 * d + (2 ^ (-43 : ℤ) * (|w| + |v|) + 2 ^ (-890 : ℤ)) / h)) :=
    ((tendsto_pow_atTop_nhds_zero_of_lt_one (by linarith) (by linarith)).const_mul 2
      |>.mul_const d).add tendsto_const_nhds
  have lt : 2 * 0 * d + (2 ^ (-43 : ℤ) * (|w| + |v|) + 2 ^ (-890 : ℤ)) / h <
      2 ^ (-42 : ℤ) * (|w| + |v|) / h := by
    rw [mul_zero, zero_mul, zero_add]
    refine div_lt_div_of_pos_right ?_ hh0
    have e : (2 : ℝ) ^ (-890 : ℤ) < 2 ^ (-43 : ℤ) * |w| := by
      refine lt_of_lt_of_le ?_ (mul_le_mul_of_nonneg_left hw (two_zpow_pos _).le)
      rw [← zpow_add₀ (by norm_num)]
      exact zpow_lt_zpow_right₀ (by norm_num) (by norm_num)
    have p : (2 : ℝ) ^ (-42 : ℤ) = 2 * 2 ^ (-43 : ℤ) := by norm_num
    have := mul_nonneg (two_zpow_pos (-43)).le (abs_nonneg v)
    rw [p]
    linarith
  exact (lim.eventually_lt_const lt).mono fun j hj => (bound j).trans_lt hj

/-- An agent that stays slower than it wants. -/
theorem walk_stall {dt : ℝ} {agent : Agent} (dt0 : 0 < dt) (dt1 : dt ≤ 1 / 8)
    (hv : agent.velocity.1 = 1 - 2 ^ (-53 : ℤ)) (hm : agent.mass = 64) (hτ : agent.tauAdj = 1 / 2)
    (ht : agent.targetVelocity = 1) (hd : agent.targetDirection = (1, 0))
    (hp : agent.forcePrev = 0) (j : ℕ) :
    ((walkStepF fl64 dt)^[j] agent).velocity.1 = 1 - 2 ^ (-53 : ℤ) ∧
    (((walkStepF fl64 dt)^[j] agent).forcePrev.1 = 0 ∨
      ((walkStepF fl64 dt)^[j] agent).forcePrev.1 = 2 ^ (-46 : ℤ)) := by
  have pw : ∀ n : ℤ, -1074 ≤ n → fl64 ((2 : ℝ) ^ n) = 2 ^ n := fun n hn => fl64_two_zpow hn
  have lost : ∀ x : ℝ, 0 ≤ x → x ≤ 2 ^ (-55 : ℤ) →
      fl64 (1 - 2 ^ (-53 : ℤ) + x) = 1 - 2 ^ (-53 : ℤ) := by
    intro x x0 x1
    have := fl64_eq_of_near (x := 1 - 2 ^ (-53 : ℤ) + x) (m := 2 ^ 53 - 1) (e := -53) (by
      rw [abs_of_pos (by norm_num; linarith)]; norm_num at x1 ⊢; linarith) (by
      rw [abs_of_pos (by norm_num; linarith)]; norm_num at x1 ⊢; linarith) (by norm_num) (by
      rw [abs_lt]; norm_num at x1 ⊢; constructor <;> linarith)
    rw [this]
    norm_num
  have force : forceAdjustF fl64 64 (1 / 2) 1 1 (1 - 2 ^ (-53 : ℤ)) = 2 ^ (-46 : ℤ) := by
    unfold forceAdjustF
    rw [show (64 : ℝ) / (1 / 2) = 2 ^ (7 : ℤ) by norm_num, show (1 : ℝ) * 1 = 2 ^ (0 : ℤ) by norm_num,
      pw _ (by norm_num), pw _ (by norm_num),
      show (2 : ℝ) ^ (0 : ℤ) - (1 - 2 ^ (-53 : ℤ)) = 2 ^ (-53 : ℤ) by norm_num,
      pw _ (by norm_num), ← zpow_add₀ (by norm_num)]
    exact pw _ (by norm_num)
  induction j with
  | zero => exact ⟨hv, Or.inl (by rw [Function.iterate_zero, id_eq, hp]; rfl)⟩
  | succ j ih =>
    obtain ⟨a, b, c, d⟩ := walkStepF_frame fl64 dt agent j
    rw [Function.iterate_succ_apply']
    obtain ⟨x, hx⟩ : ∃ x, (walkStepF fl64 dt)^[j] agent = x := ⟨_, rfl⟩
    rw [hx] at ih a b c d ⊢
    have fp : (forceAdjustRowF fl64 { x with force := 0 }).force.1 = 2 ^ (-46 : ℤ) := by
      refine (forceAdjustF_fl64 _ _ _ _ _).trans ?_
      rw [ih.1, a, b, c, d, hm, hτ, ht, hd]
      exact force
    refine ⟨?_, Or.inr fp⟩
    have hmx : (forceAdjustRowF fl64 { x with force := 0 }).mass = 64 := by
      rw [← hm, ← a]
      rfl
    have q46 : fl64 ((2 : ℝ) ^ (-46 : ℤ) / 64) = 2 ^ (-52 : ℤ) := by
      rw [show (64 : ℝ) = 2 ^ (6 : ℤ) by norm_num, ← zpow_sub₀ (by norm_num)]
      exact pw _ (by norm_num)
    have inc : ∀ k : ℤ, -1000 ≤ k → k ≤ -52 → 0 ≤ fl64 ((2 : ℝ) ^ k * dt) ∧
        fl64 ((2 : ℝ) ^ k * dt) ≤ 2 ^ (-55 : ℤ) := by
      intro k k0 k1
      constructor
      · have := fl64_mono (mul_nonneg (two_zpow_pos k).le dt0.le)
        rwa [fl64_zero] at this
      · rw [← pw (-55) (by norm_num)]
        refine fl64_mono ?_
        have h1 : (2 : ℝ) ^ k ≤ 2 ^ (-52 : ℤ) := zpow_le_zpow_right₀ (by norm_num) k1
        have := mul_le_mul h1 dt1 dt0.le (two_zpow_pos _).le
        refine this.trans (le_of_eq ?_)
        norm_num
    change fl64 (x.velocity.1 + fl64 (fl64 (fl64 (fl64 (x.forcePrev.1 / x.mass) +
      fl64 ((forceAdjustRowF fl64 { x with force := 0 }).force.1 / x.mass)) / 2) * dt)) = _
    rw [fp, ih.1, a, hm, q46]
    rcases ih.2 with h | h
    · rw [h, zero_div, fl64_zero, zero_add, pw _ (by norm_num),
        show (2 : ℝ) ^ (-52 : ℤ) / 2 = 2 ^ (-53 : ℤ) by norm_num, pw _ (by norm_num)]
      obtain ⟨i0, i1⟩ := inc (-53) (by norm_num) (by norm_num)
      exact lost _ i0 i1
    · rw [h, q46, show (2 : ℝ) ^ (-52 : ℤ) + 2 ^ (-52 : ℤ) = 2 ^ (-51 : ℤ) by norm_num,
        pw _ (by norm_num), show (2 : ℝ) ^ (-51 : ℤ) / 2 = 2 ^ (-52 : ℤ) by norm_num,
        pw _ (by norm_num)]
      obtain ⟨i0, i1⟩ := inc (-52) (by norm_num) (by norm_num)
      exact lost _ i0 i1

end CrowdDynamics
