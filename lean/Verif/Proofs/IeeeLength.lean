import Verif.Proofs.IeeeWitness
import Verif.Proofs.VectorTests

/-!
# The length of a truncated vector

Helper lemmas for C184.
-/

namespace CrowdDynamics

open Spec Real

theorem bare_length {hyp : ℝ → ℝ → ℝ} (H : AccurateHypot hyp) {x y : ℝ} (h : hyp x y ≤ 2000) :
    √(x ^ 2 + y ^ 2) ≤ 2000 + 1 / 10 ^ 9 := by
  have hn := H.near x y
  have ht := tiny_le (j := -79) (by norm_num)
  obtain ⟨s, hs⟩ : ∃ s, √(x ^ 2 + y ^ 2) = s := ⟨_, rfl⟩
  rw [hs] at hn ⊢
  obtain ⟨T, hT⟩ : ∃ T : ℝ, (2 : ℝ) ^ (-1074 : ℤ) = T := ⟨_, rfl⟩
  rw [hT] at hn ht
  have := (abs_le.1 hn).1
  norm_num at this ht
  linarith

theorem cut_length {hyp : ℝ → ℝ → ℝ} (H : AccurateHypot hyp) {x y : ℝ} (h : 2000 < hyp x y)
    (hb : hyp x y < 2 ^ (1024 : ℤ)) :
    √(fl64 (x * fl64 (2000 / hyp x y)) ^ 2 + fl64 (y * fl64 (2000 / hyp x y)) ^ 2) ≤
      2000 + 1 / 10 ^ 9 := by
  have hn := H.near x y
  have ht := tiny_le (j := -79) (by norm_num)
  have hbig : (2 : ℝ) ^ (-27 : ℤ) ≤ √(x ^ 2 + y ^ 2) := by
    obtain ⟨s, hs⟩ : ∃ s, √(x ^ 2 + y ^ 2) = s := ⟨_, rfl⟩
    rw [hs] at hn ⊢
    obtain ⟨T, hT⟩ : ∃ T : ℝ, (2 : ℝ) ^ (-1074 : ℤ) = T := ⟨_, rfl⟩
    rw [hT] at hn ht
    have := (abs_le.1 hn).2
    norm_num at this ht ⊢
    linarith
  obtain ⟨hL0, hq⟩ := hypot_rel H hbig
  have hxs := abs_le_norm_pair x y
  obtain ⟨L, hL⟩ : ∃ L, hyp x y = L := ⟨_, rfl⟩
  have hN := norm_pair_mul (2000 / L) x y
  rw [abs_of_pos (div_pos (by norm_num) (hL ▸ hL0))] at hN
  have hlip := fun p q : ℝ => norm_pair_lip p q (2000 / L * x) (2000 / L * y)
  rw [hN] at hlip
  rw [hL] at h hb hL0 hq ⊢
  clear hn hN
  obtain ⟨s, hs⟩ : ∃ s, √(x ^ 2 + y ^ 2) = s := ⟨_, rfl⟩
  rw [hs] at hbig hq hxs hlip
  have hsL : s ≤ L * (1 + 2 ^ (-50 : ℤ)) := by
    have := (abs_le.1 hq).2
    have h1 : s / L ≤ 1 + 2 ^ (-50 : ℤ) := by linarith
    rw [div_le_iff₀ hL0] at h1
    linarith
  have hs0 : 0 ≤ s := (two_zpow_pos _).le.trans hbig
  have hseta : s * 2 ^ (-1075 : ℤ) ≤ 2 ^ (-50 : ℤ) := by
    have h1 : s ≤ 2 ^ (1025 : ℤ) := by
      refine hsL.trans ?_
      have h2 : L * (1 + 2 ^ (-50 : ℤ)) ≤ 2 ^ (1024 : ℤ) * 2 ^ (1 : ℤ) :=
        mul_le_mul hb.le (by norm_num) (by norm_num) (two_zpow_pos _).le
      rw [p_mul] at h2
      exact h2
    have := mul_le_mul_of_nonneg_right h1 (two_zpow_pos (-1075)).le
    rw [p_mul] at this
    exact this
  obtain ⟨g, hg⟩ : ∃ g, 2000 / L = g := ⟨_, rfl⟩
  have hsg : g * s ≤ 2000 * (1 + 2 ^ (-50 : ℤ)) := by
    rw [← hg, div_mul_eq_mul_div, div_le_iff₀ hL0]
    linarith
  have hg0 : 0 ≤ g := by rw [← hg]; positivity
  have hf := fl64_err_gen g
  rw [abs_of_nonneg hg0] at hf
  rw [hg] at hlip ⊢
  obtain ⟨f, hfe⟩ : ∃ f, fl64 g = f := ⟨_, rfl⟩
  rw [hfe] at hf ⊢
  have key : ∀ z : ℝ, |z| ≤ s → |fl64 (z * f) - g * z| ≤ 2 ^ (-40 : ℤ) := by
    intro z hz
    have e1 : |z * f - g * z| ≤ s * (g * 2 ^ (-53 : ℤ) + 2 ^ (-1075 : ℤ)) := by
      rw [show z * f - g * z = z * (f - g) by ring, abs_mul]
      exact mul_le_mul hz hf (abs_nonneg _) hs0
    have e2 : |z * f - g * z| ≤ 2001 * 2 ^ (-53 : ℤ) + 2 ^ (-50 : ℤ) := by
      refine e1.trans ?_
      have : s * (g * 2 ^ (-53 : ℤ)) ≤ 2001 * 2 ^ (-53 : ℤ) := by
        rw [← mul_assoc, mul_comm s g]
        refine mul_le_mul_of_nonneg_right (hsg.trans ?_) (two_zpow_pos _).le
        norm_num
      rw [mul_add]
      exact add_le_add this hseta
    have e3 : |g * z| ≤ 2001 := by
      rw [abs_mul, abs_of_nonneg hg0]
      refine (mul_le_mul_of_nonneg_left hz hg0).trans (hsg.trans ?_)
      norm_num
    have e4 : |z * f| ≤ 2002 := by
      have := abs_sub_abs_le_abs_sub (z * f) (g * z)
      norm_num at e2
      linarith
    have e5 := fl64_err_abs e4
    have e6 := abs_sub_le (fl64 (z * f)) (z * f) (g * z)
    have e7 : (2002 : ℝ) * 2 ^ (-53 : ℤ) + 2 ^ (-200 : ℤ) +
        (2001 * 2 ^ (-53 : ℤ) + 2 ^ (-50 : ℤ)) ≤ 2 ^ (-40 : ℤ) := by norm_num
    linarith
  have := (abs_le.1 (hlip (fl64 (x * f)) (fl64 (y * f)))).2
  have k1 := key x hxs.1
  have k2 := key y hxs.2
  norm_num at k1 k2 hsg ⊢
  linarith

/-- A vector that `truncate` returns with finite components is not longer than the limit, up to
rounding. -/
theorem truncateI_length {A : Arith} (hr : A.rnd = fl64) (H : AccurateHypot A.hypot)
    {v : F64 × F64} {p q : ℝ} (h : truncateI A v (.num fSocMax) = .ok (.num p, .num q)) :
    √(p ^ 2 + q ^ 2) ≤ 2000 + 1 / 10 ^ 9 := by
  classical
  obtain ⟨rnd, hyp, exp⟩ := A
  obtain rfl : rnd = fl64 := hr
  obtain ⟨X, Y⟩ := v
  have hinf : F64.hypot ⟨fl64, hyp, exp⟩ X Y = .inf false →
      X.mul fl64 (.num 0) = .num p ∧ Y.mul fl64 (.num 0) = .num q := by
    intro hh
    unfold truncateI at h
    dsimp only at h
    rw [hh, if_pos (show F64.gt (.inf false) (.num fSocMax) from rfl)] at h
    have : F64.sdiv fl64 (.num fSocMax) (.inf false) = .ok (.num 0) := by
      unfold F64.sdiv
      rw [if_neg (fun h => F64.noConfusion h)]
      rfl
    rw [this] at h
    injection h with h
    injection h with h1 h2
    exact ⟨h1, h2⟩
  have hbad : ∀ s, F64.mul fl64 (.inf s) (.num 0) = .nan := by
    intro s
    unfold F64.mul
    simp
  have hnan : F64.hypot ⟨fl64, hyp, exp⟩ X Y = .nan → X = .num p ∧ Y = .num q := by
    intro hh
    unfold truncateI at h
    dsimp only at h
    rw [hh, if_neg (show ¬ F64.gt .nan (.num fSocMax) from id)] at h
    injection h with h
    injection h with h1 h2
    exact ⟨h1, h2⟩
  rcases X with _ | s | x
  · rcases Y with _ | t | y
    · exact F64.noConfusion (hnan rfl).1
    · exact F64.noConfusion (hinf rfl).1
    · exact F64.noConfusion (hnan rfl).1
  · have := (hinf (by cases Y <;> rfl)).1
    rw [hbad] at this
    exact F64.noConfusion this
  · rcases Y with _ | t | y
    · exact F64.noConfusion (hnan rfl).2
    · have := (hinf rfl).2
      rw [hbad] at this
      exact F64.noConfusion this
    · have hL0 := H.nonneg x y
      have hh : F64.hypot ⟨fl64, hyp, exp⟩ (.num x) (.num y) = .pack (hyp x y) := rfl
      by_cases hb : |hyp x y| < 2 ^ (1024 : ℤ)
      · rw [F64.pack, if_pos hb] at hh
        rw [abs_of_nonneg hL0] at hb
        unfold truncateI at h
        dsimp only at h
        rw [hh] at h
        by_cases hl : 2000 < hyp x y
        · rw [if_pos (show F64.gt (.num (hyp x y)) (.num fSocMax) from hl),
            sdiv_eval (by linarith)] at h
          have e : F64.div fl64 (.num fSocMax) (.num (hyp x y)) =
              .num (fl64 (2000 / hyp x y)) := by
            refine div_eval (by linarith) rfl ?_
            show |fl64 (fSocMax / hyp x y)| < _
            have h0 : 0 ≤ fSocMax / hyp x y := div_nonneg (by norm_num [fSocMax]) hL0
            rw [abs_of_nonneg (fl64_nonneg h0)]
            have : fSocMax / hyp x y ≤ 2 ^ (0 : ℤ) := by
              rw [zpow_zero, div_le_one (by linarith)]
              exact hl.le
            exact (fl64_le_two_zpow (by norm_num) this).trans_lt (p_lt (by norm_num))
          have h' : Except.ok ((F64.num x).mul fl64 (F64.div fl64 (.num fSocMax) (.num (hyp x y))),
              (F64.num y).mul fl64 (F64.div fl64 (.num fSocMax) (.num (hyp x y)))) =
              (Except.ok (F64.num p, F64.num q) : Except PyErr (F64 × F64)) := h
          rw [e] at h'
          injection h' with h'
          injection h' with h1 h2
          have unpack : ∀ a b : ℝ, F64.pack a = .num b → b = a := by
            intro a b hab
            unfold F64.pack at hab
            split_ifs at hab
            injection hab with hab
            exact hab.symm
          rw [unpack _ _ h1, unpack _ _ h2]
          exact cut_length H hl hb
        · rw [if_neg (show ¬ F64.gt (.num (hyp x y)) (.num fSocMax) from hl)] at h
          injection h with h
          injection h with h1 h2
          injection h1 with h1
          injection h2 with h2
          rw [← h1, ← h2]
          exact bare_length H (not_lt.1 hl)
      · have hv : F64.pack (hyp x y) = .inf false := by
          unfold F64.pack
          rw [if_neg hb, decide_eq_false (not_lt.2 hL0)]
        obtain ⟨h1, h2⟩ := hinf (hh.trans hv)
        have z : ∀ a : ℝ, F64.mul fl64 (.num a) (.num 0) = .num 0 := fun a =>
          mul_eval (by rw [mul_zero, fl64_zero]) zero_small
        rw [z] at h1 h2
        injection h1 with h1
        injection h2 with h2
        rw [← h1, ← h2]
        norm_num

/-- The same for the forces on both agents. -/
theorem forceSocialCircularI_length {A : Arith} (hr : A.rnd = fl64) (H : AccurateHypot A.hypot)
    {ai aj : Agent} {p q r s : ℝ}
    (h : forceSocialCircularI A ai aj = .ok ((.num p, .num q), (.num r, .num s))) :
    √(p ^ 2 + q ^ 2) ≤ 2000 + 1 / 10 ^ 9 ∧ √(r ^ 2 + s ^ 2) ≤ 2000 + 1 / 10 ^ 9 := by
  classical
  have hz : ∀ {p q r s : ℝ}, (Except.ok ((F64.num 0, F64.num 0), (F64.num 0, F64.num 0)) :
      Except PyErr ((F64 × F64) × (F64 × F64))) = .ok ((.num p, .num q), (.num r, .num s)) →
      √(p ^ 2 + q ^ 2) ≤ 2000 + 1 / 10 ^ 9 ∧ √(r ^ 2 + s ^ 2) ≤ 2000 + 1 / 10 ^ 9 := by
    intro p q r s h
    injection h with h
    injection h with h1 h2
    injection h1 with h3 h4
    injection h2 with h5 h6
    injection h3 with h3
    injection h4 with h4
    injection h5 with h5
    injection h6 with h6
    rw [← h3, ← h4, ← h5, ← h6]
    norm_num
  unfold forceSocialCircularI at h
  dsimp only at h
  split_ifs at h
  · exact hz h
  · revert h
    rcases F64.sdiv A.rnd _ _ with e | tau
    · intro h
      cases h
    · intro h
      change (if _ then _ else _) = _ at h
      split_ifs at h
      · exact hz h
      · revert h
        rcases magnitudeI A tau (.num ai.tau0) with e | magI
        · intro h
          cases h
        rcases magnitudeI A tau (.num aj.tau0) with e | magJ
        · intro h
          cases h
        intro h
        change (truncateI A _ _ >>= fun forceI => truncateI A _ _ >>= fun forceJ =>
          Except.ok (forceI, forceJ)) = _ at h
        revert h
        rcases h1 : truncateI A _ (.num fSocMax) with e | fi
        · intro h
          cases h
        rcases h2 : truncateI A _ (.num fSocMax) with e | fj
        · intro h
          cases h
        intro h
        change Except.ok (fi, fj) = _ at h
        injection h with h
        injection h with h3 h4
        rw [h3] at h1
        rw [h4] at h2
        exact ⟨truncateI_length hr H h1, truncateI_length hr H h2⟩

end CrowdDynamics
