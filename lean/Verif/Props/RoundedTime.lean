import Verif.Proofs.RoundedTime
import Verif.Props.CoreTests

/-!
# Property C177: the simulation time in floating point
-/

namespace CrowdDynamics

open Spec

/-- The full statement: with rounding, too, the time after `k` updates is `k * dt`, and a run until
the time `limit` makes `⌈limit / dt⌉` updates. -/
def C177_statement : Prop :=
  ∀ dt limit : ℝ, fl64 dt = dt → fl64 limit = limit → 0 < dt → 0 ≤ limit → limit ≤ 2 ^ 25 * dt →
    (∀ k : ℕ, timeAfterF fl64 dt k = k * dt) ∧
    ∃ t, runUntilF fl64 dt limit (⌈limit / dt⌉₊ + 1) = some (.ok (), t)

/-- **C177** False of the code. With the default step 0.01 a run until the time 10 makes 1001
updates, not 1000, because the rounded sum of 1000 steps is below 10. -/
theorem C177_run_length_fails :
    ¬ (∃ t, runUntilF fl64 (fl64 (1 / 100)) 10 1001 = some (.ok (), t)) ∧
    ⌈10 / fl64 (1 / 100)⌉₊ = 1000 ∧ (∃ t, runUntilF fl64 (fl64 (1 / 100)) 10 1002 = some (.ok (), t)) ∧
    ¬ C177_statement := by
  have hsum : ∀ k, timeAfterF fl64 (fl64 (1 / 100)) k = sumNat centi k * 2 ^ (-59 : ℤ) := by
    intro k
    rw [fl64_centi, timeAfterF_nat (by unfold centi; norm_num) (by norm_num)]
  have hdt : (2 : ℝ) ^ (-1022 : ℤ) ≤ fl64 (1 / 100) := by
    refine (zpow_le_zpow_right₀ (by norm_num) (by norm_num : (-1022 : ℤ) ≤ -7)).trans ?_
    exact fl64_ge_two_zpow (by norm_num) (by norm_num)
  have h1000 : timeAfterF fl64 (fl64 (1 / 100)) 1000 < 10 := by
    rw [hsum]
    have h := sum_1000.1
    obtain ⟨S, hS⟩ : ∃ S, sumNat centi 1000 = S := ⟨_, rfl⟩
    rw [hS] at h ⊢
    have : (S : ℝ) < ((10 * 2 ^ 59 : ℕ) : ℝ) := Nat.cast_lt.2 h
    push_cast at this
    norm_num
    linarith
  have h1001 : 10 ≤ timeAfterF fl64 (fl64 (1 / 100)) 1001 := by
    rw [hsum]
    have h := sum_1000.2
    obtain ⟨S, hS⟩ : ∃ S, sumNat centi 1001 = S := ⟨_, rfl⟩
    rw [hS] at h ⊢
    have : ((10 * 2 ^ 59 : ℕ) : ℝ) ≤ (S : ℝ) := Nat.cast_le.2 h
    push_cast at this
    norm_num
    linarith
  have hc : ⌈10 / fl64 (1 / 100)⌉₊ = 1000 := by
    rw [fl64_centi, Nat.ceil_eq_iff (by norm_num)]
    unfold centi
    constructor <;> norm_num
  -- the time grows
  have hmono : ∀ k, timeAfterF fl64 (fl64 (1 / 100)) k ≤ timeAfterF fl64 (fl64 (1 / 100)) (k + 1) := by
    intro k
    have h := fl64_mono (show timeAfterF fl64 (fl64 (1 / 100)) k ≤
      timeAfterF fl64 (fl64 (1 / 100)) k + fl64 (1 / 100) by
        linarith [(two_zpow_pos (-1022)).trans_le hdt])
    have hb : fl64 (timeAfterF fl64 (fl64 (1 / 100)) k) = timeAfterF fl64 (fl64 (1 / 100)) k := by
      cases k with
      | zero => simp [timeAfterF, fl64_zero]
      | succ k => exact fl64_idem _
    rw [hb] at h
    exact h
  have hlt : ∀ k < 1001, timeAfterF fl64 (fl64 (1 / 100)) k < 10 := by
    intro k hk
    exact (monotone_nat_of_le_succ hmono (by omega : k ≤ 1000)).trans_lt h1000
  have hno : ¬ (∃ t, runUntilF fl64 (fl64 (1 / 100)) 10 1001 = some (.ok (), t)) := by
    have hnone : ∀ fuel j call, j + fuel ≤ 1001 →
        simRun (timeUpdateF fl64 (fl64 (1 / 100))) (some fun _ t => decide (10 ≤ t)) fuel call
          (timeAfterF fl64 (fl64 (1 / 100)) j) = none := by
      intro fuel
      induction fuel with
      | zero => intro j call _; rfl
      | succ fuel ih =>
        intro j call hj
        unfold simRun
        have h1 : ¬ 10 ≤ timeAfterF fl64 (fl64 (1 / 100)) j := not_le.2 (hlt j (by omega))
        simp only [Option.elim_some, decide_eq_true_eq, if_neg h1]
        exact ih (j + 1) (call + 1) (by omega)
    rintro ⟨t, ht⟩
    have := hnone 1001 0 0 (by norm_num)
    unfold runUntilF at ht
    rw [show timeAfterF fl64 (fl64 (1 / 100)) 0 = 0 from rfl] at this
    rw [this] at ht
    exact absurd ht (by simp)
  refine ⟨hno, hc, ⟨_, runUntilF_first hlt h1001 (by norm_num)⟩, fun h => hno ?_⟩
  have f10 : fl64 10 = 10 := by have := fl64_int (n := 10) (by norm_num); simpa using this
  have h2 := (h (fl64 (1 / 100)) 10 (fl64_idem _) f10 ((two_zpow_pos _).trans_le hdt) (by norm_num)
    (by rw [fl64_centi]; unfold centi; norm_num)).2
  rw [hc] at h2
  exact h2

/-- **C177** (partial) The time after `k` updates is `k * dt` up to `k` rounding errors of the
final sum. Missing: equality, which is false. -/
theorem C177_time_partial (dt : ℝ) (hdt : (2 : ℝ) ^ (-1022 : ℤ) ≤ dt) (k : ℕ) (hk : k ≤ 2 ^ 53) :
    |timeAfterF fl64 dt k - k * dt| ≤ k * (k * dt) * 2 ^ (-53 : ℤ) := by
  have h := timeAfterF_err hdt hk
  rw [show (k : ℝ) * (k * dt) * 2 ^ (-53 : ℤ) = k ^ 2 * 2 ^ (-53 : ℤ) * dt by ring]
  exact h

/-- **C177** (partial) A run until the time `limit` of at most `2 ** 25` steps makes `m` updates,
where `m` differs from `limit / dt` by less than 3/2; so it makes at most one update more or less
than `⌈limit / dt⌉`. Missing: the exact number. -/
theorem C177_run_length_partial (dt limit : ℝ) (hdt : (2 : ℝ) ^ (-1022 : ℤ) ≤ dt) (h0 : 0 ≤ limit)
    (hl : limit ≤ 2 ^ 25 * dt) :
    ∃ m : ℕ, (∀ fuel, m < fuel → ∃ t, runUntilF fl64 dt limit fuel = some (.ok (), t) ∧
        limit ≤ t ∧ |t - m * dt| ≤ 1 / 2 * dt) ∧
      |(m : ℤ) - ⌈limit / dt⌉| ≤ 1 := by
  have hd0 : 0 < dt := (two_zpow_pos _).trans_le hdt
  obtain ⟨m, h1, h2, h3⟩ := runUntilF_length hdt h0 hl
  have hq : limit / dt ≤ 2 ^ 25 := (div_le_iff₀ hd0).2 hl
  have hm : m ≤ 2 ^ 26 := by
    have : (m : ℝ) < 2 ^ 26 := by
      linarith [show (2 : ℝ) ^ 25 + 3 / 2 ≤ 2 ^ 26 by norm_num]
    exact_mod_cast this.le
  refine ⟨m, fun fuel hf => ⟨_, h1 fuel hf, ?_, ?_⟩, ?_⟩
  · by_contra hlt
    have hsim := h1 fuel hf
    have key : ∀ fuel call s t, simRun (timeUpdateF fl64 dt) (some fun _ t => decide (limit ≤ t)) fuel
        call s = some (.ok (), t) → limit ≤ t := by
      intro fuel
      induction fuel with
      | zero => intro call s t h; simp [simRun] at h
      | succ fuel ih =>
        intro call s t h
        unfold simRun at h
        by_cases hs : limit ≤ s
        · simp only [Option.elim_some, hs, decide_true, if_true, Option.some.injEq,
            Prod.mk.injEq] at h
          rw [← h.2]; exact hs
        · simp only [Option.elim_some, decide_eq_true_eq, if_neg hs] at h
          exact ih _ _ _ h
    exact hlt (key _ _ _ _ hsim)
  · refine (timeAfterF_err hdt (by omega)).trans (mul_le_mul_of_nonneg_right ?_ hd0.le)
    have h1 : (m : ℝ) ≤ 2 ^ 26 := by exact_mod_cast hm
    have h2 : (m : ℝ) ^ 2 ≤ (2 ^ 26) ^ 2 := pow_le_pow_left₀ (Nat.cast_nonneg m) h1 2
    calc (m : ℝ) ^ 2 * 2 ^ (-53 : ℤ) ≤ (2 ^ 26) ^ 2 * 2 ^ (-53 : ℤ) :=
          mul_le_mul_of_nonneg_right h2 (two_zpow_pos _).le
      _ = 1 / 2 := by norm_num
  · have c1 := Int.le_ceil (limit / dt)
    have c2 := Int.ceil_lt_add_one (limit / dt)
    have a1 : ((m : ℤ) : ℝ) < ((⌈limit / dt⌉ + 2 : ℤ) : ℝ) := by push_cast; linarith
    have a2 : ((⌈limit / dt⌉ - 2 : ℤ) : ℝ) < ((m : ℤ) : ℝ) := by push_cast; linarith
    have b1 := Int.cast_lt.1 a1
    have b2 := Int.cast_lt.1 a2
    rw [abs_le]; constructor <;> omega

/-- **C177** The time grows with every update, for `2 ** 53 - 1` steps (a million years at the
default step). -/
theorem C177_time_grows (dt t : ℝ) (hdt : (2 : ℝ) ^ (-1022 : ℤ) ≤ dt) (h0 : 0 ≤ t)
    (ht : t < (2 ^ 53 - 1) * dt) : t < (timeUpdateF fl64 dt t).2 :=
  timeAfterF_lt hdt h0 ht

example := C177_time_grows 1 5 (zpow_le_one_of_nonpos₀ (by norm_num) (by norm_num)) (by norm_num)
  (by norm_num)

/-- **C177** The step of a simulation with equal bounds (as in all shipped simulations) is that
bound in any arithmetic. -/
theorem C177_constant_step {n : ℕ} (A : Arith) (agents : Crowd n) (dt : ℝ) :
    adaptiveTimestepF A agents dt dt = dt := by
  unfold adaptiveTimestepF
  simp only
  split_ifs with h1 h2 h3
  · rfl
  · rfl
  · rfl
  · exact le_antisymm (not_lt.1 h2) (not_lt.1 h3)

/-- The default step, and ten seconds. -/
example : (2 : ℝ) ^ (-1022 : ℤ) ≤ fl64 (1 / 100) ∧ (10 : ℝ) ≤ 2 ^ 25 * fl64 (1 / 100) := by
  have h : (2 : ℝ) ^ (-7 : ℤ) ≤ fl64 (1 / 100) := fl64_ge_two_zpow (by norm_num) (by norm_num)
  refine ⟨(zpow_le_zpow_right₀ (by norm_num) (by norm_num : (-1022 : ℤ) ≤ -7)).trans h, ?_⟩
  norm_num at h ⊢
  linarith

end CrowdDynamics
