import Verif.Model.RoundedMotion
import Verif.Proofs.CoreTests
import Verif.Proofs.RunLength

/-!
# Sums of equal time steps with rounding
-/

namespace CrowdDynamics

open Spec

/-- Rounding to 53 binary digits, for natural numbers. -/
def roundNat (m : ℕ) : ℕ :=
  let p := 2 ^ (Nat.log2 m - 52)
  let q := m / p
  let r := 2 * (m % p)
  if r < p then q * p
  else if p < r then (q + 1) * p
  else if q % 2 = 0 then q * p
  else (q + 1) * p

theorem roundNat_eq {m s P : ℕ} (hs : Nat.log2 m = s + 52) (hPe : 2 ^ s = P) (hP : 0 < P) :
    (roundNat m : ℝ) = halfEven ((m : ℝ) / P) * P := by
  have hPpos : (0 : ℝ) < P := by exact_mod_cast hP
  have hPr : (P : ℝ) ≠ 0 := hPpos.ne'
  have hfrac : (m : ℝ) / P - ((m / P : ℕ) : ℝ) = ((m % P : ℕ) : ℝ) / P := by
    rw [eq_div_iff hPr, sub_mul, div_mul_cancel₀ _ hPr]
    have : ((P * (m / P) + m % P : ℕ) : ℝ) = m := by exact_mod_cast Nat.div_add_mod m P
    push_cast at this
    linarith
  have hfloor : ⌊(m : ℝ) / P⌋ = ((m / P : ℕ) : ℤ) := by
    rw [Int.floor_eq_iff]
    have h0 : 0 ≤ ((m % P : ℕ) : ℝ) / P := by positivity
    have h1 : ((m % P : ℕ) : ℝ) / P < 1 := by
      rw [div_lt_one hPpos]; exact_mod_cast Nat.mod_lt m hP
    rw [Int.cast_natCast]
    constructor <;> linarith
  have key : (roundNat m : ℝ) = halfEven ((m : ℝ) / P) * P := by
    unfold roundNat halfEven
    have e1 : Nat.log2 m - 52 = s := by omega
    simp only [e1, hPe, hfloor, Int.cast_natCast, hfrac]
    have c1 : (2 * (m % P) < P) ↔ ((m % P : ℕ) : ℝ) / P < 1 / 2 := by
      rw [div_lt_iff₀ hPpos]
      rw [← Nat.cast_lt (α := ℝ)]
      push_cast
      constructor <;> intro h <;> linarith
    have c2 : (P < 2 * (m % P)) ↔ 1 / 2 < ((m % P : ℕ) : ℝ) / P := by
      rw [lt_div_iff₀ hPpos]
      rw [← Nat.cast_lt (α := ℝ)]
      push_cast
      constructor <;> intro h <;> linarith
    have c3 : (m / P % 2 = 0) ↔ Even ((m / P : ℕ) : ℤ) := by
      rw [Int.even_coe_nat, Nat.even_iff]
    by_cases h1 : 2 * (m % P) < P
    · rw [if_pos h1, if_pos (c1.1 h1)]; push_cast; rfl
    · rw [if_neg h1, if_neg (mt c1.2 h1)]
      by_cases h2 : P < 2 * (m % P)
      · rw [if_pos h2, if_pos (c2.1 h2)]; push_cast; rfl
      · rw [if_neg h2, if_neg (mt c2.2 h2)]
        by_cases h3 : m / P % 2 = 0
        · rw [if_pos h3, if_pos (c3.1 h3)]; push_cast; rfl
        · rw [if_neg h3, if_neg (mt c3.2 h3)]; push_cast; rfl
  exact key

theorem fl64_natCast {m : ℕ} (hm : m ≠ 0) {e : ℤ} (he : -1074 ≤ e) :
    fl64 (m * (2 : ℝ) ^ e) = roundNat m * 2 ^ e := by
  have hpe := two_zpow_pos e
  have hmpos : (0 : ℝ) < m := by exact_mod_cast Nat.pos_of_ne_zero hm
  rcases lt_or_ge m (2 ^ 53) with hlt | hge
  · have h1 := fl64_of_mul (m := (m : ℤ)) (e := e) (by
      rw [abs_of_nonneg (by positivity)]; exact_mod_cast hlt) he
    have hs : Nat.log2 m - 52 = 0 := by
      have : Nat.log2 m < 53 := (Nat.log2_lt hm).2 hlt
      omega
    have hr : roundNat m = m := by
      unfold roundNat
      simp only [hs, pow_zero, Nat.mod_one, mul_zero, Nat.div_one, mul_one]
      simp
    rw [hr]
    simpa using h1
  · obtain ⟨s, hs⟩ : ∃ s, Nat.log2 m = s + 52 := ⟨Nat.log2 m - 52, by
      have : 53 ≤ Nat.log2 m := by
        by_contra h
        have := (Nat.log2_lt hm).1 (not_le.1 h)
        omega
      omega⟩
    have hlo : 2 ^ (s + 52) ≤ m := hs ▸ Nat.log2_self_le hm
    have hhi : m < 2 ^ (s + 52 + 1) := (Nat.log2_lt hm).1 (by omega)
    have hlog : Int.log 2 |(m : ℝ) * 2 ^ e| = s + 52 + e := by
      rw [abs_of_pos (mul_pos hmpos hpe)]
      have h2 : (1 : ℕ) < 2 := by norm_num
      refine le_antisymm ?_ ?_
      · have : Int.log 2 ((m : ℝ) * 2 ^ e) < s + 52 + e + 1 := by
          rw [← Int.lt_zpow_iff_log_lt h2 (mul_pos hmpos hpe)]
          rw [show (s : ℤ) + 52 + e + 1 = ((s + 52 + 1 : ℕ) : ℤ) + e by push_cast; ring]
          push_cast
          rw [zpow_add₀ (by norm_num : (2 : ℝ) ≠ 0)]
          refine mul_lt_mul_of_pos_right ?_ hpe
          have : (m : ℝ) < ((2 ^ (s + 52 + 1) : ℕ) : ℝ) := by exact_mod_cast hhi
          push_cast at this
          exact_mod_cast this
        omega
      · rw [← Int.zpow_le_iff_le_log h2 (mul_pos hmpos hpe)]
        rw [show (s : ℤ) + 52 + e = ((s + 52 : ℕ) : ℤ) + e by push_cast; ring]
        push_cast
        rw [zpow_add₀ (by norm_num : (2 : ℝ) ≠ 0)]
        refine mul_le_mul_of_nonneg_right ?_ hpe.le
        have : ((2 ^ (s + 52) : ℕ) : ℝ) ≤ m := by exact_mod_cast hlo
        push_cast at this
        exact_mod_cast this
    have hexp : fl64Exp ((m : ℝ) * 2 ^ e) = s + e := by
      unfold fl64Exp; rw [hlog]; omega
    have hP : (0 : ℕ) < 2 ^ s := by positivity
    have hPr : ((2 ^ s : ℕ) : ℝ) ≠ 0 := by positivity
    have hdiv : (m : ℝ) * 2 ^ e / 2 ^ ((s : ℤ) + e) = m / (2 ^ s : ℕ) := by
      rw [zpow_add₀ (by norm_num : (2 : ℝ) ≠ 0)]
      push_cast
      rw [zpow_natCast]
      field_simp
    obtain ⟨P, hPe⟩ : ∃ P, 2 ^ s = P := ⟨_, rfl⟩
    rw [hPe] at hP hPr
    have hround := roundNat_eq hs hPe hP
    unfold fl64
    rw [hexp, hdiv, hPe, hround, zpow_add₀ (by norm_num : (2 : ℝ) ≠ 0), zpow_natCast]
    have : (2 : ℝ) ^ s = P := by rw [← hPe]; push_cast; rfl
    rw [this]; ring

/-- Sums of `k` equal terms, with rounding to 53 digits. -/
def sumNat (d : ℕ) : ℕ → ℕ
  | 0 => 0
  | k + 1 => roundNat (sumNat d k + d)

theorem timeAfterF_nat {d : ℕ} (hd : d ≠ 0) {e : ℤ} (he : -1074 ≤ e) (k : ℕ) :
    timeAfterF fl64 (d * 2 ^ e) k = sumNat d k * 2 ^ e := by
  induction k with
  | zero => simp [timeAfterF, sumNat]
  | succ k ih =>
    unfold timeAfterF timeUpdateF sumNat
    simp only [ih]
    rw [← add_mul, ← Nat.cast_add, fl64_natCast (by omega) he]

/-- The machine number 0.01. -/
def centi : ℕ := 5764607523034235

theorem fl64_centi : fl64 (1 / 100) = centi * 2 ^ (-59 : ℤ) := by
  have := fl64_eq_of_near (x := 1 / 100) (m := 5764607523034235) (e := -59) (by
    rw [abs_of_pos (by norm_num)]; norm_num) (by
    rw [abs_of_pos (by norm_num)]; norm_num) (by norm_num) (by
    rw [abs_lt]; constructor <;> norm_num)
  rw [this]; unfold centi; norm_num

theorem sum_1000 : sumNat centi 1000 < 10 * 2 ^ 59 ∧ 10 * 2 ^ 59 ≤ sumNat centi 1001 := by
  decide +kernel

theorem timeAfterF_nonneg {dt : ℝ} (hdt : 0 ≤ dt) (k : ℕ) : 0 ≤ timeAfterF fl64 dt k := by
  induction k with
  | zero => simp [timeAfterF]
  | succ k ih => exact fl64_nonneg (add_nonneg ih hdt)

/-- The error of a sum of `k` equal terms. -/
theorem timeAfterF_err {dt : ℝ} (hdt : (2 : ℝ) ^ (-1022 : ℤ) ≤ dt) {k : ℕ} (hk : k ≤ 2 ^ 53) :
    |timeAfterF fl64 dt k - k * dt| ≤ k ^ 2 * 2 ^ (-53 : ℤ) * dt := by
  have hd0 : 0 < dt := (two_zpow_pos _).trans_le hdt
  have hu := two_zpow_pos (-53)
  induction k with
  | zero => simp [timeAfterF]
  | succ k ih =>
    have ih := ih (by omega)
    have hnn := timeAfterF_nonneg hd0.le k
    unfold timeAfterF timeUpdateF
    simp only
    obtain ⟨t, ht⟩ : ∃ t, timeAfterF fl64 dt k = t := ⟨_, rfl⟩
    rw [ht] at ih hnn ⊢
    have herr := fl64_err_rel (x := t + dt) (by rw [abs_of_pos (by linarith)]; linarith)
    rw [abs_of_pos (show 0 < t + dt by linarith)] at herr
    have hku : (k : ℝ) * 2 ^ (-53 : ℤ) ≤ 1 := by
      have h1 : (k : ℝ) ≤ 2 ^ (53 : ℕ) := by exact_mod_cast (by omega : k ≤ 2 ^ 53)
      calc (k : ℝ) * 2 ^ (-53 : ℤ) ≤ 2 ^ (53 : ℕ) * 2 ^ (-53 : ℤ) :=
            mul_le_mul_of_nonneg_right h1 hu.le
        _ = 1 := by norm_num
    obtain ⟨u, hue⟩ : ∃ u : ℝ, (2 : ℝ) ^ (-53 : ℤ) = u := ⟨_, rfl⟩
    rw [hue] at ih herr hku hu ⊢
    have hk0 : (0 : ℝ) ≤ k := Nat.cast_nonneg k
    have ht2 : t ≤ k * dt + k ^ 2 * u * dt := by linarith [(abs_le.1 ih).2]
    have h2 : (t + dt) * u ≤ (k * dt + k ^ 2 * u * dt + dt) * u :=
      mul_le_mul_of_nonneg_right (by linarith) hu.le
    have h3 : (k : ℝ) * u * (k * u * dt) ≤ 1 * (k * u * dt) :=
      mul_le_mul_of_nonneg_right hku (by positivity)
    push_cast
    calc |fl64 (t + dt) - (k + 1) * dt|
        = |(fl64 (t + dt) - (t + dt)) + (t - k * dt)| := by congr 1; ring
      _ ≤ (t + dt) * u + k ^ 2 * u * dt := (abs_add_le _ _).trans (add_le_add herr ih)
      _ ≤ (k + 1) ^ 2 * u * dt := by nlinarith [mul_nonneg (mul_nonneg hk0 hu.le) hd0.le]

/-- The clock does not stand still. -/
theorem timeAfterF_lt {dt : ℝ} (hdt : (2 : ℝ) ^ (-1022 : ℤ) ≤ dt) {t : ℝ} (h0 : 0 ≤ t)
    (ht : t < (2 ^ 53 - 1) * dt) : t < fl64 (t + dt) := by
  have hd0 : 0 < dt := (two_zpow_pos _).trans_le hdt
  have herr := fl64_err_rel (x := t + dt) (by rw [abs_of_pos (by linarith)]; linarith)
  rw [abs_of_pos (show 0 < t + dt by linarith)] at herr
  have h1 : (t + dt) * (2 : ℝ) ^ (-53 : ℤ) < dt := by
    have h2 : (t + dt) * (2 : ℝ) ^ (-53 : ℤ) < (2 ^ 53 * dt) * (2 : ℝ) ^ (-53 : ℤ) :=
      mul_lt_mul_of_pos_right (by linarith) (two_zpow_pos _)
    have h3 : (2 ^ 53 * dt) * (2 : ℝ) ^ (-53 : ℤ) = dt := by
      rw [mul_right_comm]; norm_num
    linarith
  linarith [(abs_le.1 herr).1]

theorem runUntilF_aux {rnd : ℝ → ℝ} {dt limit : ℝ} {m : ℕ}
    (hlt : ∀ k < m, timeAfterF rnd dt k < limit) (hm : limit ≤ timeAfterF rnd dt m) (i : ℕ) :
    ∀ j, j + i = m → ∀ fuel call, i < fuel →
      simRun (timeUpdateF rnd dt) (some fun _ t => decide (limit ≤ t)) fuel call
        (timeAfterF rnd dt j) = some (.ok (), timeAfterF rnd dt m) := by
  induction i with
  | zero =>
    intro j hj fuel call hf
    obtain ⟨fuel, rfl⟩ : ∃ f, fuel = f + 1 := ⟨fuel - 1, by omega⟩
    have : j = m := by omega
    subst this
    unfold simRun
    simp [hm]
  | succ i ih =>
    intro j hj fuel call hf
    obtain ⟨fuel, rfl⟩ : ∃ f, fuel = f + 1 := ⟨fuel - 1, by omega⟩
    unfold simRun
    have h1 : ¬ limit ≤ timeAfterF rnd dt j := not_le.2 (hlt j (by omega))
    simp only [Option.elim_some, decide_eq_true_eq, if_neg h1]
    exact ih (j + 1) (by omega) fuel (call + 1) (by omega)

theorem runUntilF_first {rnd : ℝ → ℝ} {dt limit : ℝ} {m : ℕ}
    (hlt : ∀ k < m, timeAfterF rnd dt k < limit) (hm : limit ≤ timeAfterF rnd dt m) {fuel : ℕ}
    (hf : m < fuel) : runUntilF rnd dt limit fuel = some (.ok (), timeAfterF rnd dt m) :=
  runUntilF_aux hlt hm m 0 (by omega) fuel 0 hf

/-- Length of a run. -/
theorem runUntilF_length {dt limit : ℝ} (hdt : (2 : ℝ) ^ (-1022 : ℤ) ≤ dt) (h0 : 0 ≤ limit)
    (hl : limit ≤ 2 ^ 25 * dt) :
    ∃ m : ℕ, (∀ fuel, m < fuel → runUntilF fl64 dt limit fuel =
        some (.ok (), timeAfterF fl64 dt m)) ∧
      limit / dt - 1 / 2 ≤ m ∧ m < limit / dt + 3 / 2 := by
  have hd0 : 0 < dt := (two_zpow_pos _).trans_le hdt
  have hb : ∀ k : ℕ, k ≤ 2 ^ 26 → |timeAfterF fl64 dt k - k * dt| ≤ 1 / 2 * dt := by
    intro k hk
    refine (timeAfterF_err hdt (by omega)).trans (mul_le_mul_of_nonneg_right ?_ hd0.le)
    have h1 : (k : ℝ) ≤ 2 ^ 26 := by exact_mod_cast hk
    have h2 : (k : ℝ) ^ 2 ≤ (2 ^ 26) ^ 2 := pow_le_pow_left₀ (Nat.cast_nonneg k) h1 2
    calc (k : ℝ) ^ 2 * 2 ^ (-53 : ℤ) ≤ (2 ^ 26) ^ 2 * 2 ^ (-53 : ℤ) :=
          mul_le_mul_of_nonneg_right h2 (two_zpow_pos _).le
      _ = 1 / 2 := by norm_num
  have hq : limit / dt ≤ 2 ^ 25 := (div_le_iff₀ hd0).2 hl
  have hq0 : 0 ≤ limit / dt := div_nonneg h0 hd0.le
  have hex : ∃ k, limit ≤ timeAfterF fl64 dt k := by
    refine ⟨⌈limit / dt⌉₊ + 1, ?_⟩
    have h1 : ⌈limit / dt⌉₊ ≤ 2 ^ 25 := Nat.ceil_le.2 (by exact_mod_cast hq)
    have h2 := (abs_le.1 (hb (⌈limit / dt⌉₊ + 1) (by omega))).1
    have h3 := Nat.le_ceil (limit / dt)
    rw [div_le_iff₀ hd0] at h3
    push_cast at h2
    nlinarith
  classical
  have hmin := fun k (hk : k < Nat.find hex) => not_le.1 (Nat.find_min hex hk)
  have hspec := Nat.find_spec hex
  obtain ⟨m, hm⟩ : ∃ m, Nat.find hex = m := ⟨_, rfl⟩
  rw [hm] at hmin hspec
  have hm2 : m ≤ 2 ^ 25 + 1 := by
    by_contra hlt
    have h1 := hmin 33554433 (by omega)
    have h2 := (abs_le.1 (hb 33554433 (by norm_num))).1
    push_cast at h2
    nlinarith
  refine ⟨m, fun fuel hf => runUntilF_first hmin hspec hf, ?_, ?_⟩
  · rw [sub_le_iff_le_add, div_le_iff₀ hd0]
    have := (abs_le.1 (hb m (by omega))).2
    nlinarith
  · rw [← sub_lt_iff_lt_add, lt_div_iff₀ hd0]
    cases m with
    | zero =>
      push_cast
      nlinarith
    | succ k =>
      have h1 := hmin k (by omega)
      have := (abs_le.1 (hb k (by omega))).1
      push_cast
      nlinarith

end CrowdDynamics
