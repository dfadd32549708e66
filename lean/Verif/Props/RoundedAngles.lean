import Verif.Proofs.RoundedAngles

/-!
# Properties C162, C163: angles in floating point
-/

namespace CrowdDynamics

open Spec Real

/-! ## C162: wrapping -/

/-- **C162** The wrapped angle of every `float64` is a `float64` in `[-np.pi, np.pi]`, hence
strictly between `-π` and `π`. -/
theorem C162_range (x : ℝ) (hx : Binary64 x) :
    Binary64 (wrapToPiF fl64 x) ∧ |wrapToPiF fl64 x| ≤ fl64 π ∧
      -π < wrapToPiF fl64 x ∧ wrapToPiF fl64 x < π := by
  obtain ⟨h1, h2⟩ := wrapToPiF_mem hx
  have h3 := npPi_lt_pi.1
  refine ⟨h1, h2, ?_, ?_⟩ <;> have := abs_le.1 h2 <;> linarith

example := C162_range (-1000000.5) ⟨-2000001, -1, by norm_num, by norm_num, by norm_num⟩

/-- **C162** The wrapped angle differs from the angle by whole turns, up to an error of
`(1 + |x|) * 2 ^ -50`. -/
theorem C162_congruent (x : ℝ) (hx : Binary64 x) :
    ∃ k : ℤ, |wrapToPiF fl64 x - (x + k * (2 * π))| ≤ (1 + |x|) * 2 ^ (-50 : ℤ) := by
  obtain ⟨k, hk, herr⟩ := wrapToPiF_congr hx
  refine ⟨-k, ?_⟩
  have hd := npPi_lt_pi
  have hp := npPi_gt
  have e : wrapToPiF fl64 x - (x + ((-k : ℤ) : ℝ) * (2 * π)) =
      (wrapToPiF fl64 x - (x - k * (2 * fl64 π))) + k * (2 * (π - fl64 π)) := by
    push_cast; ring
  rw [e]
  have h1 : |(k : ℝ) * (2 * (π - fl64 π))| ≤ (|x| / 6 + 1) * (26 / 10 ^ 17) := by
    rw [abs_mul]
    refine mul_le_mul ?_ ?_ (abs_nonneg _) (by positivity)
    · refine hk.trans ?_
      rw [abs_div, abs_of_pos (by linarith : 0 < 2 * fl64 π)]
      have : |x| / (2 * fl64 π) ≤ |x| / 6 :=
        div_le_div_of_nonneg_left (abs_nonneg x) (by norm_num) (by linarith)
      linarith
    · rw [abs_of_pos (by linarith [hd.1])]
      have := hd.2
      linarith
  refine (abs_add_le _ _).trans ((add_le_add herr h1).trans ?_)
  have := abs_nonneg x
  norm_num
  nlinarith

example := C162_congruent (-1000000.5) ⟨-2000001, -1, by norm_num, by norm_num, by norm_num⟩

/-- **C162** Wrapping twice is wrapping once. -/
theorem C162_idempotent (x : ℝ) (hx : Binary64 x) :
    wrapToPiF fl64 (wrapToPiF fl64 x) = wrapToPiF fl64 x := wrapToPiF_idem hx

example := C162_idempotent (-1000000.5) ⟨-2000001, -1, by norm_num, by norm_num, by norm_num⟩

/-- **C162** The angles `np.pi` and `-np.pi` map to themselves. -/
theorem C162_ends : wrapToPiF fl64 (fl64 π) = fl64 π ∧ wrapToPiF fl64 (-fl64 π) = -fl64 π := by
  have hp := npPi_pos
  refine ⟨wrapToPiF_nonneg hp.le le_rfl, ?_⟩
  rw [wrapToPiF_neg_range (by linarith) le_rfl, show -fl64 π + 2 * fl64 π = fl64 π by ring,
    fl64_idem]
  ring

/-- **C162** With exact arithmetic the model is the one of C01. -/
theorem C162_exact (x : ℝ) : wrapToPiF id x = wrapToPi x := wrapToPiF_id x

/-- **C162** The rounding used is the one of the machine: to a nearest binary64 number. -/
theorem C162_rounding (x : ℝ) : Nearest64 x (fl64 x) := fl64_nearest x

/-- One million and a half radians is a `float64`. -/
example : Binary64 (-1000000.5) :=
  ⟨-2000001, -1, by norm_num, by norm_num, by norm_num⟩

/-- A tenth is not: it is rounded. -/
example : fl64 (1 / 10) = 7205759403792794 / 2 ^ 56 := by
  have := fl64_eq_of_near (x := 1 / 10) (m := 7205759403792794) (e := -56)
    (by rw [abs_of_pos (by norm_num)]; norm_num) (by rw [abs_of_pos (by norm_num)]; norm_num)
    (by norm_num) (by rw [abs_lt]; norm_num)
  rw [this]; norm_num

/-! ## C163: angles in range -/

/-- The full statement: angles that are already in range are returned unchanged. -/
def C163_statement : Prop :=
  ∀ x : ℝ, Binary64 x → -fl64 π ≤ x → x ≤ fl64 π → wrapToPiF fl64 x = x

/-- **C163** False of the code: `wrap_to_pi(-2 ** -60)` is zero, because `%` adds a turn to
negative angles, which loses the digits below `2 ^ -50`. -/
theorem C163_unchanged_fails : ¬ C163_statement := by
  intro h
  have hp := npPi_gt
  have hb : Binary64 (-(2 : ℝ) ^ (-60 : ℤ)) :=
    ⟨-1, -60, by norm_num, by norm_num, by push_cast; ring⟩
  have hs : (0 : ℝ) < 2 ^ (-60 : ℤ) := two_zpow_pos _
  have hs2 : (2 : ℝ) ^ (-60 : ℤ) < 1 := by norm_num
  have h1 := h _ hb (by linarith) (by linarith)
  rw [wrapToPiF_neg_range (by linarith) (by linarith)] at h1
  have h2 : fl64 (-(2 : ℝ) ^ (-60 : ℤ) + 2 * fl64 π) = 2 * fl64 π := by
    have h3 := fl64_eq_of_near (x := -(2 : ℝ) ^ (-60 : ℤ) + 2 * fl64 π) (m := 7074237752028440)
      (e := -50)
      (by rw [abs_of_pos (by linarith), fl64_pi]; norm_num)
      (by rw [abs_of_pos (by linarith), fl64_pi]; norm_num) (by norm_num)
      (by rw [fl64_pi, abs_lt]; norm_num)
    rw [h3, fl64_pi]; norm_num
  rw [h2] at h1
  linarith

/-- **C163** (partial) Angles between zero and `np.pi` are returned unchanged; negative angles
in range are moved by at most `2 ^ -51`. Missing: exactness for negative angles, which is
false. -/
theorem C163_unchanged_partial (x : ℝ) (h1 : -fl64 π ≤ x) (h2 : x ≤ fl64 π) :
    (0 ≤ x → wrapToPiF fl64 x = x) ∧ |wrapToPiF fl64 x - x| ≤ 2 ^ (-51 : ℤ) := by
  refine ⟨fun h0 => wrapToPiF_nonneg h0 h2, ?_⟩
  rcases le_or_gt 0 x with h0 | h0
  · rw [wrapToPiF_nonneg h0 h2, sub_self, abs_zero]; positivity
  · rw [wrapToPiF_neg_range h0 h1]
    have hl := npPi_lt
    have hlt : |x + 2 * fl64 π| < 2 ^ (3 : ℤ) := by
      rw [abs_lt]; norm_num; constructor <;> linarith [npPi_pos]
    have herr := fl64_err_lt hlt (by norm_num)
    rw [show fl64 (x + 2 * fl64 π) - 2 * fl64 π - x = fl64 (x + 2 * fl64 π) - (x + 2 * fl64 π) by
      ring]
    norm_num at herr ⊢
    exact herr

example : -fl64 π ≤ -3 ∧ (-3 : ℝ) ≤ fl64 π := by
  have := npPi_gt; constructor <;> linarith

end CrowdDynamics
