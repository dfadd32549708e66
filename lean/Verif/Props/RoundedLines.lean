import Verif.Proofs.RoundedLines

/-!
# Properties C168, C169: intersections and clocks in floating point
-/

namespace CrowdDynamics

open Spec

/-! ## C168: `line_intersect` -/

/-- The full statement: for segments that are not parallel the answer is exact, as in C06. -/
def C168_statement : Prop :=
  ∀ x0 x1 y0 y1 : Vec, Binary64 x0.1 → Binary64 x0.2 → Binary64 x1.1 → Binary64 x1.2 →
    Binary64 y0.1 → Binary64 y0.2 → Binary64 y1.1 → Binary64 y1.2 →
    (x1.1 - x0.1) * (y1.2 - y0.2) ≠ (x1.2 - x0.2) * (y1.1 - y0.1) →
    (lineIntersectF fl64 x0 x1 y0 y1 = true ↔ ∃ z, z ∈ segment ℝ x0 x1 ∧ z ∈ segment ℝ y0 y1)

/-- **C168** False in floating point: two segments that cross in their middle at a very small
angle are taken for parallel, for the product of their directions is rounded to zero. -/
theorem C168_intersect_fails : ¬ C168_statement := by
  intro h
  have hb : ∀ (m e : ℤ) (x : ℝ), |m| < 2 ^ 53 → -1074 ≤ e → x = m * (2 : ℝ) ^ e → fl64 x = x := by
    intro m e x h1 h2 h3; rw [h3]; exact fl64_of_mul h1 h2
  have h0 : Binary64 0 := (binary64_iff _).2 fl64_zero
  have h1' : fl64 1 = 1 := by have := fl64_int (n := 1) (by norm_num); simpa using this
  have h1 : Binary64 1 := (binary64_iff _).2 h1'
  have ha : fl64 (1 + (2 : ℝ) ^ (-28 : ℤ)) = 1 + 2 ^ (-28 : ℤ) :=
    hb 268435457 (-28) _ (by norm_num) (by norm_num) (by norm_num)
  have hs : fl64 ((2 : ℝ) ^ (-29 : ℤ)) = 2 ^ (-29 : ℤ) := fl64_two_zpow (by norm_num)
  have hc : fl64 (1 + (2 : ℝ) ^ (-29 : ℤ)) = 1 + 2 ^ (-29 : ℤ) :=
    hb 536870913 (-29) _ (by norm_num) (by norm_num) (by norm_num)
  have hd : fl64 (1 - (2 : ℝ) ^ (-29 : ℤ)) = 1 - 2 ^ (-29 : ℤ) :=
    hb 536870911 (-29) _ (by norm_num) (by norm_num) (by norm_num)
  have he : fl64 (1 - (2 : ℝ) ^ (-28 : ℤ)) = 1 - 2 ^ (-28 : ℤ) :=
    hb 268435455 (-28) _ (by norm_num) (by norm_num) (by norm_num)
  have key := (h (0, 0) (1 + (2 : ℝ) ^ (-28 : ℤ), 1) ((2 : ℝ) ^ (-29 : ℤ), (2 : ℝ) ^ (-29 : ℤ))
    (1 + (2 : ℝ) ^ (-29 : ℤ), 1 - (2 : ℝ) ^ (-29 : ℤ)) h0 h0 ((binary64_iff _).2 ha) h1
    ((binary64_iff _).2 hs) ((binary64_iff _).2 hs) ((binary64_iff _).2 hc) ((binary64_iff _).2 hd)
    (by norm_num)).2 ⟨((1 + (2 : ℝ) ^ (-28 : ℤ)) / 2, 1 / 2), ?_, ?_⟩
  · unfold lineIntersectF vecSubF at key
    have e1 : (1 : ℝ) + 2 ^ (-29 : ℤ) - 2 ^ (-29 : ℤ) = 1 := by ring
    have e2 : (1 : ℝ) - 2 ^ (-29 : ℤ) - 2 ^ (-29 : ℤ) = 1 - 2 ^ (-28 : ℤ) := by norm_num
    have e3 : (1 + (2 : ℝ) ^ (-28 : ℤ)) * (1 - 2 ^ (-28 : ℤ)) = 1 - 2 ^ (-56 : ℤ) := by norm_num
    have e4 : fl64 (1 - (2 : ℝ) ^ (-56 : ℤ)) = 1 := by
      have := fl64_eq_of_near (x := 1 - (2 : ℝ) ^ (-56 : ℤ)) (m := 9007199254740992) (e := -53)
        (by norm_num) (by norm_num) (by norm_num) (by rw [abs_lt]; norm_num)
      rw [this]; norm_num
    simp only [sub_zero, ha, h1', e1, e2, he, e3, e4, mul_one, sub_self, fl64_zero, if_true,
      Bool.false_eq_true] at key
  · rw [mem_segment_iff]
    exact ⟨1 / 2, by norm_num, by norm_num, by ext <;> norm_num⟩
  · rw [mem_segment_iff]
    exact ⟨1 / 2, by norm_num, by norm_num, by ext <;> norm_num⟩

/-- **C168** If all coordinates are multiples of some `2^g`, none larger than `2^24 · 2^g`, the
answer for segments that are not parallel is exact. For example, `g = -10` covers all points with
a spacing of a millimetre on a map of 32 kilometres. -/
theorem C168_intersect_partial (g : ℤ) (hg : -537 ≤ g) (a b c d : ℤ × ℤ)
    (ha : |a.1| ≤ 2 ^ 24 ∧ |a.2| ≤ 2 ^ 24) (hb : |b.1| ≤ 2 ^ 24 ∧ |b.2| ≤ 2 ^ 24)
    (hc : |c.1| ≤ 2 ^ 24 ∧ |c.2| ≤ 2 ^ 24) (hd : |d.1| ≤ 2 ^ 24 ∧ |d.2| ≤ 2 ^ 24)
    (x0 x1 y0 y1 : Vec) (h0 : x0 = (a.1 * (2 : ℝ) ^ g, a.2 * (2 : ℝ) ^ g))
    (h1 : x1 = (b.1 * (2 : ℝ) ^ g, b.2 * (2 : ℝ) ^ g))
    (h2 : y0 = (c.1 * (2 : ℝ) ^ g, c.2 * (2 : ℝ) ^ g))
    (h3 : y1 = (d.1 * (2 : ℝ) ^ g, d.2 * (2 : ℝ) ^ g))
    (hpar : (x1.1 - x0.1) * (y1.2 - y0.2) ≠ (x1.2 - x0.2) * (y1.1 - y0.1)) :
    lineIntersectF fl64 x0 x1 y0 y1 = true ↔ ∃ z, z ∈ segment ℝ x0 x1 ∧ z ∈ segment ℝ y0 y1 := by
  have := lineIntersectF_grid hg ha.1 ha.2 hb.1 hb.2 hc.1 hc.2 hd.1 hd.2
  rw [← h0, ← h1, ← h2, ← h3] at this
  rw [this, lineIntersect_iff]
  exact ⟨fun h => h.2, fun h => ⟨by simpa [sub_ne_zero] using hpar, h⟩⟩

/-- **C168** On such a grid parallel segments are never reported, as in C06. -/
theorem C168_parallel_partial (g : ℤ) (hg : -537 ≤ g) (a b c d : ℤ × ℤ)
    (ha : |a.1| ≤ 2 ^ 24 ∧ |a.2| ≤ 2 ^ 24) (hb : |b.1| ≤ 2 ^ 24 ∧ |b.2| ≤ 2 ^ 24)
    (hc : |c.1| ≤ 2 ^ 24 ∧ |c.2| ≤ 2 ^ 24) (hd : |d.1| ≤ 2 ^ 24 ∧ |d.2| ≤ 2 ^ 24)
    (x0 x1 y0 y1 : Vec) (h0 : x0 = (a.1 * (2 : ℝ) ^ g, a.2 * (2 : ℝ) ^ g))
    (h1 : x1 = (b.1 * (2 : ℝ) ^ g, b.2 * (2 : ℝ) ^ g))
    (h2 : y0 = (c.1 * (2 : ℝ) ^ g, c.2 * (2 : ℝ) ^ g))
    (h3 : y1 = (d.1 * (2 : ℝ) ^ g, d.2 * (2 : ℝ) ^ g))
    (hpar : (x1.1 - x0.1) * (y1.2 - y0.2) = (x1.2 - x0.2) * (y1.1 - y0.1)) :
    lineIntersectF fl64 x0 x1 y0 y1 = false := by
  have := lineIntersectF_grid hg ha.1 ha.2 hb.1 hb.2 hc.1 hc.2 hd.1 hd.2
  rw [← h0, ← h1, ← h2, ← h3] at this
  rw [this, ← Bool.not_eq_true, lineIntersect_iff]
  rintro ⟨hne, -⟩
  apply hne
  simp only [Prod.fst_sub, Prod.snd_sub]
  rw [hpar, sub_self]

example := C168_parallel_partial (-10) (by norm_num) (0, 0) (1024, 1024) (0, 1024) (1024, 2048)
    (by norm_num) (by norm_num) (by norm_num) (by norm_num) (0, 0) (1, 1) (0, 1) (1, 2)
    (by norm_num) (by norm_num) (by norm_num) (by norm_num) (by norm_num)

/-- **C168** Without rounding the function is that of C06. -/
theorem C168_exact (x0 x1 y0 y1 : Vec) :
    lineIntersectF id x0 x1 y0 y1 = lineIntersect x0 x1 y0 y1 := lineIntersectF_id x0 x1 y0 y1

/-- The diagonals of a square of one metre, on a grid of about a millimetre. -/
example : lineIntersectF fl64 (0, 0) (1, 1) (0, 1) (1, 0) = true := by
  rw [C168_intersect_partial (-10) (by norm_num) (0, 0) (1024, 1024) (0, 1024) (1024, 0)
    (by norm_num) (by norm_num) (by norm_num) (by norm_num) (0, 0) (1, 1) (0, 1) (1, 0)
    (by norm_num) (by norm_num) (by norm_num) (by norm_num) (by norm_num)]
  refine ⟨(1 / 2, 1 / 2), ?_, ?_⟩ <;> rw [mem_segment_iff] <;>
    exact ⟨1 / 2, by norm_num, by norm_num, by ext <;> norm_num⟩

/-! ## C169: `poisson_clock` -/

/-- **C169** Whatever the rounding, the yielded times are at least the first interval, before
`dt` and in order, and the clock has drawn one interval more than it has yielded. -/
theorem C169_times (rnd : ℝ → ℝ) (h : FairRounding rnd) (draws : ℕ → ℝ) (hd : ∀ k, 0 ≤ draws k)
    (hr : ∀ k, rnd (draws k) = draws k) (dt : ℝ) (fuel start pos : ℕ) (ts : List ℝ)
    (hrun : poissonClockF rnd draws dt fuel start = some (ts, pos)) :
    ts.Pairwise (· ≤ ·) ∧ (∀ s ∈ ts, 0 ≤ s ∧ s < dt) ∧ pos = start + ts.length + 1 := by
  obtain ⟨h1, h2, h3⟩ := poissonClockLoopF_sorted h hd dt fuel _ _ _ _ (hr start) hrun
  exact ⟨h1, fun s hs => ⟨(hd start).trans (h2 s hs).1, (h2 s hs).2⟩, by omega⟩

/-- **C169** The time number `m` is off by at most `m` rounding errors. -/
theorem C169_near (draws : ℕ → ℝ) (hd : ∀ k, 0 ≤ draws k) (dt : ℝ) (hdt : Binary64 dt)
    (fuel start pos : ℕ) (ts : List ℝ)
    (hrun : poissonClockF fl64 draws dt fuel start = some (ts, pos)) (m : ℕ) (hm : m < ts.length) :
    |ts[m] - tick draws start m| ≤ m * (dt * 2 ^ (-53 : ℤ) + 2 ^ (-1075 : ℤ)) := by
  have := poissonClockLoopF_near hd ((binary64_iff _).1 hdt) start fuel 0 (draws start) ts pos
    (hd start) (by unfold tick; simp) hrun m hm
  simpa using this

/-- **C169** Without rounding the clock is that of C37. -/
theorem C169_exact (draws : ℕ → ℝ) (dt : ℝ) (fuel start : ℕ) :
    poissonClockF id draws dt fuel start = poissonClock draws dt fuel start :=
  poissonClockLoopF_id draws dt fuel _ _

/-- The full statement: the clock ends if the intervals add up to `dt`, as in C37. -/
def C169_statement : Prop :=
  ∀ (draws : ℕ → ℝ) (dt : ℝ) (start N : ℕ), (∀ k, 0 ≤ draws k ∧ Binary64 (draws k)) →
    Binary64 dt → dt ≤ tick draws start N →
    ∃ fuel, (poissonClockF fl64 draws dt fuel start).isSome

/-- **C169** False in floating point: if a first long interval is followed by intervals below the
resolution of the sum, the time does not advance any more and the generator never ends. -/
theorem C169_ends_fails : ¬ C169_statement := by
  intro h
  have h1 : fl64 1 = 1 := by have := fl64_int (n := 1) (by norm_num); simpa using this
  have h2 : fl64 2 = 2 := by have := fl64_int (n := 2) (by norm_num); simpa using this
  have hs : fl64 (1 + (2 : ℝ) ^ (-60 : ℤ)) = 1 := by
    have := fl64_eq_of_near (x := 1 + (2 : ℝ) ^ (-60 : ℤ)) (m := 4503599627370496) (e := -52)
      (by norm_num) (by norm_num) (by norm_num) (by rw [abs_lt]; norm_num)
    rw [this]; norm_num
  obtain ⟨draws, hdr⟩ : ∃ draws : ℕ → ℝ, draws = fun k => if k = 0 then 1 else 2 ^ (-60 : ℤ) :=
    ⟨_, rfl⟩
  obtain ⟨fuel, hf⟩ := h draws 2 0 (2 ^ 60) (by
    intro k
    rw [hdr]
    by_cases hk : k = 0
    · simp only [hk, if_true]; exact ⟨by norm_num, (binary64_iff _).2 h1⟩
    · simp only [hk, if_false]
      exact ⟨(two_zpow_pos _).le, (binary64_iff _).2 (fl64_two_zpow (by norm_num))⟩)
    ((binary64_iff _).2 h2) (by
      unfold tick
      rw [Finset.sum_range_succ', hdr]
      simp only [Nat.zero_add, Nat.add_eq_zero_iff, one_ne_zero, and_false, if_false, if_true,
        Finset.sum_const, Finset.card_range, nsmul_eq_mul]
      push_cast
      norm_num)
  have hloop : ∀ fuel pos, 0 < pos → poissonClockLoopF fl64 draws 2 fuel pos 1 = none := by
    intro fuel
    induction fuel with
    | zero => intro pos _; rfl
    | succ fuel ih =>
      intro pos hpos
      unfold poissonClockLoopF
      rw [if_pos (by norm_num)]
      have e : draws pos = 2 ^ (-60 : ℤ) := by rw [hdr]; simp only [hpos.ne', if_false]
      rw [e, hs, ih (pos + 1) (by omega)]
  unfold poissonClockF at hf
  have e0 : draws 0 = 1 := by rw [hdr]; simp
  rw [e0, hloop fuel _ (by omega)] at hf
  simp at hf

/-- **C169** The clock ends if a single interval is at least `dt`. -/
theorem C169_ends_partial (rnd : ℝ → ℝ) (h : FairRounding rnd) (draws : ℕ → ℝ)
    (hd : ∀ k, 0 ≤ draws k) (dt : ℝ) (hdt : rnd dt = dt) (start N fuel : ℕ)
    (hN : dt ≤ draws (start + 1 + N)) (hf : N + 1 < fuel) :
    (poissonClockF rnd draws dt fuel start).isSome :=
  poissonClockLoopF_stops h hd hdt fuel _ _ N (hd start) hN hf

/-- Intervals of one second and a step of two and a half meet the hypotheses. -/
example : ∃ ts pos, poissonClockF fl64 (fun k => if k = 2 then 3 else 1) (5 / 2) 5 0 =
    some (ts, pos) ∧ ts = [1, 2] ∧ (∀ k, fl64 ((fun k : ℕ => if k = 2 then (3 : ℝ) else 1) k) =
      (fun k : ℕ => if k = 2 then (3 : ℝ) else 1) k) ∧ Binary64 (5 / 2) := by
  have h1 : fl64 1 = 1 := by have := fl64_int (n := 1) (by norm_num); simpa using this
  have h2 : fl64 2 = 2 := by have := fl64_int (n := 2) (by norm_num); simpa using this
  have h3 : fl64 3 = 3 := by have := fl64_int (n := 3) (by norm_num); simpa using this
  have h5 : fl64 5 = 5 := by have := fl64_int (n := 5) (by norm_num); simpa using this
  refine ⟨[1, 2], 3, ?_, rfl, ?_, ?_⟩
  · unfold poissonClockF
    norm_num [poissonClockLoopF, h2, h5]
  · intro k
    by_cases hk : k = 2
    · simp [hk, h3]
    · simp [hk, h1]
  · rw [binary64_iff]
    have := fl64_of_mul (m := 5) (e := -1) (by norm_num) (by norm_num)
    norm_num at this ⊢; exact this

end CrowdDynamics
