import Verif.Model.Motion
import Verif.Spec.Poisson
import Verif.Proofs.Vector2D
import Verif.Spec.Motion

/-! # Helper lemmas about adjusting, fluctuation and random clocks -/

namespace CrowdDynamics

open Real

/-! ## Poisson clock -/

lemma tick_succ (draws : ℕ → ℝ) (start k : ℕ) :
    Spec.tick draws start (k + 1) = Spec.tick draws start k + draws (start + (k + 1)) := by
  unfold Spec.tick
  rw [Finset.sum_range_succ]

lemma tick_mono (draws : ℕ → ℝ) (h : ∀ k, 0 ≤ draws k) (start : ℕ) {k k' : ℕ} (hk : k ≤ k') :
    Spec.tick draws start k ≤ Spec.tick draws start k' := by
  induction hk with
  | refl => exact le_rfl
  | @step m _ ih =>
    rw [tick_succ]
    linarith [h (start + (m + 1))]

/-- The loop started at tick number `k`. -/
lemma poissonLoop_spec (draws : ℕ → ℝ) (dt : ℝ) (h : ∀ k, 0 ≤ draws k) (start : ℕ) (fuel : ℕ) :
    ∀ (k : ℕ) (ts : List ℝ) (pos : ℕ),
      poissonClockLoop draws dt fuel (start + k + 1) (Spec.tick draws start k) = some (ts, pos) →
      ∃ m, ts = (List.range m).map (fun j => Spec.tick draws start (k + j)) ∧
        pos = start + (k + m) + 1 ∧ (∀ j, Spec.tick draws start (k + j) < dt ↔ j < m) := by
  induction fuel with
  | zero => intro k ts pos hr; simp [poissonClockLoop] at hr
  | succ fuel ih =>
    intro k ts pos hr
    unfold poissonClockLoop at hr
    by_cases hlt : Spec.tick draws start k < dt
    · rw [if_pos hlt] at hr
      have e : Spec.tick draws start k + draws (start + k + 1) = Spec.tick draws start (k + 1) := by
        rw [tick_succ, add_assoc]
      rw [e] at hr
      cases hres : poissonClockLoop draws dt fuel (start + k + 1 + 1)
          (Spec.tick draws start (k + 1)) with
      | none => rw [hres] at hr; simp at hr
      | some r =>
        rw [hres] at hr
        simp only [Option.some.injEq, Prod.mk.injEq] at hr
        obtain ⟨rfl, rfl⟩ := hr
        obtain ⟨m, h1, h2, h3⟩ := ih (k + 1) r.1 r.2 (by rw [← hres]; rfl)
        refine ⟨m + 1, ?_, ?_, ?_⟩
        · rw [h1, List.range_succ_eq_map, List.map_cons, List.map_map]
          congr 1
          apply List.map_congr_left
          intro j _
          simp only [Function.comp]
          congr 1
          omega
        · rw [h2]; omega
        · intro j
          cases j with
          | zero => simpa using hlt
          | succ j =>
            have := h3 j
            rw [show k + (j + 1) = k + 1 + j by omega, this]
            omega
    · rw [if_neg hlt] at hr
      simp only [Option.some.injEq, Prod.mk.injEq] at hr
      obtain ⟨rfl, rfl⟩ := hr
      refine ⟨0, by simp, by simp, fun j => ?_⟩
      constructor
      · intro hj
        exact absurd ((tick_mono draws h start (Nat.le_add_right k j)).trans_lt hj) hlt
      · intro hj; omega

lemma poissonClock_spec (draws : ℕ → ℝ) (dt : ℝ) (h : ∀ k, 0 ≤ draws k) (start fuel : ℕ)
    (ts : List ℝ) (pos : ℕ) (hr : poissonClock draws dt fuel start = some (ts, pos)) :
    ∃ m, ts = (List.range m).map (Spec.tick draws start) ∧ pos = start + m + 1 ∧
      Spec.TicksBefore draws dt start m := by
  unfold poissonClock at hr
  have e : draws start = Spec.tick draws start 0 := by simp [Spec.tick]
  rw [e] at hr
  obtain ⟨m, h1, h2, h3⟩ := poissonLoop_spec draws dt h start fuel 0 ts pos hr
  refine ⟨m, ?_, by omega, ?_⟩
  · rw [h1]
    apply List.map_congr_left
    intro j _
    rw [zero_add]
  · intro k
    have := h3 k
    rwa [zero_add] at this

lemma poissonLoop_terminates (draws : ℕ → ℝ) (dt : ℝ) (start N : ℕ)
    (hN : dt ≤ Spec.tick draws start N) (d : ℕ) :
    ∀ k, k + d = N → ∀ fuel, d < fuel →
      (poissonClockLoop draws dt fuel (start + k + 1) (Spec.tick draws start k)).isSome := by
  induction d with
  | zero =>
    intro k hk fuel hf
    obtain ⟨fuel, rfl⟩ := Nat.exists_eq_succ_of_ne_zero (by omega : fuel ≠ 0)
    unfold poissonClockLoop
    have hk : k = N := by omega
    rw [hk, if_neg (not_lt.2 hN)]
    rfl
  | succ d ih =>
    intro k hk fuel hf
    obtain ⟨fuel, rfl⟩ := Nat.exists_eq_succ_of_ne_zero (by omega : fuel ≠ 0)
    unfold poissonClockLoop
    split_ifs
    · have e : Spec.tick draws start k + draws (start + k + 1) = Spec.tick draws start (k + 1) := by
        rw [tick_succ, add_assoc]
      rw [e]
      have := ih (k + 1) (by omega) fuel (by omega)
      rw [show start + (k + 1) + 1 = start + k + 1 + 1 by omega] at this
      obtain ⟨r, hr⟩ := Option.isSome_iff_exists.1 this
      rw [hr]
      rfl
    · rfl

lemma poissonClock_terminates (draws : ℕ → ℝ) (dt : ℝ) (start N fuel : ℕ)
    (hN : dt ≤ Spec.tick draws start N) (hf : N < fuel) :
    (poissonClock draws dt fuel start).isSome := by
  unfold poissonClock
  have e : draws start = Spec.tick draws start 0 := by simp [Spec.tick]
  rw [e]
  exact poissonLoop_terminates draws dt start N hN N 0 (by omega) fuel hf

lemma poissonCollect_spec (draws : ℕ → ℝ) (dt : ℝ) (h : ∀ k, 0 ≤ draws k) (fuel : ℕ)
    (players : List ℤ) : ∀ (start : ℕ) (events : List (ℝ × ℤ)) (pos : ℕ),
      poissonCollect draws dt fuel players start = some (events, pos) →
      Spec.AllTicks draws dt players start events := by
  induction players with
  | nil =>
    intro start events pos hr
    simp only [poissonCollect, Option.some.injEq, Prod.mk.injEq] at hr
    obtain ⟨rfl, -⟩ := hr
    exact .nil start
  | cons i players ih =>
    intro start events pos hr
    unfold poissonCollect at hr
    cases hc : poissonClock draws dt fuel start with
    | none => rw [hc] at hr; simp at hr
    | some r =>
      rw [hc] at hr
      simp only at hr
      cases hrest : poissonCollect draws dt fuel players r.2 with
      | none => rw [hrest] at hr; simp at hr
      | some r' =>
        rw [hrest] at hr
        simp only [Option.some.injEq, Prod.mk.injEq] at hr
        obtain ⟨rfl, -⟩ := hr
        obtain ⟨m, h1, h2, h3⟩ := poissonClock_spec draws dt h start fuel r.1 r.2 (by rw [hc])
        rw [h1, List.map_map]
        refine .cons i players start m r'.1 h3 ?_
        rw [← h2]
        exact ih r.2 r'.1 r'.2 (by rw [hrest])

/-- Fuel that suffices for the first `b` draws. -/
lemma poissonCollect_mono (draws : ℕ → ℝ) (dt : ℝ) (players : List ℤ)
    (hd : ∀ start, ∃ N, dt ≤ Spec.tick draws start N) :
    ∀ start, ∃ F, ∀ fuel, F ≤ fuel → ∃ r, poissonCollect draws dt fuel players start = some r := by
  -- more fuel does not change a result
  have loop_mono : ∀ (fuel : ℕ) (pos : ℕ) (t : ℝ) (r : List ℝ × ℕ),
      poissonClockLoop draws dt fuel pos t = some r → ∀ fuel', fuel ≤ fuel' →
      poissonClockLoop draws dt fuel' pos t = some r := by
    intro fuel
    induction fuel with
    | zero => intro pos t r hr; simp [poissonClockLoop] at hr
    | succ fuel ih =>
      intro pos t r hr fuel' hf
      obtain ⟨fuel', rfl⟩ := Nat.exists_eq_succ_of_ne_zero (by omega : fuel' ≠ 0)
      unfold poissonClockLoop at hr ⊢
      by_cases hlt : t < dt
      · rw [if_pos hlt] at hr ⊢
        cases hres : poissonClockLoop draws dt fuel (pos + 1) (t + draws pos) with
        | none => rw [hres] at hr; simp at hr
        | some q =>
          rw [ih _ _ _ hres fuel' (by omega)]
          rw [hres] at hr
          exact hr
      · rw [if_neg hlt] at hr ⊢
        exact hr
  induction players with
  | nil => exact fun start => ⟨0, fun fuel _ => ⟨_, rfl⟩⟩
  | cons i players ih =>
    intro start
    obtain ⟨N, hN⟩ := hd start
    obtain ⟨q, hq⟩ := Option.isSome_iff_exists.1
      (poissonClock_terminates draws dt start N (N + 1) hN (by omega))
    obtain ⟨F, hF⟩ := ih q.2
    refine ⟨max F (N + 1), fun fuel hfuel => ?_⟩
    have e : poissonClock draws dt fuel start = some q :=
      loop_mono (N + 1) _ _ q hq fuel (le_trans (le_max_right _ _) hfuel)
    obtain ⟨r, hr⟩ := hF fuel (le_trans (le_max_left _ _) hfuel)
    refine ⟨(q.1.map (fun t => (t, i)) ++ r.1, r.2), ?_⟩
    unfold poissonCollect
    rw [e]
    simp only
    rw [hr]

/-- Reading a list in the order given by a permutation of its positions permutes it. -/
lemma map_getD_perm {α : Type} (l : List α) (d : α) (js : List ℕ)
    (h : js.Perm (List.range l.length)) : (js.map fun j => l.getD j d).Perm l := by
  refine (h.map _).trans (List.Perm.of_eq ?_)
  apply List.ext_getElem
  · simp
  · intro k h1 h2
    simp only [List.getElem_map, List.getElem_range]
    rw [List.getD_eq_getElem?_getD, List.getElem?_eq_getElem h2, Option.getD_some]

lemma wrapToPi_eq_zero_iff (x : ℝ) : wrapToPi x = 0 ↔ ∃ k : ℤ, x = k * (2 * π) := by
  obtain ⟨k, hk⟩ := wrapToPi_congr x
  constructor
  · intro h
    rw [h] at hk
    exact ⟨-k, by push_cast; linarith⟩
  · rintro ⟨j, rfl⟩
    -- the wrapped value is a whole number of turns within [-π, π]
    obtain ⟨h1, h2⟩ := wrapToPi_mem ((j : ℝ) * (2 * π))
    rw [hk] at h1 h2 ⊢
    have hp := Real.pi_pos
    have e : (j : ℝ) * (2 * π) + k * (2 * π) = ((j + k : ℤ) : ℝ) * (2 * π) := by push_cast; ring
    rw [e] at h1 h2 ⊢
    have a1 : -1 < ((j + k : ℤ) : ℝ) := by nlinarith
    have a2 : ((j + k : ℤ) : ℝ) < 1 := by nlinarith
    have b1 : -1 < j + k := by exact_mod_cast a1
    have b2 : j + k < 1 := by exact_mod_cast a2
    have : j + k = 0 := by omega
    rw [this]
    simp

end CrowdDynamics
