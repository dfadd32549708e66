import Verif.Proofs.PoissonLaw
import Mathlib.Probability.Independence.InfinitePi

/-!
# Property C157: the clocks of the players are Poisson processes
-/

namespace CrowdDynamics

open Spec MeasureTheory ProbabilityTheory

variable {Ω : Type} [MeasurableSpace Ω] {μ : Measure Ω} [IsProbabilityMeasure μ]

/-- **C157** The number of times that `poisson_clock(interval, dt)` yields is Poisson distributed
with mean `dt / interval`. -/
theorem C157_count {std : ℕ → Ω → ℝ} (h : StandardExponential μ std) (interval dt : ℝ)
    (hi : 0 < interval) (hdt : 0 ≤ dt) (start k : ℕ) :
    μ {ω | ∃ fuel ts pos, poissonClockDrawn (fun i => std i ω) interval dt fuel start =
      some (ts, pos) ∧ ts.length = k} = poissonMeasure (dt / interval).toNNReal {k} := by
  obtain ⟨hind, hlaw⟩ := drawn_law h hi
  have hset : {ω | ∃ fuel ts pos, poissonClockDrawn (fun i => std i ω) interval dt fuel start =
      some (ts, pos) ∧ ts.length = k} =
      {ω | Ticks (fun i => exponentialDraw interval (std i ω)) k dt start} := by
    ext ω
    exact clock_ticks _ dt k start
  rw [hset, ticks_law (by positivity) hind hlaw k start dt hdt, poissonMeasure_singleton,
    Real.coe_toNNReal _ (by positivity)]
  congr 3
  all_goals ring_nf

/-- **C157** With probability one `poisson_clock` ends. -/
theorem C157_ends {std : ℕ → Ω → ℝ} (h : StandardExponential μ std) (interval dt : ℝ)
    (hi : 0 < interval) (hdt : 0 ≤ dt) (start : ℕ) :
    ∀ᵐ ω ∂μ, ∃ fuel r, poissonClockDrawn (fun i => std i ω) interval dt fuel start = some r := by
  obtain ⟨hind, hlaw⟩ := drawn_law h hi
  filter_upwards [ticks_exist (by positivity) hind hlaw dt hdt start] with ω hω
  obtain ⟨k, hk⟩ := hω
  obtain ⟨fuel, ts, pos, e, -⟩ := (clock_ticks _ dt k start).2 hk
  exact ⟨fuel, (ts, pos), e⟩

/-- **C157** With probability one `poisson_timings` ends. -/
theorem C157_timings_end {std : ℕ → Ω → ℝ} (h : StandardExponential μ std)
    (shuffle : List ℤ → List ℤ) (argsort : List ℝ → List ℕ) (interval dt : ℝ)
    (hi : 0 < interval) (hdt : 0 ≤ dt) (start : ℕ) (players : List ℤ) :
    ∀ᵐ ω ∂μ, ∃ fuel r, poissonTimingsDrawn shuffle argsort (fun i => std i ω) interval dt fuel start
      players = some r := by
  obtain ⟨hind, hlaw⟩ := drawn_law h hi
  have hall := ae_all_iff.2 fun s => ticks_exist (by positivity) hind hlaw dt hdt s
  filter_upwards [hall] with ω hω
  obtain ⟨ks, hl, hks⟩ := ticksList_exist hω (shuffle players) start
  obtain ⟨F, hF⟩ := collect_of_ticks _ dt (shuffle players) start ks hl hks
  obtain ⟨events, pos', e, -⟩ := hF F le_rfl
  refine ⟨F, ((argsort (events.map Prod.fst)).map (fun j => (events.map Prod.snd).getD j 0),
    shuffle players), ?_⟩
  unfold poissonTimingsDrawn poissonTimings
  simp only
  rw [e]

/-- **C157** The numbers of updates of different players in one call of
`poisson_timings(players, interval, dt)` are independent and Poisson distributed with mean
`dt / interval`: the probability that each player `i` is yielded exactly `f i` times is the
product of the Poisson probabilities. -/
theorem C157_timings {std : ℕ → Ω → ℝ} (h : StandardExponential μ std)
    (shuffle : List ℤ → List ℤ) (argsort : List ℝ → List ℕ) (interval dt : ℝ)
    (hi : 0 < interval) (hdt : 0 ≤ dt) (start : ℕ) (players : List ℤ) (hnd : players.Nodup)
    (hshuffle : ∀ l, (shuffle l).Perm l) (hsort : Spec.IsArgsort argsort) (f : ℤ → ℕ) :
    μ {ω | ∃ fuel ys ps, poissonTimingsDrawn shuffle argsort (fun i => std i ω) interval dt fuel
      start players = some (ys, ps) ∧ ∀ i ∈ players, ys.count i = f i} =
      (players.map fun i => poissonMeasure (dt / interval).toNNReal {f i}).prod := by
  obtain ⟨hind, hlaw⟩ := drawn_law h hi
  have hp := hshuffle players
  have hset : {ω | ∃ fuel ys ps, poissonTimingsDrawn shuffle argsort (fun i => std i ω) interval dt
      fuel start players = some (ys, ps) ∧ ∀ i ∈ players, ys.count i = f i} =
      {ω | TicksList (fun i => exponentialDraw interval (std i ω)) ((shuffle players).map f) dt
        start} := by
    ext ω
    exact timings_ticks shuffle argsort _ dt start players hnd hshuffle hsort f
  rw [hset, ticksList_law (by positivity) hind hlaw dt hdt, List.map_map, (hp.map _).prod_eq]
  congr 1
  refine List.map_congr_left fun i _ => ?_
  rw [poissonMeasure_singleton, Real.coe_toNNReal _ (by positivity)]
  simp only [Function.comp]
  congr 3
  all_goals ring_nf

/-- There are such random numbers. -/
example : ∃ (Ω : Type) (_ : MeasurableSpace Ω) (μ : Measure Ω) (_ : IsProbabilityMeasure μ)
    (std : ℕ → Ω → ℝ), StandardExponential μ std := by
  have : IsProbabilityMeasure (expMeasure 1) := isProbabilityMeasure_expMeasure one_pos
  refine ⟨ℕ → ℝ, inferInstance, Measure.infinitePi fun _ => expMeasure 1, inferInstance,
    fun i ω => ω i, ?_, fun i => ?_⟩
  · exact iIndepFun_infinitePi (X := fun _ x => x) fun _ => measurable_id
  · exact ⟨(measurable_pi_apply i).aemeasurable,
      (measurePreserving_eval_infinitePi (fun _ : ℕ => expMeasure 1) i).map_eq⟩

/-- Players without repetition, a shuffle and an order of the times. -/
example : [(3 : ℤ), 1, 4].Nodup ∧ ∀ l : List ℤ, l.reverse.Perm l :=
  ⟨by decide, fun l => l.reverse_perm⟩

end CrowdDynamics
