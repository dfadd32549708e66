import Verif.Proofs.CoreTestsCases
import Verif.Proofs.CoreTests
import Verif.Props.Integrator

/-!
# Properties C172 - C176: the tests of cells, segments, clocks, time steps and samples, for all
their arguments
-/

namespace CrowdDynamics

open Spec

/-! ## C172: the test of the block list -/

/-- **C172** `test_mutable_block_list` passes in any dimension, for any number of points and
whatever numbers `random()` gives (whole multiples of `2 ** -53` in `[0, 1)`). -/
theorem C172_test_mutable_block_list (dimensions size : ℕ) (k : ℕ → ℕ → ℕ)
    (hk : ∀ i j, k i j < 2 ^ 53) :
    testMutableBlockList fl64 dimensions size fun i j => k i j * 2 ^ (-53 : ℤ) := by
  classical
  unfold testMutableBlockList
  have hs : BlockList.init (α := ℝ) (V := ℕ) 1 = some ⟨1, []⟩ := if_pos one_pos
  rw [hs]
  ext i
  simp only [Set.mem_ofPred_eq]
  have hf := foldl_setItem (fun i => testPoint fl64 dimensions fun j => k i j * 2 ^ (-53 : ℤ)) id
    (List.range size) ⟨1, []⟩
  simp only [id] at hf
  rw [hf, (C12_nearest_exact 1 _ hs _ _ _).mem_iff, insertions_set, List.mem_map]
  constructor
  · rintro ⟨e, he, rfl⟩
    rw [List.mem_filter, List.mem_map] at he
    obtain ⟨⟨j, hj, rfl⟩, -⟩ := he
    exact hj
  · intro hi
    refine ⟨_, List.mem_filter.2 ⟨List.mem_map_of_mem hi, ?_⟩, rfl⟩
    refine decide_eq_true ?_
    exact testPoint_within (fun j => uniformF_range (hk i j)) dimensions

example := C172_test_mutable_block_list 2 100 (fun i j => 1000 * (i % 7) + j % 3)
  (fun i j => by
    have := Nat.mod_lt i (y := 7) (by norm_num)
    have := Nat.mod_lt j (y := 3) (by norm_num)
    omega)

/-- **C172** The keys of the test are the same in floating point. -/
theorem C172_keys (dimensions : ℕ) (k : ℕ → ℕ) (hk : ∀ j, k j < 2 ^ 53) :
    blockTransformF fl64 (testPoint fl64 dimensions fun j => k j * 2 ^ (-53 : ℤ)) 1 =
      (blockTransform (testPoint fl64 dimensions fun j => k j * 2 ^ (-53 : ℤ)) (1 : ℝ)).map
        (fun z : ℤ => (z : ℝ)) := by
  unfold blockTransformF blockTransform
  rw [List.map_map]
  refine List.map_congr_left fun a ha => ?_
  unfold testPoint at ha
  rw [List.mem_map] at ha
  obtain ⟨j, -, rfl⟩ := ha
  have hr := uniformF_range (hk j)
  have := pyFloorDivF_fl64 (x := uniformF fl64 (-1) 2 (k j * 2 ^ (-53 : ℤ))) (y := 1)
    (binary64_fl64 _) ((binary64_iff _).2 fl64_one) one_ne_zero (by
      rw [div_one, abs_le]; constructor <;> linarith [hr.1, hr.2])
  rw [this]
  rfl

/-- The largest number of `random()`. -/
example : (2 ^ 53 - 1 : ℕ) < 2 ^ 53 := by norm_num

/-! ## C173: the test of `line_intersect` -/

/-- The full statement: the test passes for all segments. -/
def C173_statement : Prop :=
  ∀ (A : Arith), A.rnd = fl64 → AccurateHypot A.hypot → ∀ x0 x1 y0 y1 : Vec,
    testLineIntersect A x0 x1 y0 y1

/-- **C173** False of the test: for two equal segments shapely finds an intersection, the function
does not. -/
theorem C173_test_line_intersect_fails : ¬ C173_statement := by
  intro h
  have h1 := (h Arith.machine rfl accurate_machine (1 / 2, 1 / 2) (1, 1) (1 / 2, 1 / 2) (1, 1)
    realsNear_half realsNear_half realsNear_one realsNear_one realsNear_half realsNear_half
    realsNear_one realsNear_one not_close_diagonal not_close_diagonal).2
    ⟨(1, 1), right_mem_segment ℝ _ _, right_mem_segment ℝ _ _⟩
  have h2 := lineIntersectF_grid (g := -1) (by norm_num)
    (show |(1 : ℤ)| ≤ 2 ^ 24 by norm_num) (show |(1 : ℤ)| ≤ 2 ^ 24 by norm_num)
    (show |(2 : ℤ)| ≤ 2 ^ 24 by norm_num) (show |(2 : ℤ)| ≤ 2 ^ 24 by norm_num)
    (show |(1 : ℤ)| ≤ 2 ^ 24 by norm_num) (show |(1 : ℤ)| ≤ 2 ^ 24 by norm_num)
    (show |(2 : ℤ)| ≤ 2 ^ 24 by norm_num) (show |(2 : ℤ)| ≤ 2 ^ 24 by norm_num)
  have e1 : ((1 : ℤ) : ℝ) * 2 ^ (-1 : ℤ) = 1 / 2 := by norm_num
  have e2 : ((2 : ℤ) : ℝ) * 2 ^ (-1 : ℤ) = 1 := by norm_num
  rw [e1, e2] at h2
  change lineIntersectF fl64 _ _ _ _ = true at h1
  rw [h2] at h1
  have h3 := (lineIntersect_iff _ _ _ _).1 h1
  exact h3.1 (by norm_num)

/-- **C173** (partial) The test passes for all segments whose coordinates are multiples of
`2 ** -24`, unless they are parallel and have a common point. Missing: parallel segments that
touch, where the test fails, and finer coordinates, see C168. -/
theorem C173_test_line_intersect_partial (A : Arith) (hr : A.rnd = fl64) (a b c d : ℤ × ℤ)
    (x0 x1 y0 y1 : Vec) (h0 : x0 = (a.1 * (2 : ℝ) ^ (-24 : ℤ), a.2 * (2 : ℝ) ^ (-24 : ℤ)))
    (h1 : x1 = (b.1 * (2 : ℝ) ^ (-24 : ℤ), b.2 * (2 : ℝ) ^ (-24 : ℤ)))
    (h2 : y0 = (c.1 * (2 : ℝ) ^ (-24 : ℤ), c.2 * (2 : ℝ) ^ (-24 : ℤ)))
    (h3 : y1 = (d.1 * (2 : ℝ) ^ (-24 : ℤ), d.2 * (2 : ℝ) ^ (-24 : ℤ)))
    (hpar : (x1.1 - x0.1) * (y1.2 - y0.2) = (x1.2 - x0.2) * (y1.1 - y0.1) →
      ¬ ∃ z, z ∈ segment ℝ x0 x1 ∧ z ∈ segment ℝ y0 y1) :
    testLineIntersect A x0 x1 y0 y1 := by
  intro a1 a2 b1 b2 c1 c2 d1 d2 _ _
  rw [hr] at *
  have grid : ∀ n : ℤ, 0 ≤ (n : ℝ) * (2 : ℝ) ^ (-24 : ℤ) → (n : ℝ) * (2 : ℝ) ^ (-24 : ℤ) ≤ 1 →
      |n| ≤ 2 ^ 24 := by
    intro n h0 h1
    norm_num at h0 h1
    have : n ≤ 16777216 := by
      have : (n : ℝ) ≤ 16777216 := by linarith
      exact_mod_cast this
    rw [abs_of_nonneg h0]; norm_num; exact this
  subst h0 h1 h2 h3
  have := lineIntersectF_grid (g := -24) (by norm_num) (grid _ a1.2.1 a1.2.2.1)
    (grid _ a2.2.1 a2.2.2.1) (grid _ b1.2.1 b1.2.2.1) (grid _ b2.2.1 b2.2.2.1)
    (grid _ c1.2.1 c1.2.2.1) (grid _ c2.2.1 c2.2.2.1) (grid _ d1.2.1 d1.2.2.1)
    (grid _ d2.2.1 d2.2.2.1)
  rw [this, lineIntersect_iff]
  refine ⟨fun h => h.2, fun h => ⟨fun he => ?_, h⟩⟩
  refine hpar ?_ h
  simp only [Prod.fst_sub, Prod.snd_sub, sub_eq_zero] at he
  exact he

/-- The diagonals of the square from 1/4 to 3/4 are not parallel. -/
example : ((3 / 4 : ℝ) - 1 / 4) * (1 / 4 - 3 / 4) ≠ (3 / 4 - 1 / 4) * (3 / 4 - 1 / 4) := by norm_num

/-! ## C174: the tests of the clocks -/

/-- The full statement: the test of `poisson_clock` passes for all intervals the generator may
draw. -/
def C174_statement : Prop :=
  ∀ (draws : ℕ → ℝ) (interval dt : ℝ) (fuel : ℕ), (∀ k, 0 ≤ draws k ∧ fl64 (draws k) = draws k) →
    testPoissonClock fl64 draws interval dt fuel

/-- **C174** False of the test: the first interval may be zero (`-log(1 - u)` for `u = 0`), and
`0.0 < 0.0` fails. -/
theorem C174_test_poisson_clock_fails : ¬ C174_statement := by
  intro h
  have h1 := h (fun k => if k = 0 then 0 else 1) (1 / 512) (1 / 512) 3 (by
    intro k
    by_cases hk : k = 0
    · simp [hk, fl64_zero]
    · simp [hk, fl64_one]) realsBetween_step realsBetween_step ratio_one
  have h2 : poissonClockF fl64 (fun k => if k = 0 then 0 else 1) (1 / 512) 3 0 = some ([0], 2) := by
    unfold poissonClockF
    norm_num [poissonClockLoopF, fl64_one]
  rw [h2] at h1
  exact absurd h1.1.1 (lt_irrefl _)

/-- **C174** (partial) The test passes if the intervals are at least `2 ** -58` seconds. Missing:
shorter intervals (a number `u` below about `2 ** -48`), which may be absorbed by rounding. -/
theorem C174_test_poisson_clock_partial (draws : ℕ → ℝ) (interval dt : ℝ) (fuel : ℕ)
    (hd : ∀ k, (2 : ℝ) ^ (-58 : ℤ) ≤ draws k) : testPoissonClock fl64 draws interval dt fuel := by
  intro _ hdt _
  have hdt2 : dt ≤ 2 ^ (-6 : ℤ) :=
    hdt.2.2.trans (fl64_le_two_zpow (by norm_num) (by norm_num))
  cases hr : poissonClockF fl64 draws dt fuel 0 with
  | none => trivial
  | some r =>
    obtain ⟨ts, pos⟩ := r
    exact checkTimes_loop (fun t k h0 ht => fl64_advance h0 (ht.trans_le hdt2) (hd k)) fuel _ _ 0 ts
      pos le_rfl ((two_zpow_pos _).trans_le (hd 0)) hr

example := C174_test_poisson_clock_partial (fun k => (k + 1) / 1000) 1 0.01 1000 (fun k => by
  have : (0 : ℝ) ≤ k := Nat.cast_nonneg k
  norm_num
  linarith)

/-- **C174** (partial) In exact arithmetic the test passes if the intervals are positive, which
has probability one. -/
theorem C174_exact_partial (draws : ℕ → ℝ) (interval dt : ℝ) (fuel : ℕ)
    (hd : ∀ k, 0 < draws k) : testPoissonClock id draws interval dt fuel := by
  intro _ _ _
  cases hr : poissonClockF id draws dt fuel 0 with
  | none => trivial
  | some r =>
    obtain ⟨ts, pos⟩ := r
    exact checkTimes_loop (fun t k _ _ => by simp only [id]; linarith [hd k]) fuel _ _ 0 ts
      pos le_rfl (hd 0) hr

example := C174_exact_partial (fun k => (k + 1) / 1000) 1 0.01 1000 (fun k => by positivity)

/-- **C174** `test_poisson_timings` passes for all players and all intervals. -/
theorem C174_test_poisson_timings (shuffle : List ℤ → List ℤ) (argsort : List ℝ → List ℕ)
    (hsort : IsArgsort argsort) (draws : ℕ → ℝ) (dt : ℝ) (fuel : ℕ) (players : List ℤ) :
    testPoissonTimings shuffle argsort draws dt fuel players := by
  unfold testPoissonTimings poissonTimings
  cases hc : poissonCollect draws dt fuel (shuffle players) 0 with
  | none => simp only [hc]
  | some r =>
    obtain ⟨events, pos⟩ := r
    have key : ∀ (ps : List ℤ) (pos : ℕ) (ev : List (ℝ × ℤ)) (pos' : ℕ),
        poissonCollect draws dt fuel ps pos = some (ev, pos') → ∀ e ∈ ev, e.2 ∈ ps := by
      intro ps
      induction ps with
      | nil =>
        intro pos ev pos' h e he
        simp only [poissonCollect, Option.some.injEq, Prod.mk.injEq] at h
        rw [← h.1] at he; simp at he
      | cons i ps ih =>
        intro pos ev pos' h e he
        unfold poissonCollect at h
        cases h1 : poissonClock draws dt fuel pos with
        | none => rw [h1] at h; simp at h
        | some r1 =>
          rw [h1] at h
          simp only at h
          cases h2 : poissonCollect draws dt fuel ps r1.2 with
          | none => rw [h2] at h; simp at h
          | some r2 =>
            rw [h2] at h
            simp only [Option.some.injEq, Prod.mk.injEq] at h
            rw [← h.1, List.mem_append, List.mem_map] at he
            rcases he with ⟨t, -, rfl⟩ | he
            · exact List.mem_cons_self
            · exact List.mem_cons_of_mem _ (ih _ _ _ h2 e he)
    simp only [hc]
    intro index hi
    rw [List.mem_map] at hi
    obtain ⟨j, hj, rfl⟩ := hi
    have hj' := (hsort (events.map Prod.fst)).1.mem_iff.1 hj
    rw [List.mem_range, List.length_map] at hj'
    rw [List.getD_eq_getElem?_getD, List.getElem?_map, List.getElem?_eq_getElem hj']
    exact key _ _ _ _ hc _ (List.getElem_mem hj')

/-- Intervals of five milliseconds. -/
example : (2 : ℝ) ^ (-58 : ℤ) ≤ 5 / 1000 := by norm_num

/-! ## C175: the tests of the integrators -/

/-- **C175** The tests of `adaptive_timestep` pass for all crowds, in any arithmetic. -/
theorem C175_test_adaptive_timestep {n : ℕ} (A : Arith) (agents : Crowd n) (dtMin dtMax : ℝ) :
    testAdaptiveTimestep A agents dtMin dtMax := by
  intro _ _ h
  refine ⟨h.1, ?_⟩
  unfold adaptiveTimestepF
  simp only
  split_ifs with h1 h2 h3
  · exact ⟨h.2.le, le_rfl⟩
  · exact ⟨h.2.le, le_rfl⟩
  · exact ⟨le_rfl, h.2.le⟩
  · exact ⟨not_lt.1 h3, not_lt.1 h2⟩

/-- **C175** The step lies between the bounds for all positive bounds, which is what the tests of
velocity Verlet assume. -/
theorem C175_step_bounds {n : ℕ} (A : Arith) (agents : Crowd n) (dtMin dtMax : ℝ)
    (h : dtMin < dtMax) :
    dtMin ≤ adaptiveTimestepF A agents dtMin dtMax ∧
      adaptiveTimestepF A agents dtMin dtMax ≤ dtMax := by
  unfold adaptiveTimestepF
  simp only
  split_ifs with h1 h2 h3
  · exact ⟨h.le, le_rfl⟩
  · exact ⟨h.le, le_rfl⟩
  · exact ⟨le_rfl, h.le⟩
  · exact ⟨not_lt.1 h3, not_lt.1 h2⟩

example := C175_step_bounds (n := 2) Arith.machine
  (fun i => { Agent.default with velocity := (i, 1) }) 0.01 0.1 (by norm_num)

/-- **C175** The integrators return the step of `adaptive_timestep`; so the tests of the
integrators pass, too. -/
theorem C175_test_integrators {n : ℕ} (agents : AgentArray n) (dtMin dtMax : ℝ) (h : 0 < dtMin)
    (hlt : dtMin < dtMax) :
    (0 < dtMin ∧ dtMin ≤ (eulerIntegrator agents dtMin dtMax).1 ∧
      (eulerIntegrator agents dtMin dtMax).1 ≤ dtMax) ∧
    (0 < dtMin ∧ dtMin ≤ (velocityVerletIntegrator agents dtMin dtMax).1 ∧
      (velocityVerletIntegrator agents dtMin dtMax).1 ≤ dtMax) := by
  have hb := C19_timestep_bounds agents.rows dtMin dtMax hlt.le
  exact ⟨⟨h, hb⟩, ⟨h, hb⟩⟩

example := C175_test_integrators (n := 2)
  ⟨.fresh .circular 0, fun i => { Agent.default with velocity := (i, 1) }⟩ 0.01 0.1 (by norm_num)
  (by norm_num)

/-- **C175** Without rounding the step is that of C19. -/
theorem C175_exact {n : ℕ} (agents : Crowd n) (dtMin dtMax : ℝ) :
    adaptiveTimestepF Arith.exact agents dtMin dtMax = adaptiveTimestep agents dtMin dtMax := rfl

example : (0 : ℝ) < 1 / 100 ∧ (1 / 100 : ℝ) < 1 / 10 := by norm_num

/-! ## C176: the tests of the samples -/

/-- **C176** `test_linestring_sample` passes for all three line strings and all random numbers. -/
theorem C176_test_linestring_sample (A : Arith) (hr : A.rnd = fl64) (H : AccurateHypot A.hypot)
    (vertices : List Vec) (hv : vertices ∈ testPolygons) (x y : ℝ) (hx : x ∈ Set.Ico (0 : ℝ) 1)
    (hy : y ∈ Set.Ico (0 : ℝ) 1) : testLinestringSample A vertices x y := by
  have f1 : fl64 (1 : ℝ) = 1 := fl64_one
  have fm1 : fl64 (-1 : ℝ) = -1 := by rw [fl64_neg, f1]
  have f2 : fl64 (2 : ℝ) = 2 := by have := fl64_int (n := 2) (by norm_num); simpa using this
  have f32 : fl64 (3 / 2 : ℝ) = 3 / 2 := by
    have := fl64_of_mul (m := 3) (e := -1) (by norm_num) (by norm_num); norm_num at this; exact this
  have fm12 : fl64 (-1 / 2 : ℝ) = -1 / 2 := by
    have := fl64_of_mul (m := -1) (e := -1) (by norm_num) (by norm_num); norm_num at this ⊢; exact this
  have pos : ∀ a b : ℝ, 1 / 2 ≤ |a| → 0 < A.hypot a b := by
    intro a b ha
    refine (hypot_rel H ?_).1
    refine le_trans ?_ (abs_le_norm_pair a b).1
    norm_num; linarith
  simp only [testPolygons, List.mem_cons, List.not_mem_nil, or_false] at hv
  rcases hv with rfl | rfl | rfl
  · refine testLinestringSample_passes hr ?_ (by simp) ?_ hx hy
    · intro v hv
      simp only [List.mem_cons, List.not_mem_nil, or_false] at hv
      rcases hv with rfl | rfl | rfl | rfl <;> norm_num
    · simp only [List.length_cons, List.length_nil, List.getD_cons_succ, List.getD_cons_zero, hr,
        vecSubF, lengthF]
      refine pos _ _ ?_
      norm_num [f1]
  · refine testLinestringSample_passes hr ?_ (by simp) ?_ hx hy
    · intro v hv
      simp only [List.mem_cons, List.not_mem_nil, or_false] at hv
      rcases hv with rfl | rfl | rfl | rfl | rfl <;> norm_num [abs_le]
    · simp only [List.length_cons, List.length_nil, List.getD_cons_succ, List.getD_cons_zero, hr,
        vecSubF, lengthF]
      refine pos _ _ ?_
      norm_num [f2]
  · refine testLinestringSample_passes hr ?_ (by simp) ?_ hx hy
    · intro v hv
      simp only [List.mem_cons, List.not_mem_nil, or_false] at hv
      rcases hv with rfl | rfl | rfl | rfl | rfl | rfl <;> norm_num [abs_le]
    · simp only [List.length_cons, List.length_nil, List.getD_cons_succ, List.getD_cons_zero, hr,
        vecSubF, lengthF]
      refine pos _ _ ?_
      norm_num [f32]

example := C176_test_linestring_sample Arith.machine rfl accurate_machine
  [(1, 1), (0, 0), (2, 0), (1, 1)] (by simp [testPolygons]) 0.5 0.25 (by norm_num) (by norm_num)

/-- **C176** `test_triangle_area_cumsum` passes for all meshes. -/
theorem C176_test_triangle_area_cumsum (trimesh : List (Vec × Vec × Vec)) :
    testTriangleAreaCumsum fl64 trimesh := cumsumF_sorted trimesh

/-- **C176** `test_random_sample_triangle` passes for all triangles and all random numbers. -/
theorem C176_test_random_sample_triangle (a b c : Vec) (r1 r2 : ℝ) (h1 : r1 ∈ Set.Ico (0 : ℝ) 1)
    (h2 : r2 ∈ Set.Ico (0 : ℝ) 1) : testRandomSampleTriangle fl64 a b c r1 r2 :=
  testRandomSampleTriangle_passes a b c r1 r2 h1 h2

example := C176_test_random_sample_triangle (1, 1) (0, 0) (2, 0) 0.5 0.25 (by norm_num)
  (by norm_num)

/-- The full statement: `test_polygon_sampling` passes for all random numbers. -/
def C176_statement : Prop :=
  ∀ (delaunay : List Vec → List (Vec × Vec × Vec)), ∀ vertices ∈ testPolygons,
    Tiles (delaunay vertices) (convexHull ℝ {v | v ∈ vertices}) →
    (∀ t ∈ delaunay vertices, 0 < triArea t.1 t.2.1 t.2.2) →
    ∀ x ∈ Set.Ico (0 : ℝ) 1, ∀ r1 ∈ Set.Ico (0 : ℝ) 1, ∀ r2 ∈ Set.Ico (0 : ℝ) 1,
      testPolygonSampling delaunay vertices x r1 r2

/-- **C176** False of the test: for `r1 = 0` the sample is a corner of the triangle, which the
polygon does not contain in the sense of shapely. -/
theorem C176_test_polygon_sampling_fails : ¬ C176_statement := by
  intro h
  have hset : {v : Vec | v ∈ [((1 : ℝ), (1 : ℝ)), (0, 0), (2, 0), (1, 1)]} =
      {((1 : ℝ), (1 : ℝ)), (0, 0), (2, 0)} := by
    ext v
    simp only [List.mem_cons, List.not_mem_nil, or_false, Set.mem_ofPred_eq, Set.mem_insert_iff,
      Set.mem_singleton_iff]
    tauto
  have h1 := h (fun _ => [((1, 1), (0, 0), (2, 0))]) [(1, 1), (0, 0), (2, 0), (1, 1)]
    (by simp [testPolygons]) (by
      constructor
      · intro p
        rw [hset]
        simp [filled]
      · exact List.pairwise_singleton _ _) (by
      intro t ht
      rw [List.mem_singleton] at ht
      rw [ht]; norm_num [triArea]) 0 (by simp) 0 (by simp) 0 (by simp)
  obtain ⟨p, hp, hin⟩ := h1
  have hp1 : p = (1, 1) := by
    unfold polygonSample at hp
    simp only at hp
    cases hc : triangleChoice [(((1 : ℝ), (1 : ℝ)), ((0 : ℝ), (0 : ℝ)), ((2 : ℝ), (0 : ℝ)))] 0 with
    | none => rw [hc] at hp; simp at hp
    | some i =>
      rw [hc] at hp
      cases i with
      | zero =>
        simp only [List.getElem?_cons_zero, Option.some.injEq] at hp
        rw [← hp]
        unfold randomSampleTriangle
        ext <;> simp
      | succ i => simp at hp
  rw [hp1] at hin
  have hsub : convexHull ℝ {v : Vec | v ∈ [((1 : ℝ), (1 : ℝ)), (0, 0), (2, 0), (1, 1)]} ⊆
      Set.univ ×ˢ Set.Iic (1 : ℝ) := by
    refine convexHull_min ?_ (convex_univ.prod (convex_Iic 1))
    intro v hv
    simp only [List.mem_cons, List.not_mem_nil, or_false, Set.mem_ofPred_eq] at hv
    rcases hv with rfl | rfl | rfl | rfl <;> simp
  have := interior_mono hsub hin
  rw [interior_prod_eq, interior_univ, interior_Iic] at this
  exact absurd (Set.mem_Iio.1 this.2) (lt_irrefl _)

/-- **C176** (partial) `test_polygon_sampling` passes for every polygon if the random numbers for
the point in the triangle are not zero, in exact arithmetic. Missing: the number zero, for which
it fails, and rounding. -/
theorem C176_test_polygon_sampling_partial (delaunay : List Vec → List (Vec × Vec × Vec))
    (vertices : List Vec) (htiles : Tiles (delaunay vertices) (convexHull ℝ {v | v ∈ vertices}))
    (hne : delaunay vertices ≠ []) (harea : ∀ t ∈ delaunay vertices, 0 < triArea t.1 t.2.1 t.2.2)
    (x r1 r2 : ℝ) (hx : x < 1) (h1 : r1 ∈ Set.Ioo (0 : ℝ) 1) (h2 : r2 ∈ Set.Ioo (0 : ℝ) 1) :
    testPolygonSampling delaunay vertices x r1 r2 := by
  have hw : triangleAreaCumsum (delaunay vertices) ≠ [] := by
    intro h
    have := cumsum_length (delaunay vertices)
    rw [h] at this
    exact hne (List.length_eq_zero_iff.1 this.symm)
  have hlen := cumsum_length (delaunay vertices)
  have hpos : 0 < (delaunay vertices).length := List.length_pos_iff.2 hne
  have hlast : 0 < (triangleAreaCumsum (delaunay vertices)).getD
      ((triangleAreaCumsum (delaunay vertices)).length - 1) 0 := by
    rw [hlen, cumsum_getD _ (by omega), take_sum_succ _ (by omega)]
    have : 0 ≤ (((delaunay vertices).take ((delaunay vertices).length - 1)).map meshArea).sum :=
      List.sum_nonneg (by
        intro a ha
        rw [List.mem_map] at ha
        obtain ⟨t, -, rfl⟩ := ha
        exact meshArea_nonneg t)
    have h3 : 0 < meshArea ((delaunay vertices)[(delaunay vertices).length - 1]) :=
      harea _ (List.getElem_mem _)
    linarith
  obtain ⟨i, hi, hc⟩ := weights_choice hw hlast hx
  rw [hlen] at hi
  have hmem : (delaunay vertices)[i] ∈ delaunay vertices := List.getElem_mem hi
  obtain ⟨t, ht⟩ : ∃ t, (delaunay vertices)[i] = t := ⟨_, rfl⟩
  rw [ht] at hmem
  obtain ⟨a, b, c⟩ := t
  refine ⟨randomSampleTriangle r1 r2 a b c, ?_, ?_⟩
  · unfold polygonSample
    have hc' : triangleChoice (delaunay vertices) x = some i := hc
    simp only [hc', List.getElem?_eq_getElem hi, ht]
  · have hs0 : 0 < √r1 := Real.sqrt_pos.2 h1.1
    have hs1 : √r1 < 1 := by
      rw [Real.sqrt_lt' one_pos]; simpa using h1.2
    have hin := mem_interior_triangle (harea _ hmem) (l := 1 - √r1) (m := √r1 * (1 - r2))
      (n := r2 * √r1) (by linarith) (mul_pos hs0 (by linarith [h2.2])) (mul_pos h2.1 hs0) (by ring)
    refine interior_mono ?_ hin
    intro p hp
    exact (htiles.1 p).2 ⟨_, hmem, hp⟩

/-- The triangle of the test has a positive area. -/
example : 0 < triArea (1, 1) (0, 0) (2, 0) ∧ (1 / 2 : ℝ) ∈ Set.Ioo (0 : ℝ) 1 := by
  norm_num [triArea]

end CrowdDynamics
