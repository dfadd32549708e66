import Verif.Proofs.RoundedContact
import Verif.Props.CoreTests

/-!
# Properties C180 and C181: contact with agents and walls in floating point
-/

namespace CrowdDynamics

open Spec Real

/-! ## C180: contact of agents -/

/-- The full statement of C180: two circles overlap if and only if their computed distance is
negative. -/
def C180_statement : Prop :=
  ∀ (x0 x1 : Vec) (r0 r1 : ℝ), Binary64 x0.1 → Binary64 x0.2 → Binary64 x1.1 → Binary64 x1.2 →
    Binary64 r0 → Binary64 r1 → 0 < r0 → 0 < r1 →
    ((distanceCirclesF Arith.machine x0 r0 x1 r1).1 < 0 ↔ Spec.dist x0 x1 < r0 + r1)

/-- **C180** False of the code. The circle about `(1, 0)` with radius `1` and the circle about `(0, 0)`
with radius `2 ** -54` overlap, but their computed distance is zero. -/
theorem C180_contact_fails : ¬ C180_statement := by
  intro h
  have b1 : Binary64 1 := (binary64_iff _).2 fl64_one
  have b0 : Binary64 0 := (binary64_iff _).2 fl64_zero
  have b54 : fl64 ((2 : ℝ) ^ (-54 : ℤ)) = 2 ^ (-54 : ℤ) := fl64_two_zpow (by norm_num)
  have := h (1, 0) (0, 0) 1 (2 ^ (-54 : ℤ)) b1 b0 b0 b0 b1 ((binary64_iff _).2 b54) one_pos
    (two_zpow_pos _)
  have e : fl64 (1 + (2 : ℝ) ^ (-54 : ℤ)) = 1 := by
    have := fl64_eq_of_near (x := 1 + (2 : ℝ) ^ (-54 : ℤ)) (m := 2 ^ 52) (e := -52) (by
      rw [abs_of_pos (by norm_num)]; norm_num) (by
      rw [abs_of_pos (by norm_num)]; norm_num) (by norm_num) (by
      rw [abs_lt]; constructor <;> norm_num)
    rw [this]; norm_num
  have hd : Spec.dist (1, 0) (0, 0) = 1 := by
    simp [Spec.dist, Spec.len]
  rw [hd] at this
  have hz : (distanceCirclesF Arith.machine (1, 0) 1 (0, 0) (2 ^ (-54 : ℤ))).1 = 0 := by
    unfold distanceCirclesF lengthF vecSubF Arith.machine
    simp only [sub_zero, fl64_one, fl64_zero, e]
    norm_num [fl64_one, fl64_zero]
  rw [hz] at this
  exact absurd (this.2 (by linarith [two_zpow_pos (-54)])) (lt_irrefl _)

/-- **C180** (partial) The computed distance of two circles errs by a few rounding errors. Missing: the
sign near zero, where it can be wrong. -/
theorem C180_distance_partial (A : Arith) (hr : A.rnd = fl64) (H : AccurateHypot A.hypot) (x0 x1 : Vec)
    (r0 r1 : ℝ) (h0 : 0 ≤ r0) (h1 : 0 ≤ r1) :
    |(distanceCirclesF A x0 r0 x1 r1).1 - (Spec.dist x0 x1 - (r0 + r1))| ≤
      2 ^ (-49 : ℤ) * (Spec.dist x0 x1 + (r0 + r1)) + 2 ^ (-1070 : ℤ) := by
  have hd : 0 ≤ Spec.dist x0 x1 := length_nonneg _
  exact (circles_err hr H x0 r0 x1 r1 (add_nonneg h0 h1)).trans
    (units_le (by positivity) (by norm_num) (by norm_num))

example := C180_distance_partial Arith.machine rfl accurate_machine (1, 0) (0.1, 2) 0.3 0.2
  (by norm_num) (by norm_num)

/-- **C180** The computed distance of circles that are farther apart than the error is positive. -/
theorem C180_apart (A : Arith) (hr : A.rnd = fl64) (H : AccurateHypot A.hypot) (x0 x1 : Vec)
    (r0 r1 : ℝ) (h0 : 0 ≤ r0) (h1 : 0 ≤ r1)
    (h : r0 + r1 + (2 ^ (-49 : ℤ) * (Spec.dist x0 x1 + (r0 + r1)) + 2 ^ (-1070 : ℤ)) <
      Spec.dist x0 x1) :
    0 < (distanceCirclesF A x0 r0 x1 r1).1 := by
  have e := (abs_le.1 (C180_distance_partial A hr H x0 x1 r0 r1 h0 h1)).1
  revert h e
  generalize (2 : ℝ) ^ (-1070 : ℤ) = z
  intro h e
  linarith

/-- **C180** The computed distance of circles that overlap by more than the error is negative. -/
theorem C180_overlap (A : Arith) (hr : A.rnd = fl64) (H : AccurateHypot A.hypot) (x0 x1 : Vec)
    (r0 r1 : ℝ) (h0 : 0 ≤ r0) (h1 : 0 ≤ r1)
    (h : Spec.dist x0 x1 + (2 ^ (-48 : ℤ) * (r0 + r1) + 2 ^ (-1070 : ℤ)) < r0 + r1) :
    (distanceCirclesF A x0 r0 x1 r1).1 < 0 := by
  have e := (abs_le.1 (C180_distance_partial A hr H x0 x1 r0 r1 h0 h1)).2
  have hd : Spec.dist x0 x1 ≤ r0 + r1 := by
    have : (0 : ℝ) ≤ 2 ^ (-48 : ℤ) * (r0 + r1) := by positivity
    have := two_zpow_pos (-1070)
    revert h this
    generalize (2 : ℝ) ^ (-1070 : ℤ) = z
    intro h this
    linarith
  have h2 : (2 : ℝ) ^ (-49 : ℤ) * (Spec.dist x0 x1 + (r0 + r1)) ≤ 2 ^ (-48 : ℤ) * (r0 + r1) := by
    rw [show (2 : ℝ) ^ (-48 : ℤ) = 2 ^ (-49 : ℤ) * 2 by norm_num, mul_assoc]
    exact mul_le_mul_of_nonneg_left (by linarith) (by positivity)
  revert h e
  generalize (2 : ℝ) ^ (-1070 : ℤ) = z
  intro h e
  linarith

/-- **C180** An agent that passes the test of overlap overlaps each other agent by a few rounding errors
at most. -/
theorem C180_placed (A : Arith) (hr : A.rnd = fl64) (H : AccurateHypot A.hypot) (x : Vec) (r : ℝ)
    (agents : List Agent) (h0 : 0 ≤ r) (h1 : ∀ a ∈ agents, 0 ≤ a.radius)
    (h : overlappingCirclesF A x r agents = false) :
    ∀ a ∈ agents, a.radius + r ≤ Spec.dist a.position x +
      (2 ^ (-48 : ℤ) * (a.radius + r) + 2 ^ (-1070 : ℤ)) := by
  induction agents with
  | nil => simp
  | cons b rest ih =>
    unfold overlappingCirclesF at h
    simp only at h
    split_ifs at h with hb
    intro a ha
    rcases List.mem_cons.1 ha with rfl | ha
    · by_contra hc
      push Not at hc
      exact hb (C180_overlap A hr H _ _ _ _ (h1 _ (by simp)) h0 hc)
    · exact ih (fun c hc => h1 c (List.mem_cons_of_mem _ hc)) h a ha

/-- **C180** An agent that fails the test of overlap overlaps another agent or nearly touches it. -/
theorem C180_refused (A : Arith) (hr : A.rnd = fl64) (H : AccurateHypot A.hypot) (x : Vec) (r : ℝ)
    (agents : List Agent) (h0 : 0 ≤ r) (h1 : ∀ a ∈ agents, 0 ≤ a.radius)
    (h : overlappingCirclesF A x r agents = true) :
    ∃ a ∈ agents, Spec.dist a.position x ≤ a.radius + r +
      (2 ^ (-49 : ℤ) * (Spec.dist a.position x + (a.radius + r)) + 2 ^ (-1070 : ℤ)) := by
  induction agents with
  | nil => simp [overlappingCirclesF] at h
  | cons b rest ih =>
    unfold overlappingCirclesF at h
    simp only at h
    split_ifs at h with hb
    · refine ⟨b, by simp, ?_⟩
      by_contra hc
      push Not at hc
      exact lt_asymm hb (C180_apart A hr H _ _ _ _ (h1 _ (by simp)) h0 hc)
    · obtain ⟨a, ha, h2⟩ := ih (fun c hc => h1 c (List.mem_cons_of_mem _ hc)) h
      exact ⟨a, List.mem_cons_of_mem _ ha, h2⟩

/-- **C180** (partial) The computed distance of two three-circle bodies is that of one of the nine pairs
of circles, and at most that of each pair, up to a few rounding errors. Missing: as above. -/
theorem C180_three_partial (A : Arith) (hr : A.rnd = fl64) (H : AccurateHypot A.hypot)
    (x0 x1 : Fin 3 → Vec) (r0 r1 : Fin 3 → ℝ) (h0 : ∀ i, 0 ≤ r0 i) (h1 : ∀ i, 0 ≤ r1 i) :
    (∃ i j, |(distanceThreeCirclesF A x0 r0 x1 r1).h - (Spec.dist (x0 i) (x1 j) - (r0 i + r1 j))| ≤
      2 ^ (-49 : ℤ) * (Spec.dist (x0 i) (x1 j) + (r0 i + r1 j)) + 2 ^ (-1070 : ℤ)) ∧
    ∀ i j, (distanceThreeCirclesF A x0 r0 x1 r1).h ≤ Spec.dist (x0 i) (x1 j) - (r0 i + r1 j) +
      (2 ^ (-49 : ℤ) * (Spec.dist (x0 i) (x1 j) + (r0 i + r1 j)) + 2 ^ (-1070 : ℤ)) := by
  obtain ⟨i, j, e, hmin⟩ := three_min A x0 r0 x1 r1
  refine ⟨⟨i, j, ?_⟩, fun i' j' => ?_⟩
  · rw [e]
    exact C180_distance_partial A hr H _ _ _ _ (h0 i) (h1 j)
  · have a := (abs_le.1 (C180_distance_partial A hr H (x0 i') (x1 j') _ _ (h0 i') (h1 j'))).2
    have b := hmin i' j'
    revert a
    generalize (2 : ℝ) ^ (-1070 : ℤ) = z
    intro a
    linarith

example := C180_three_partial Arith.machine rfl accurate_machine ![(0, 0), (0, 1), (0, -1)]
  ![(5, 0), (5, 1), (5, -1)] (fun _ => 0.3) (fun _ => 0.2) (by norm_num) (by norm_num)

/-- **C180** A three-circle agent that passes the test of overlap overlaps each circle of each other
agent by a few rounding errors at most. -/
theorem C180_three_placed (A : Arith) (hr : A.rnd = fl64) (H : AccurateHypot A.hypot)
    (x : Fin 3 → Vec) (r : Fin 3 → ℝ) (agents : List Agent) (h0 : ∀ i, 0 ≤ r i)
    (h1 : ∀ a ∈ agents, ∀ i, 0 ≤ a.radii i) (h : overlappingThreeCirclesF A x r agents = false) :
    ∀ a ∈ agents, ∀ i j, a.radii i + r j ≤ Spec.dist (a.circles i) (x j) +
      (2 ^ (-48 : ℤ) * (a.radii i + r j) + 2 ^ (-1070 : ℤ)) := by
  induction agents with
  | nil => simp
  | cons b rest ih =>
    unfold overlappingThreeCirclesF at h
    simp only at h
    split_ifs at h with hb
    intro a ha i j
    rcases List.mem_cons.1 ha with rfl | ha
    · by_contra hc
      push Not at hc
      obtain ⟨-, -, -, hmin⟩ := three_min A a.circles a.radii x r
      exact hb ((hmin i j).trans_lt
        (C180_overlap A hr H _ _ _ _ (h1 _ (by simp) i) (h0 j) hc))
    · exact ih (fun c hc => h1 c (List.mem_cons_of_mem _ hc)) h a ha i j

/-- **C180** Without rounding, these are the functions of the exact model. -/
theorem C180_exact (x0 x1 : Vec) (r0 r1 : ℝ) (c0 c1 : Fin 3 → Vec) (s0 s1 : Fin 3 → ℝ)
    (agents : List Agent) :
    distanceCirclesF Arith.exact x0 r0 x1 r1 = distanceCircles x0 r0 x1 r1 ∧
    distanceThreeCirclesF Arith.exact c0 s0 c1 s1 = distanceThreeCircles c0 s0 c1 s1 ∧
    overlappingCirclesF Arith.exact x0 r0 agents = overlappingCircles x0 r0 agents ∧
    overlappingThreeCirclesF Arith.exact c0 s0 agents = overlappingThreeCircles c0 s0 agents := by
  have e3 : ∀ c0 s0 c1 s1, distanceThreeCirclesF Arith.exact c0 s0 c1 s1 =
      distanceThreeCircles c0 s0 c1 s1 := by
    intro c0 s0 c1 s1
    have hd : ∀ x0 r0 x1 r1, distanceCirclesF Arith.exact x0 r0 x1 r1 =
      distanceCircles x0 r0 x1 r1 := fun _ _ _ _ => rfl
    unfold distanceThreeCirclesF distanceThreeCircles momentF
    simp only [hd]
    congr 1
    · ext <;> simp [Arith.exact]
    · ext <;> simp [Arith.exact, sub_eq_add_neg]
  refine ⟨rfl, e3 _ _ _ _, ?_, ?_⟩
  · induction agents with
    | nil => rfl
    | cons a rest ih =>
      unfold overlappingCirclesF overlappingCircles
      rw [ih]; rfl
  · induction agents with
    | nil => rfl
    | cons a rest ih =>
      unfold overlappingThreeCirclesF overlappingThreeCircles
      rw [ih, e3]

/-- An agent of radius 1/4 at the origin and a test at distance 1: apart. -/
example : ∃ (A : Arith) (x0 x1 : Vec) (r0 r1 : ℝ), A.rnd = fl64 ∧ AccurateHypot A.hypot ∧ 0 ≤ r0 ∧
    0 ≤ r1 ∧ r0 + r1 + (2 ^ (-49 : ℤ) * (Spec.dist x0 x1 + (r0 + r1)) + 2 ^ (-1070 : ℤ)) <
      Spec.dist x0 x1 := by
  refine ⟨Arith.machine, (1, 0), (0, 0), 1 / 4, 1 / 4, rfl, accurate_machine, by norm_num, by norm_num,
    ?_⟩
  have hd : Spec.dist (1, 0) (0, 0) = 1 := by simp [Spec.dist, Spec.len]
  rw [hd]
  have : (2 : ℝ) ^ (-1070 : ℤ) ≤ 2 ^ (-2 : ℤ) := zpow_le_zpow_right₀ (by norm_num) (by norm_num)
  revert this
  generalize (2 : ℝ) ^ (-1070 : ℤ) = z
  intro this
  norm_num at this ⊢
  linarith

/-- An agent of radius 1 at the origin and a test at distance 1 with radius 1: overlap. -/
theorem C180_example_overlap : Spec.dist (1, 0) (0, 0) + (2 ^ (-48 : ℤ) * (1 + 1) + 2 ^ (-1070 : ℤ)) <
    (1 : ℝ) + 1 := by
  have hd : Spec.dist (1, 0) (0, 0) = 1 := by simp [Spec.dist, Spec.len]
  rw [hd]
  have : (2 : ℝ) ^ (-1070 : ℤ) ≤ 2 ^ (-2 : ℤ) := zpow_le_zpow_right₀ (by norm_num) (by norm_num)
  revert this
  generalize (2 : ℝ) ^ (-1070 : ℤ) = z
  intro this
  norm_num at this ⊢
  linarith

example : ∃ (A : Arith) (x0 x1 : Vec) (r0 r1 : ℝ), A.rnd = fl64 ∧ AccurateHypot A.hypot ∧ 0 ≤ r0 ∧
    0 ≤ r1 ∧ Spec.dist x0 x1 + (2 ^ (-48 : ℤ) * (r0 + r1) + 2 ^ (-1070 : ℤ)) < r0 + r1 :=
  ⟨Arith.machine, (1, 0), (0, 0), 1, 1, rfl, accurate_machine, by norm_num, by norm_num,
    C180_example_overlap⟩

/-- Both outcomes of the test of overlap occur: the agent of radius 1 at `(1, 0)` refuses a circle of
radius 1 about the origin, the agent of radius zero does not. -/
example : ∃ (A : Arith) (a b : Agent), A.rnd = fl64 ∧ AccurateHypot A.hypot ∧ 0 ≤ a.radius ∧
    0 ≤ b.radius ∧ overlappingCirclesF A (0, 0) 1 [a] = true ∧
    overlappingCirclesF A (0, 0) 1 [b] = false := by
  refine ⟨Arith.machine, { Agent.zero with
    position := (1, 0)
    radius := 1 }, { Agent.zero with
    position := (1, 0)
    radius := 0 }, rfl, accurate_machine, by norm_num, le_rfl, ?_, ?_⟩
  · unfold overlappingCirclesF
    simp only
    rw [if_pos]
    exact C180_overlap Arith.machine rfl accurate_machine _ _ _ _ (by norm_num) (by norm_num)
      C180_example_overlap
  · have hz : (distanceCirclesF Arith.machine (1, 0) 0 (0, 0) 1).1 = 0 := by
      unfold distanceCirclesF lengthF vecSubF Arith.machine
      simp only [sub_zero, fl64_one, fl64_zero, zero_add]
      norm_num [fl64_one, fl64_zero]
    simp only [overlappingCirclesF, hz, lt_irrefl, if_false]

/-- Three circles of radius 1 about `(1, 0)` and three about `(1, 0)` of an agent: refused; with radius
zero: placed. -/
example : ∃ (A : Arith) (a : Agent), A.rnd = fl64 ∧ AccurateHypot A.hypot ∧ (∀ i, 0 ≤ a.radii i) ∧
    overlappingThreeCirclesF A (fun _ => (0, 0)) (fun _ => 1) [a] = false := by
  refine ⟨Arith.machine, { Agent.zero with
    position := (1, 0)
    positionLs := (1, 0)
    positionRs := (1, 0) }, rfl, accurate_machine, ?_, ?_⟩
  · intro i; fin_cases i <;> exact le_rfl
  · have hz : (distanceCirclesF Arith.machine (1, 0) 0 (0, 0) 1).1 = 0 := by
      unfold distanceCirclesF lengthF vecSubF Arith.machine
      simp only [sub_zero, fl64_one, fl64_zero, zero_add]
      norm_num [fl64_one, fl64_zero]
    unfold overlappingThreeCirclesF
    simp only
    obtain ⟨i, j, e, -⟩ := three_min Arith.machine (Agent.circles { Agent.zero with
      position := (1, 0)
      positionLs := (1, 0)
      positionRs := (1, 0) }) (Agent.radii { Agent.zero with
      position := (1, 0)
      positionLs := (1, 0)
      positionRs := (1, 0) }) (fun _ => (0, 0)) (fun _ => 1)
    rw [e]
    fin_cases i <;>
      simp [Agent.circles, Agent.radii, Agent.zero, overlappingThreeCirclesF, hz]

/-! ## C181: contact with walls -/

/-- The full statement of C181: the computed normal of a wall is a number, when the agent and the wall
are. -/
def C181_statement : Prop :=
  ∀ (x p0 p1 : Vec) (r : ℝ), Binary64 x.1 → Binary64 x.2 → Binary64 p0.1 → Binary64 p0.2 →
    Binary64 p1.1 → Binary64 p1.2 → Binary64 r → 0 < r → 2 ^ (-500 : ℤ) ≤ length (p1 - p0) →
    ∃ h n, distanceCircleLineF Arith.machine x r p0 p1 = some (h, some n)

/-- **C181** False of the code. The centre of the agent is the end `(0, 0)` of the wall to `(2, 3)`. The
computed extent along the wall is one unit in the last place larger than the computed length of the
wall, so the code divides zero by zero. -/
theorem C181_nan_fails : ¬ C181_statement := by
  intro h
  have b1 : Binary64 1 := (binary64_iff _).2 fl64_one
  have b0 : Binary64 0 := (binary64_iff _).2 fl64_zero
  have b2 : Binary64 2 := (binary64_iff _).2 (by exact_mod_cast fl64_int (n := 2) (by norm_num))
  have b3 : Binary64 3 := (binary64_iff _).2 (by exact_mod_cast fl64_int (n := 3) (by norm_num))
  obtain ⟨h', n, hn⟩ := h (0, 0) (0, 0) (2, 3) 1 b0 b0 b0 b0 b2 b3 b1 one_pos (by
    have : (1 : ℝ) ≤ length ((2, 3) - (0, 0)) := by
      unfold length
      rw [Real.one_le_sqrt]; norm_num
    refine le_trans ?_ this
    rw [← zpow_zero (2 : ℝ)]
    exact zpow_le_zpow_right₀ (by norm_num) (by norm_num))
  rw [wall_nan] at hn
  simp at hn

/-- **C181** (partial) For a wall that is not tiny, the computed distance is the distance to the nearest
point of the wall minus the radius, up to a few rounding errors of the distances to the ends: the wall
has a point not farther than `h + r` plus the error, and no point is nearer than `h + r` minus the
error. Missing: the normal, which can be NaN, and the sign near zero. -/
theorem C181_distance_partial (A : Arith) (hr : A.rnd = fl64) (H : AccurateHypot A.hypot) (x : Vec)
    (r : ℝ) (p0 p1 : Vec) (hr0 : 0 ≤ r) (hL : (2 : ℝ) ^ (-500 : ℤ) ≤ Spec.dist p1 p0) :
    ∃ h n, distanceCircleLineF A x r p0 p1 = some (h, n) ∧
      (∃ q ∈ segment ℝ p0 p1, Spec.dist x q ≤ h + r +
        (2 ^ (-46 : ℤ) * (Spec.dist x p0 + Spec.dist x p1 + r) + 2 ^ (-1070 : ℤ))) ∧
      ∀ q ∈ segment ℝ p0 p1, h + r ≤ Spec.dist x q +
        (2 ^ (-46 : ℤ) * (Spec.dist x p0 + Spec.dist x p1 + r) + 2 ^ (-1070 : ℤ)) := by
  obtain ⟨h, n, e, ⟨q, hq, h1⟩, h2⟩ := wall_err hr H x r p0 p1 hr0 hL
  have hu : 76 * (length (x - p0) + length (x - p1) + r) * uu + 31 * eta ≤
      2 ^ (-46 : ℤ) * (length (x - p0) + length (x - p1) + r) + 2 ^ (-1070 : ℤ) := by
    have := length_nonneg (x - p0)
    have := length_nonneg (x - p1)
    exact units_le (by positivity) (by norm_num) (by norm_num)
  exact ⟨h, n, e, ⟨q, hq, h1.trans (add_le_add le_rfl hu)⟩,
    fun q' hq' => (h2 q' hq').trans (add_le_add le_rfl hu)⟩

/-- **C181** An agent that passes the test of overlap with walls reaches over each wall that is not tiny
by a few rounding errors at most. -/
theorem C181_placed (A : Arith) (hr : A.rnd = fl64) (H : AccurateHypot A.hypot) (a : Agent)
    (walls : List Wall) (hr0 : 0 ≤ a.radius) (h : overlappingCircleLineF A a walls = false) :
    ∀ w ∈ walls, 2 ^ (-500 : ℤ) ≤ Spec.dist w.p1 w.p0 → ∀ q ∈ segment ℝ w.p0 w.p1,
      a.radius ≤ Spec.dist a.position q +
        (2 ^ (-46 : ℤ) * (Spec.dist a.position w.p0 + Spec.dist a.position w.p1 + a.radius) +
          2 ^ (-1070 : ℤ)) := by
  induction walls with
  | nil => simp
  | cons b rest ih =>
    unfold overlappingCircleLineF at h
    intro w hw hL q hq
    rcases List.mem_cons.1 hw with rfl | hw
    · obtain ⟨h', n, e, -, h2⟩ := C181_distance_partial A hr H a.position a.radius w.p0 w.p1 hr0 hL
      rw [e] at h
      simp only at h
      split_ifs at h with hb
      push Not at hb
      exact le_trans (by linarith) (h2 q hq)
    · refine ih ?_ w hw hL q hq
      split at h
      · split_ifs at h
        exact h
      · exact h

/-- **C181** An agent that fails the test of overlap with walls touches a wall, or nearly does, or a wall
is tiny. -/
theorem C181_refused (A : Arith) (hr : A.rnd = fl64) (H : AccurateHypot A.hypot) (a : Agent)
    (walls : List Wall) (hr0 : 0 ≤ a.radius) (h : overlappingCircleLineF A a walls = true) :
    ∃ w ∈ walls, Spec.dist w.p1 w.p0 < 2 ^ (-500 : ℤ) ∨ ∃ q ∈ segment ℝ w.p0 w.p1,
      Spec.dist a.position q ≤ a.radius +
        (2 ^ (-46 : ℤ) * (Spec.dist a.position w.p0 + Spec.dist a.position w.p1 + a.radius) +
          2 ^ (-1070 : ℤ)) := by
  induction walls with
  | nil => simp [overlappingCircleLineF] at h
  | cons b rest ih =>
    unfold overlappingCircleLineF at h
    rcases lt_or_ge (Spec.dist b.p1 b.p0) (2 ^ (-500 : ℤ)) with hL | hL
    · exact ⟨b, by simp, Or.inl hL⟩
    · obtain ⟨h', n, e, ⟨q, hq, h1⟩, -⟩ :=
        C181_distance_partial A hr H a.position a.radius b.p0 b.p1 hr0 hL
      rw [e] at h
      simp only at h
      split_ifs at h with hb
      · exact ⟨b, by simp, Or.inr ⟨q, hq, h1.trans (add_le_add (by linarith) le_rfl)⟩⟩
      · obtain ⟨w, hw, h2⟩ := ih h
        exact ⟨w, List.mem_cons_of_mem _ hw, h2⟩

/-- **C181** Without rounding, the function is that of the exact model; no normal is NaN then. -/
theorem C181_exact (x : Vec) (r : ℝ) (p0 p1 : Vec) :
    distanceCircleLineF Arith.exact x r p0 p1 =
      (distanceCircleLine x r p0 p1).map fun hn => (hn.1, some hn.2) :=
  wall_exact x r p0 p1

/-- The wall from the origin to `(2, 3)` is not tiny, and there is an agent of radius 1. -/
example : ∃ (A : Arith) (a : Agent) (w : Wall), A.rnd = fl64 ∧ AccurateHypot A.hypot ∧ 0 ≤ a.radius ∧
    2 ^ (-500 : ℤ) ≤ Spec.dist w.p1 w.p0 ∧ overlappingCircleLineF A a [w] = true := by
  refine ⟨Arith.machine, { Agent.zero with
    position := (0, 0)
    radius := 1 }, ⟨(0, 0), (2, 3)⟩, rfl, accurate_machine, by norm_num, ?_, ?_⟩
  · have : (1 : ℝ) ≤ Spec.dist (2, 3) (0, 0) := by
      unfold Spec.dist Spec.len
      rw [Real.one_le_sqrt]; norm_num
    refine le_trans ?_ this
    rw [← zpow_zero (2 : ℝ)]
    exact zpow_le_zpow_right₀ (by norm_num) (by norm_num)
  · unfold overlappingCircleLineF
    simp only
    rw [wall_nan]
    norm_num

end CrowdDynamics
