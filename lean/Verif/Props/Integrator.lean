import Verif.Proofs.Integrator
import Verif.Spec.Placement

/-!
# Properties C19-C23: time step and integrators
-/

namespace CrowdDynamics

open Classical Spec

/-! ## C19: the adaptive time step -/

/-- **C19** The time step lies in `[dt_min, dt_max]`. -/
theorem C19_timestep_bounds {n : ℕ} (agents : Crowd n) (dtMin dtMax : ℝ) (h : dtMin ≤ dtMax) :
    dtMin ≤ adaptiveTimestep agents dtMin dtMax ∧ adaptiveTimestep agents dtMin dtMax ≤ dtMax := by
  rcases adaptiveTimestep_cases agents dtMin dtMax with ⟨-, e⟩ | ⟨T, V, -, -, -, e⟩
  · rw [e]; exact ⟨h, le_rfl⟩
  · rw [e]
    split
    · exact ⟨h, le_rfl⟩
    · split
      · exact ⟨le_rfl, h⟩
      · constructor <;> linarith

example := C19_timestep_bounds (fun i : Fin 2 => { Agent.default with velocity := (i, 1) }) 0.01 0.1
  (by norm_num)

/-- **C19** If nobody moves (in particular if there is nobody) the step is `dt_max`. -/
theorem C19_timestep_rest {n : ℕ} (agents : Crowd n) (dtMin dtMax : ℝ)
    (h : ∀ i, (agents i).velocity = 0) : adaptiveTimestep agents dtMin dtMax = dtMax := by
  have := (vMaxLoop_eq_zero agents).2 h
  unfold adaptiveTimestep
  simp [this]

example := C19_timestep_rest (fun i : Fin 2 => { Agent.default with position := (i, 1) }) 0.01 0.1
  (fun _ => rfl)

/-- **C19** If somebody moves, the step is `1.1 * T * dt_max / V` clamped to the interval,
where `T` is the largest target speed and `V` the largest speed. -/
theorem C19_timestep_value {n : ℕ} (agents : Crowd n) (dtMin dtMax : ℝ) (T V : ℝ)
    (hT : IsMaxOf T fun i => (agents i).targetVelocity)
    (hV : IsMaxOf V fun i => Spec.len (agents i).velocity) (hpos : 0 < V) (hle : dtMin ≤ dtMax) :
    adaptiveTimestep agents dtMin dtMax = max dtMin (min (1.1 * T * dtMax / V) dtMax) := by
  rcases adaptiveTimestep_cases agents dtMin dtMax with ⟨h0, -⟩ | ⟨T', V', hT', hV', -, e⟩
  · rw [vMaxLoop_eq_zero] at h0
    obtain ⟨⟨i, hi⟩, -⟩ := hV
    simp only [h0 i] at hi
    rw [show Spec.len (0 : Vec) = 0 from length_eq_zero.2 rfl] at hi
    linarith
  · rw [e, isMaxOf_unique hT' hT, isMaxOf_unique hV' hV]
    split
    · rename_i h; rw [min_eq_right h.le, max_eq_right hle]
    · rename_i h
      rw [min_eq_left (not_lt.1 h)]
      split
      · rename_i h2; rw [max_eq_left h2.le]
      · rename_i h2; rw [max_eq_right (not_lt.1 h2)]

/-- **C19** Unless the lower bound applies, nobody moves further in one step than 1.1 times
the largest target speed times `dt_max`. -/
theorem C19_step_length {n : ℕ} (agents : Crowd n) (dtMin dtMax T : ℝ) (hmax : 0 ≤ dtMax)
    (hT : IsMaxOf T fun i => (agents i).targetVelocity) (hT0 : 0 ≤ T)
    (hdt : adaptiveTimestep agents dtMin dtMax ≠ dtMin) (i : Fin n) :
    Spec.len (agents i).velocity * adaptiveTimestep agents dtMin dtMax ≤ 1.1 * T * dtMax := by
  rcases adaptiveTimestep_cases agents dtMin dtMax with ⟨h0, e⟩ | ⟨T', V, hT', hV, hpos, e⟩
  · rw [vMaxLoop_eq_zero] at h0
    rw [h0 i, show Spec.len (0 : Vec) = 0 from length_eq_zero.2 rfl, zero_mul]
    positivity
  · rw [isMaxOf_unique hT' hT] at e
    have hvi : Spec.len (agents i).velocity ≤ V := hV.2 i
    have hv0 : 0 ≤ Spec.len (agents i).velocity := length_nonneg _
    have hdx : V * (1.1 * T * dtMax / V) = 1.1 * T * dtMax := by field_simp
    rw [e] at hdt ⊢
    split
    · rename_i h
      calc Spec.len (agents i).velocity * dtMax ≤ V * dtMax := by gcongr
        _ ≤ V * (1.1 * T * dtMax / V) := by gcongr
        _ = _ := hdx
    · rename_i h
      rw [if_neg h] at hdt
      split
      · rename_i h2; rw [if_pos h2] at hdt; exact absurd rfl hdt
      · have : 0 ≤ 1.1 * T * dtMax / V := by positivity
        calc Spec.len (agents i).velocity * (1.1 * T * dtMax / V)
            ≤ V * (1.1 * T * dtMax / V) := by gcongr
          _ = _ := hdx

/-- **C19** The step does not depend on the order of the agents. -/
theorem C19_timestep_perm {n : ℕ} (agents : Crowd n) (σ : Equiv.Perm (Fin n))
    (dtMin dtMax : ℝ) :
    adaptiveTimestep (fun i => agents (σ i)) dtMin dtMax = adaptiveTimestep agents dtMin dtMax := by
  have hperm : ∀ (m : ℝ) (f : Fin n → ℝ), IsMaxOf m (fun i => f (σ i)) → IsMaxOf m f := by
    rintro m f ⟨⟨i, hi⟩, h⟩
    refine ⟨⟨σ i, hi⟩, fun j => ?_⟩
    have := h (σ.symm j)
    simpa using this
  rcases adaptiveTimestep_cases (fun i => agents (σ i)) dtMin dtMax with
    ⟨h0, e⟩ | ⟨T, V, hT, hV, hpos, e⟩
  · rw [vMaxLoop_eq_zero] at h0
    rw [e, C19_timestep_rest agents]
    intro i
    simpa using h0 (σ.symm i)
  · have hT1 := hperm T (fun i => (agents i).targetVelocity) hT
    have hV1 := hperm V (fun i => Spec.len (agents i).velocity) hV
    rcases adaptiveTimestep_cases agents dtMin dtMax with ⟨h0, -⟩ | ⟨T', V', hT', hV', -, e'⟩
    · rw [vMaxLoop_eq_zero] at h0
      obtain ⟨⟨i, hi⟩, -⟩ := hV1
      simp only [h0 i] at hi
      rw [show Spec.len (0 : Vec) = 0 from length_eq_zero.2 rfl] at hi
      linarith
    · rw [e, e', isMaxOf_unique hT' hT1, isMaxOf_unique hV' hV1]

/-- A runner (speed 5) and a walker (speed 1), target speeds 2 and 1: the step lies strictly
between the bounds 0.01 and 1. -/
example : ∃ agents : Crowd 2, IsMaxOf 2 (fun i => (agents i).targetVelocity) ∧
    IsMaxOf 5 (fun i => Spec.len (agents i).velocity) ∧
    adaptiveTimestep agents 0.01 1 ≠ 0.01 := by
  have l5 : Spec.len (((3 : ℝ), (4 : ℝ)) : Vec) = 5 := by
    unfold Spec.len
    rw [Real.sqrt_eq_iff_mul_self_eq (by positivity) (by norm_num)]; norm_num
  have l1 : Spec.len (((1 : ℝ), (0 : ℝ)) : Vec) = 1 := by
    unfold Spec.len
    rw [Real.sqrt_eq_iff_mul_self_eq (by positivity) (by norm_num)]; norm_num
  set A : Crowd 2 := ![{ Agent.default with velocity := (3, 4), targetVelocity := 2 },
    { Agent.default with velocity := (1, 0), targetVelocity := 1 }] with hA
  have hT : IsMaxOf 2 (fun i => (A i).targetVelocity) := by
    refine ⟨⟨0, by simp [hA]⟩, fun i => ?_⟩
    fin_cases i <;> simp [hA]
  have hV : IsMaxOf 5 (fun i => Spec.len (A i).velocity) := by
    refine ⟨⟨0, by simp [hA, l5]⟩, fun i => ?_⟩
    fin_cases i <;> simp [hA, l5, l1]
  refine ⟨A, hT, hV, ?_⟩
  rw [C19_timestep_value A 0.01 1 2 5 hT hV (by norm_num) (by norm_num)]
  norm_num

/-! ## C20: Euler -/

/-- **C20** A sequence of Euler steps with constant force gives exactly the uniformly
accelerated motion at the total time, whatever the step sizes, and changes nothing but
position and velocity. -/
theorem C20_euler_exact {n : ℕ} (agents : Crowd n) (dts : List ℝ) (i : Fin n) (acc : Vec)
    (hacc : IsAcceleration (agents i).mass (agents i).force acc) (hm : (agents i).mass ≠ 0) :
    dts.foldl translationalEuler agents i =
      { agents i with
        position := ballisticPosition (agents i).position (agents i).velocity acc dts.sum
        velocity := ballisticVelocity (agents i).velocity acc dts.sum } := by
  have ha : (1 / (agents i).mass) • (agents i).force = acc := by
    rw [← hacc]
    ext <;> simp <;> field_simp
  induction dts generalizing agents with
  | nil =>
    simp only [List.foldl_nil, List.sum_nil, ballisticPosition, ballisticVelocity]
    simp
  | cons dt t ih =>
    rw [List.foldl_cons, ih (translationalEuler agents dt) hacc hm ha]
    unfold translationalEuler translationalEulerRow
    simp only [ha, ballisticPosition, ballisticVelocity, List.sum_cons]
    congr 1
    · ext <;> simp <;> ring
    · ext <;> simp <;> ring

example := C20_euler_exact (fun i : Fin 2 => { Agent.default with
    mass := 80, force := (160, -80), position := (i, 0) }) [0.1, 0.2] 1 (2, -1)
  (by unfold IsAcceleration; norm_num) (by norm_num)

/-- **C20** The same for the rotation, where the orientation is known up to multiples of
`2π` and always lies in `[-π, π]` after a step. -/
theorem C20_euler_rotation {n : ℕ} (agents : Crowd n) (dts : List ℝ) (i : Fin n) (α : ℝ)
    (hα : (agents i).inertiaRot * α = (agents i).torque) (hI : (agents i).inertiaRot ≠ 0) :
    (∃ k : ℤ, (dts.foldl rotationalEuler agents i).orientation =
      (agents i).orientation + (agents i).angularVelocity * dts.sum + α * dts.sum ^ 2 / 2 +
        k * (2 * Real.pi)) ∧
    (dts.foldl rotationalEuler agents i).angularVelocity =
      (agents i).angularVelocity + α * dts.sum ∧
    (dts ≠ [] → (dts.foldl rotationalEuler agents i).orientation ∈
      Set.Icc (-Real.pi) Real.pi) ∧
    (dts.foldl rotationalEuler agents i).position = (agents i).position := by
  have ha : (agents i).torque / (agents i).inertiaRot = α := by
    rw [← hα]; field_simp
  induction dts generalizing agents with
  | nil => exact ⟨⟨0, by simp⟩, by simp, by simp, rfl⟩
  | cons dt t ih =>
    rw [List.foldl_cons]
    obtain ⟨⟨k, h1⟩, h2, h3, h4⟩ := ih (rotationalEuler agents dt) hα hI ha
    refine ⟨?_, ?_, ?_, h4⟩
    · obtain ⟨k', hk'⟩ := wrapToPi_congr ((agents i).orientation +
        ((agents i).angularVelocity * dt + α / 2 * dt ^ 2))
      refine ⟨k + k', ?_⟩
      rw [h1]
      unfold rotationalEuler rotationalEulerRow
      simp only [ha]
      rw [hk', List.sum_cons]
      push_cast; ring
    · rw [h2]
      unfold rotationalEuler rotationalEulerRow
      simp only [ha, List.sum_cons]; ring
    · intro _
      cases t with
      | nil =>
        rw [List.foldl_nil]
        exact wrapToPi_mem _
      | cons a b => exact h3 (by simp)

example := C20_euler_rotation (fun _ : Fin 1 => { Agent.default with inertiaRot := 4, torque := 2 })
  [0.1, 0.2] 0 0.5 (by norm_num) (by norm_num)

/-- **C20** `euler_integrator` performs one such step with the step size it returns. -/
theorem C20_euler_integrator {n : ℕ} (agents : AgentArray n) (dtMin dtMax : ℝ) (i : Fin n)
    (acc : Vec)
    (hacc : IsAcceleration (agents.rows i).mass (agents.rows i).force acc)
    (hm : (agents.rows i).mass ≠ 0) (dt : ℝ) (hdt : dt = (eulerIntegrator agents dtMin dtMax).1)
    (b : Agent) (hb : b = (eulerIntegrator agents dtMin dtMax).2.rows i) :
    dt = adaptiveTimestep agents.rows dtMin dtMax ∧
    b.position = ballisticPosition (agents.rows i).position (agents.rows i).velocity acc dt ∧
    b.velocity = ballisticVelocity (agents.rows i).velocity acc dt ∧
    b.mass = (agents.rows i).mass ∧ b.radius = (agents.rows i).radius ∧
    b.target = (agents.rows i).target ∧ b.force = (agents.rows i).force ∧
    b.targetDirection = (agents.rows i).targetDirection := by
  subst hdt hb
  have h := C20_euler_exact agents.rows [adaptiveTimestep agents.rows dtMin dtMax] i acc hacc hm
  simp only [List.foldl_cons, List.foldl_nil, List.sum_singleton] at h
  unfold eulerIntegrator
  simp only
  by_cases hc : isThreeCircleConst agents
  · simp only [hc, if_true, shoulders, shouldersRow, rotationalEuler, rotationalEulerRow, h]
    simp
  · rw [if_neg hc, h]
    exact ⟨trivial, rfl, rfl, rfl, rfl, rfl, rfl, rfl⟩

example := C20_euler_integrator (n := 1) ⟨.fresh .threeCircle 3, fun _ => { Agent.default with
    mass := 80, force := (160, -80) }⟩ 0.01 0.1 0 (2, -1) (by unfold IsAcceleration; norm_num)
  (by norm_num) _ rfl _ rfl

example : IsAcceleration 80 (160, -80) (2, -1) := by
  unfold IsAcceleration; norm_num

example : (4 : ℝ) * 0.5 = 2 ∧ (4 : ℝ) ≠ 0 := by norm_num

/-! ## C21: velocity Verlet -/

/-- **C21** is false: one Verlet step of a resting agent with constant acceleration `(1, 0)`
and `dt = 1` moves it by 3/2 instead of 1/2. -/
theorem C21_verlet_exact_fails :
    ¬ ∀ (n : ℕ) (agents : Crowd n) (dts : List ℝ) (i : Fin n) (acc : Vec),
      IsAcceleration (agents i).mass (agents i).force acc → 0 < (agents i).mass →
      (agents i).forcePrev = (agents i).force →
      (dts.foldl translationalVerlet agents i).position =
        ballisticPosition (agents i).position (agents i).velocity acc dts.sum := by
  intro h
  have := h 1 (fun _ => { Agent.zero with mass := 1, force := (1, 0), forcePrev := (1, 0) })
    [1] 0 (1, 0) (by simp [IsAcceleration]) (by norm_num) rfl
  have h1 := congrArg Prod.fst this
  simp [translationalVerlet, translationalVerletRow, ballisticPosition, Agent.zero] at h1

/-- **C21** (partial) With constant force the velocity is exact; the position is ahead of the
exact one by exactly `acc * Σ dtₖ²` (an error of first order in the step size).
Missing: a correct position, which the code does not compute. -/
theorem C21_verlet_exact_partial {n : ℕ} (agents : Crowd n) (dts : List ℝ) (i : Fin n)
    (acc : Vec) (hacc : IsAcceleration (agents i).mass (agents i).force acc)
    (hm : (agents i).mass ≠ 0) (hprev : (agents i).forcePrev = (agents i).force) :
    dts.foldl translationalVerlet agents i =
      { agents i with
        velocity := ballisticVelocity (agents i).velocity acc dts.sum
        position := ballisticPosition (agents i).position (agents i).velocity acc dts.sum +
          (dts.map fun dt => dt ^ 2).sum • acc } := by
  have ha : (1 / (agents i).mass) • (agents i).force = acc := by
    rw [← hacc]
    ext <;> simp <;> field_simp
  induction dts generalizing agents with
  | nil =>
    simp only [List.foldl_nil, List.sum_nil, ballisticPosition, ballisticVelocity, List.map_nil]
    simp
  | cons dt t ih =>
    rw [List.foldl_cons, ih (translationalVerlet agents dt) hacc hm rfl ha]
    unfold translationalVerlet translationalVerletRow
    simp only [hprev, ha, ballisticPosition, ballisticVelocity, List.sum_cons, List.map_cons]
    congr 1
    · ext <;> simp <;> ring
    · ext <;> simp <;> ring

example := C21_verlet_exact_partial (fun i : Fin 2 => { Agent.default with
    mass := 80, force := (160, -80), forcePrev := (160, -80), position := (i, 0) }) [0.1, 0.2] 1
  (2, -1) (by unfold IsAcceleration; norm_num) (by norm_num) rfl

/-- **C21** (partial) For equal steps the position error after `n` steps is `n * dt² * acc`;
it vanishes as the step size tends to zero for a fixed total time `t = n * dt`
(it equals `t * dt * acc`). -/
theorem C21_verlet_error_partial {n : ℕ} (agents : Crowd n) (steps : ℕ) (dt : ℝ) (i : Fin n)
    (acc : Vec) (hacc : IsAcceleration (agents i).mass (agents i).force acc)
    (hm : (agents i).mass ≠ 0) (hprev : (agents i).forcePrev = (agents i).force) :
    ((List.replicate steps dt).foldl translationalVerlet agents i).position -
      ballisticPosition (agents i).position (agents i).velocity acc (steps * dt) =
      (steps * dt * dt) • acc := by
  rw [C21_verlet_exact_partial agents _ i acc hacc hm hprev]
  simp only [List.sum_replicate, List.map_replicate, nsmul_eq_mul]
  rw [add_sub_cancel_left]
  congr 1; ring

example := C21_verlet_error_partial (fun i : Fin 2 => { Agent.default with
    mass := 80, force := (160, -80), forcePrev := (160, -80), position := (i, 0) }) 100 0.01 1
  (2, -1) (by unfold IsAcceleration; norm_num) (by norm_num) rfl

/-- **C21** (partial) One step with changing forces: the velocity uses the mean of the old and
new acceleration, as documented. -/
theorem C21_verlet_velocity_partial {n : ℕ} (agents : Crowd n) (dt : ℝ) (i : Fin n)
    (a0 a1 : Vec) (h0 : IsAcceleration (agents i).mass (agents i).forcePrev a0)
    (h1 : IsAcceleration (agents i).mass (agents i).force a1) (hm : (agents i).mass ≠ 0) :
    (translationalVerlet agents dt i).velocity =
      ballisticVelocity (ballisticVelocity (agents i).velocity a0 (dt / 2)) a1 (dt / 2) ∧
    (translationalVerlet agents dt i).forcePrev = (agents i).force := by
  refine ⟨?_, rfl⟩
  unfold translationalVerlet translationalVerletRow ballisticVelocity
  simp only
  rw [← h0, ← h1]
  ext <;> simp <;> field_simp <;> ring

example := C21_verlet_velocity_partial (fun i : Fin 2 => { Agent.default with
    mass := 80, force := (160, -80), forcePrev := (80, 0), position := (i, 0) }) 0.01 1 (1, 0)
  (2, -1) (by unfold IsAcceleration; norm_num) (by unfold IsAcceleration; norm_num) (by norm_num)

/-! ## C22: orientation and shoulders -/

/-- **C22** After every Verlet step the orientation lies in `[-π, π]` and the shoulders are
attached: their midpoint is the position, both are at distance `r_ts`, and the axis is
perpendicular to the heading. This holds for every previous state, hence after every
history. -/
theorem C22_verlet_shoulders {n : ℕ} (agents : AgentArray n) (dtMin dtMax : ℝ)
    (hk : agents.dtype.kind = .threeCircle) (i : Fin n) (b : Agent)
    (hb : b = (velocityVerletIntegrator agents dtMin dtMax).2.rows i) (hr : 0 ≤ b.rTs) :
    b.orientation ∈ Set.Icc (-Real.pi) Real.pi ∧ ShouldersAttached b ∧
      (1 / 2 : ℝ) • (b.positionLs + b.positionRs) = b.position ∧
      Spec.dist b.position b.positionLs = b.rTs ∧ Spec.dist b.position b.positionRs = b.rTs ∧
      Spec.inner (b.positionLs - b.positionRs)
        (Real.cos b.orientation, Real.sin b.orientation) = 0 ∧
      b.rTs = (agents.rows i).rTs := by
  have hm : isModel agents .threeCircle = true := by simp [isModel, hk]
  have hatt : ShouldersAttached b ∧ b.orientation ∈ Set.Icc (-Real.pi) Real.pi ∧
      b.rTs = (agents.rows i).rTs := by
    rw [hb]
    unfold velocityVerletIntegrator
    simp only [hm, if_true]
    refine ⟨?_, wrapToPi_mem _, rfl⟩
    unfold shoulders shouldersRow ShouldersAttached rotate270 unitVector
    constructor <;> ext <;> simp [sub_eq_add_neg]
  obtain ⟨h, ho, hrts⟩ := hatt
  have hsc := Real.sin_sq_add_cos_sq b.orientation
  refine ⟨ho, h, ?_, ?_, ?_, ?_, hrts⟩
  · rw [h.1, h.2]; ext <;> simp <;> ring
  · rw [h.1]; unfold Spec.dist Spec.len
    rw [Real.sqrt_eq_iff_mul_self_eq (by positivity) hr]
    simp only [Prod.fst_sub, Prod.snd_sub]
    linear_combination b.rTs ^ 2 * hsc
  · rw [h.2]; unfold Spec.dist Spec.len
    rw [Real.sqrt_eq_iff_mul_self_eq (by positivity) hr]
    simp only [Prod.fst_sub, Prod.snd_sub]
    linear_combination b.rTs ^ 2 * hsc
  · rw [h.1, h.2]; unfold Spec.inner
    simp only [Prod.fst_sub, Prod.snd_sub]; ring

example := C22_verlet_shoulders (n := 1) ⟨.fresh .threeCircle 3, fun _ => { Agent.default with
    rTs := 0.17, inertiaRot := 4, torque := 2 }⟩ 0.01 0.1 rfl 0 _ rfl (by
  change (0 : ℝ) ≤ 0.17
  norm_num)

/-- **C22** The same after the initialising step. -/
theorem C22_verlet_init_shoulders {n : ℕ} (agents : AgentArray n) (dtMin dtMax : ℝ)
    (hk : agents.dtype.kind = .threeCircle) (i : Fin n) (b : Agent)
    (hb : b = (velocityVerletIntegratorInit agents dtMin dtMax).2.rows i) :
    b.orientation ∈ Set.Icc (-Real.pi) Real.pi ∧ ShouldersAttached b ∧
      b.forcePrev = b.force ∧ b.torquePrev = b.torque := by
  have hm : isModel agents .threeCircle = true := by simp [isModel, hk]
  rw [hb]
  unfold velocityVerletIntegratorInit
  simp only [hm, if_true]
  refine ⟨wrapToPi_mem _, ?_, rfl, rfl⟩
  unfold shoulders shouldersRow ShouldersAttached rotate270 unitVector
  constructor <;> ext <;> simp [sub_eq_add_neg]

example := C22_verlet_init_shoulders (n := 1) ⟨.fresh .threeCircle 3, fun _ => { Agent.default with
    rTs := 0.17, inertiaRot := 4, torque := 2 }⟩ 0.01 0.1 rfl 0 _ rfl

example : (⟨.fresh .threeCircle 3, fun _ : Fin 2 => { Agent.default with rTs := 0.17 }⟩ :
    AgentArray 2).dtype.kind = .threeCircle := rfl

/-! ## C23: both integrators rotate -/

/-- What an array created through `Agents` looks like: its dtype comes from a call of
`dtype()`, it is not the module level constant. -/
def CreatedByAgents {n : ℕ} (agents : AgentArray n) (kind : Kind) : Prop :=
  ∃ id, agents.dtype = .fresh kind id

/-- **C23** is false: `euler_integrator` does not rotate three-circle agents created through
`Agents` (the dtype is compared with `is`). -/
theorem C23_euler_rotates_fails :
    ¬ ∀ (n : ℕ) (agents : AgentArray n) (dt : ℝ) (i : Fin n),
      CreatedByAgents agents .threeCircle → 0 < (agents.rows i).inertiaRot →
      ∃ k : ℤ, ((eulerIntegrator agents dt dt).2.rows i).orientation =
        (agents.rows i).orientation + (agents.rows i).angularVelocity * dt +
        (agents.rows i).torque / (agents.rows i).inertiaRot / 2 * dt ^ 2 +
          k * (2 * Real.pi) := by
  intro h
  set A : AgentArray 1 := ⟨.fresh .threeCircle 0,
    fun _ => { Agent.zero with inertiaRot := 1, angularVelocity := 1, mass := 1 }⟩ with hA
  obtain ⟨k, h1⟩ := h 1 A 1 0 ⟨0, rfl⟩ (by simp [hA])
  unfold eulerIntegrator at h1
  simp [isThreeCircleConst, hA, translationalEuler, translationalEulerRow, Agent.zero] at h1
  have hp := Real.two_le_pi
  rcases le_or_gt 0 k with hk | hk
  · have : (0 : ℝ) ≤ k := by exact_mod_cast hk
    nlinarith
  · have : (k : ℝ) ≤ -1 := by exact_mod_cast Int.le_sub_one_of_lt hk
    nlinarith

/-- **C23** (partial) The Euler integrator never rotates such agents: orientation, angular
velocity and shoulder positions stay as they were, while the body moves. -/
theorem C23_euler_frozen_partial {n : ℕ} (agents : AgentArray n) (dtMin dtMax : ℝ)
    (hc : CreatedByAgents agents .threeCircle) (i : Fin n) (b : Agent)
    (hb : b = (eulerIntegrator agents dtMin dtMax).2.rows i) :
    b.orientation = (agents.rows i).orientation ∧
      b.angularVelocity = (agents.rows i).angularVelocity ∧
      b.positionLs = (agents.rows i).positionLs ∧ b.positionRs = (agents.rows i).positionRs := by
  obtain ⟨id, hid⟩ := hc
  subst hb
  unfold eulerIntegrator
  have : isThreeCircleConst agents = false := by simp [isThreeCircleConst, hid]
  simp only [this]
  exact ⟨rfl, rfl, rfl, rfl⟩

example := C23_euler_frozen_partial (n := 1) ⟨.fresh .threeCircle 3, fun _ => { Agent.default with
    inertiaRot := 4, torque := 2 }⟩ 0.01 0.1 ⟨3, rfl⟩ 0 _ rfl

/-- **C23** (partial) The Verlet integrator advances the rotation of every three-circle array,
and the Euler integrator that of arrays built on the module constant. Missing: Euler on
arrays created through `Agents`. -/
theorem C23_rotates_partial {n : ℕ} (agents : AgentArray n) (dtMin dtMax : ℝ) (i : Fin n) :
    (agents.dtype.kind = .threeCircle →
      (∃ k : ℤ, ((velocityVerletIntegrator agents dtMin dtMax).2.rows i).orientation =
        (agents.rows i).orientation +
        ((velocityVerletIntegrator agents dtMin dtMax).2.rows i).angularVelocity *
          (velocityVerletIntegrator agents dtMin dtMax).1 +
        (agents.rows i).torque / (agents.rows i).inertiaRot / 2 *
          (velocityVerletIntegrator agents dtMin dtMax).1 ^ 2 + k * (2 * Real.pi)) ∧
      ((velocityVerletIntegrator agents dtMin dtMax).2.rows i).angularVelocity =
        (agents.rows i).angularVelocity +
        ((agents.rows i).torquePrev / (agents.rows i).inertiaRot +
          (agents.rows i).torque / (agents.rows i).inertiaRot) / 2 *
          (velocityVerletIntegrator agents dtMin dtMax).1) ∧
    (agents.dtype = .const .threeCircle →
      ∃ k : ℤ, ((eulerIntegrator agents dtMin dtMax).2.rows i).orientation =
        (agents.rows i).orientation +
        (agents.rows i).angularVelocity * (eulerIntegrator agents dtMin dtMax).1 +
        (agents.rows i).torque / (agents.rows i).inertiaRot / 2 *
          (eulerIntegrator agents dtMin dtMax).1 ^ 2 + k * (2 * Real.pi)) := by
  constructor
  · intro hk
    have hm : isModel agents .threeCircle = true := by simp [isModel, hk]
    unfold velocityVerletIntegrator
    simp only [hm, if_true]
    refine ⟨?_, rfl⟩
    obtain ⟨k, hk⟩ := wrapToPi_congr (rotationalVerletRow
      (adaptiveTimestep agents.rows dtMin dtMax) (agents.rows i)).orientation
    obtain ⟨k, hk⟩ := wrapToPi_congr ((agents.rows i).orientation +
      (((agents.rows i).angularVelocity +
        ((agents.rows i).torquePrev / (agents.rows i).inertiaRot +
          (agents.rows i).torque / (agents.rows i).inertiaRot) / 2 *
          adaptiveTimestep agents.rows dtMin dtMax) * adaptiveTimestep agents.rows dtMin dtMax +
        (agents.rows i).torque / (agents.rows i).inertiaRot / 2 *
          adaptiveTimestep agents.rows dtMin dtMax ^ 2))
    refine ⟨k, ?_⟩
    unfold shoulders shouldersRow rotationalVerlet rotationalVerletRow translationalVerlet
      translationalVerletRow
    simp only
    rw [hk]; ring
  · intro hk
    have hm : isThreeCircleConst agents = true := by simp [isThreeCircleConst, hk]
    unfold eulerIntegrator
    simp only [hm, if_true]
    obtain ⟨k, hk⟩ := wrapToPi_congr ((agents.rows i).orientation +
      ((agents.rows i).angularVelocity * adaptiveTimestep agents.rows dtMin dtMax +
        (agents.rows i).torque / (agents.rows i).inertiaRot / 2 *
          adaptiveTimestep agents.rows dtMin dtMax ^ 2))
    refine ⟨k, ?_⟩
    unfold shoulders shouldersRow rotationalEuler rotationalEulerRow translationalEuler
      translationalEulerRow
    simp only
    rw [hk]; ring

example : CreatedByAgents (⟨.fresh .threeCircle 3, fun _ : Fin 2 => Agent.default⟩ :
    AgentArray 2) .threeCircle := ⟨3, rfl⟩

end CrowdDynamics
