import Verif.Proofs.IeeeMotionCases
import Verif.Proofs.IeeeContactCases

/-!
# C204: what the integrators do with NaN
-/

namespace CrowdDynamics

open Spec Real

/-- **C204**: whatever the velocities are (large, infinite or NaN), the adaptive time step is a
number between `dt_min` and `dt_max`, and no exception is raised. -/
theorem C204_timestep {n : ℕ} {A : Arith} (hr : A.rnd = fl64) (rows : Fin n → RowI)
    {dtMin dtMax : ℝ} (h0 : 0 ≤ dtMin) (h1 : dtMin ≤ dtMax) (h2 : dtMax ≤ 2 ^ (10 : ℤ))
    (ht : ∀ i, |(rows i).targetVelocity| ≤ 2 ^ (10 : ℤ)) :
    ∃ dt, adaptiveTimestepI A rows dtMin dtMax = .ok (.num dt) ∧ dtMin ≤ dt ∧ dt ≤ dtMax :=
  adaptiveTimestepI_num hr rows h0 h1 h2 ht

/-- **C204**: an agent with finite attributes of at most `2 ^ 400` has a finite position and a
finite velocity after an update with either integrator, whatever the other agents are. -/
theorem C204_finite {n : ℕ} {A : Arith} (hr : A.rnd = fl64) (rows : Fin n → RowI)
    {dtMin dtMax : ℝ} (h0 : 0 ≤ dtMin) (h1 : dtMin ≤ dtMax) (h2 : dtMax ≤ 2 ^ (10 : ℤ))
    (ht : ∀ i, |(rows i).targetVelocity| ≤ 2 ^ (10 : ℤ)) :
    (∃ dt rows', eulerIntegratorI A dtMin dtMax rows = .ok (dt, rows') ∧
      ∀ i, FiniteRow (rows i) →
        FiniteVec 900 (rows' i).position ∧ FiniteVec 900 (rows' i).velocity) ∧
    ∃ dt rows', velocityVerletIntegratorI A dtMin dtMax rows = .ok (dt, rows') ∧
      ∀ i, FiniteRow (rows i) →
        FiniteVec 900 (rows' i).position ∧ FiniteVec 900 (rows' i).velocity := by
  obtain ⟨dt, e, l, u⟩ := adaptiveTimestepI_num hr rows h0 h1 h2 ht
  have hd : |dt| ≤ 2 ^ (10 : ℤ) := by
    rw [abs_of_nonneg (h0.trans l)]
    exact u.trans h2
  refine ⟨⟨_, _, euler_run e, fun i h => ?_⟩, ⟨_, _, verlet_run e, fun i h => ?_⟩⟩
  · rw [hr]
    exact euler_finite hd h
  · rw [hr]
    exact verlet_finite hd h

/-- **C204**: if all agents are finite, the integrators do what the rounded operations without
overflow do: same time step, same positions and velocities. -/
theorem C204_refines {n : ℕ} {A : Arith} (hr : A.rnd = fl64) (hh : AccurateHypot A.hypot)
    (agents : Crowd n) (h : ∀ i, FiniteRow (finiteRow (agents i))) {dtMin dtMax : ℝ}
    (h0 : 0 ≤ dtMin) (h1 : dtMin ≤ dtMax) (h2 : dtMax ≤ 2 ^ (10 : ℤ))
    (ht : ∀ i, |(agents i).targetVelocity| ≤ 2 ^ (10 : ℤ)) :
    ∃ dt, dt = adaptiveTimestepF A agents dtMin dtMax ∧
      eulerIntegratorI A dtMin dtMax (fun i => finiteRow (agents i)) =
        .ok (.num dt, fun i => finiteRow (translationalEulerRowF fl64 dt (agents i))) ∧
      velocityVerletIntegratorI A dtMin dtMax (fun i => finiteRow (agents i)) =
        .ok (.num dt, fun i => finiteRow (translationalVerletRowF fl64 dt (agents i))) := by
  obtain ⟨dt, e, l, u⟩ := adaptiveTimestepI_num hr (fun i => finiteRow (agents i)) h0 h1 h2 ht
  have hd : |dt| ≤ 2 ^ (10 : ℤ) := by
    rw [abs_of_nonneg (h0.trans l)]
    exact u.trans h2
  have e' := adaptiveTimestepI_refines hr hh agents h h0 h1 h2 ht
  rw [e] at e'
  injection e' with e'
  injection e' with e'
  refine ⟨dt, e', ?_, ?_⟩
  · rw [euler_run e, hr]
    simp only [euler_refines hd (h _)]
  · rw [verlet_run e, hr]
    simp only [verlet_refines hd (h _)]

/-- **C204**: if a coordinate of the force of an agent is NaN at one update, then after this update
and after any further updates, with any forces and either integrator, that coordinate of the
position and of the velocity of the agent is NaN. No update raises an exception. -/
theorem C204_lost {n : ℕ} {A : Arith} (hr : A.rnd = fl64) {dtMin dtMax : ℝ} (h0 : 0 ≤ dtMin)
    (h1 : dtMin ≤ dtMax) (h2 : dtMax ≤ 2 ^ (10 : ℤ)) (i : Fin n) (b : Bool) (verlet : Bool)
    (force : Fin n → F64 × F64) (steps : List (Bool × (Fin n → F64 × F64))) (rows : Fin n → RowI)
    (ht : ∀ j, |(rows j).targetVelocity| ≤ 2 ^ (10 : ℤ)) (h : axisOf b (force i) = .nan) :
    ∃ rows', updates A dtMin dtMax ((verlet, force) :: steps) rows = .ok rows' ∧
      Lost b (rows' i) :=
  updates_nan hr h0 h1 h2 i b verlet force steps rows ht h

/-- **C204**: an agent whose speed is NaN counts as an agent at rest: if its velocity is replaced by
zero, the time step and the results for all other agents are the same. -/
theorem C204_others {n : ℕ} {A : Arith} (hr : A.rnd = fl64) (hh : AccurateHypot A.hypot)
    (rows : Fin n → RowI) {dtMin dtMax : ℝ} (h0 : 0 ≤ dtMin) (h1 : dtMin ≤ dtMax)
    (h2 : dtMax ≤ 2 ^ (10 : ℤ)) (ht : ∀ i, |(rows i).targetVelocity| ≤ 2 ^ (10 : ℤ)) (k : Fin n)
    (h : (rows k).velocity.1.hypot A (rows k).velocity.2 = .nan) :
    ∃ rest, rest = Function.update rows k { rows k with velocity := (.num 0, .num 0) } ∧
      (∃ dt R R', eulerIntegratorI A dtMin dtMax rows = .ok (dt, R) ∧
        eulerIntegratorI A dtMin dtMax rest = .ok (dt, R') ∧ ∀ j, j ≠ k → R j = R' j) ∧
      ∃ dt R R', velocityVerletIntegratorI A dtMin dtMax rows = .ok (dt, R) ∧
        velocityVerletIntegratorI A dtMin dtMax rest = .ok (dt, R') ∧ ∀ j, j ≠ k → R j = R' j := by
  obtain ⟨dt, e, -, -⟩ := adaptiveTimestepI_num hr rows h0 h1 h2 ht
  have e' := e
  rw [adaptiveTimestepI_ignores A rows k h hh.zero] at e'
  refine ⟨_, rfl, ⟨_, _, _, euler_run e, euler_run e', fun j hj => ?_⟩,
    ⟨_, _, _, verlet_run e, verlet_run e', fun j hj => ?_⟩⟩
  · rw [Function.update_of_ne hj]
  · rw [Function.update_of_ne hj]

/-- The hypotheses of `C204_timestep` and `C204_finite` hold for an ordinary agent beside one with
NaN, and the ordinary one stays finite. -/
example : ∃ dt rows', eulerIntegratorI Arith.machine (1 / 1000) (1 / 100)
    ![walkingRow, brokenRow] = .ok (dt, rows') ∧ FiniteVec 900 (rows' 0).position := by
  obtain ⟨⟨dt, rows', e, h⟩, -⟩ := C204_finite (A := Arith.machine) rfl ![walkingRow, brokenRow]
    (dtMin := 1 / 1000) (dtMax := 1 / 100) (by norm_num) (by norm_num) (by norm_num) rows_target
  exact ⟨dt, rows', e, (h 0 walkingRow_finite).1⟩

example : ∃ dt, adaptiveTimestepI Arith.machine ![walkingRow, brokenRow] (1 / 1000) (1 / 100) =
    .ok (.num dt) ∧ (1 / 1000 : ℝ) ≤ dt ∧ dt ≤ 1 / 100 :=
  C204_timestep rfl ![walkingRow, brokenRow] (by norm_num) (by norm_num) (by norm_num) rows_target

/-- The hypotheses of `C204_refines` hold for two agents that walk. -/
example : ∃ dt, eulerIntegratorI Arith.machine (1 / 1000) (1 / 100)
    (fun _ : Fin 2 => finiteRow walkingAgent) =
      .ok (.num dt, fun _ => finiteRow (translationalEulerRowF fl64 dt walkingAgent)) := by
  obtain ⟨dt, -, h, -⟩ := C204_refines (A := Arith.machine) rfl accurate_machine
    (fun _ : Fin 2 => walkingAgent) (fun _ => walkingRow_finite) (dtMin := 1 / 1000)
    (dtMax := 1 / 100) (by norm_num) (by norm_num) (by norm_num) (fun _ => rows_target 0)
  exact ⟨dt, h⟩

/-- The hypothesis of `C204_others` holds for the second of these agents. -/
example : ∃ dt R R', eulerIntegratorI Arith.machine (1 / 1000) (1 / 100)
      ![walkingRow, brokenRow] = .ok (dt, R) ∧
    eulerIntegratorI Arith.machine (1 / 1000) (1 / 100)
      (Function.update ![walkingRow, brokenRow] 1
        { brokenRow with velocity := (.num 0, .num 0) }) = .ok (dt, R') ∧ R 0 = R' 0 := by
  obtain ⟨_, rfl, ⟨dt, R, R', h1, h2, h3⟩, -⟩ := C204_others (A := Arith.machine) rfl
    accurate_machine ![walkingRow, brokenRow]
    (dtMin := 1 / 1000) (dtMax := 1 / 100) (by norm_num) (by norm_num) (by norm_num) rows_target 1
    rfl
  exact ⟨dt, R, R', h1, h2, h3 0 (by decide)⟩

/-- The hypothesis of `C204_lost` holds for the agent of C203 whose centre is the end of a wall: the
force that the wall gives it makes its position NaN for ever. -/
example (steps : List (Bool × (Fin 1 → F64 × F64))) : ∃ rows',
    updates Arith.machine (1 / 1000) (1 / 100) ((false,
      agentCircularObstacleI Arith.machine cornered [slantedWall] (fun _ => (.num 0, .num 0))) ::
        steps) (fun _ => walkingRow) = .ok rows' ∧ (rows' 0).position = (.nan, .nan) := by
  have key : ∀ b, _ := fun b => C204_lost (A := Arith.machine) rfl (dtMin := 1 / 1000)
    (dtMax := 1 / 100) (by norm_num) (by norm_num) (by norm_num) (0 : Fin 1) b false
    (agentCircularObstacleI Arith.machine cornered [slantedWall] (fun _ => (.num 0, .num 0)))
    steps (fun _ => walkingRow) (fun _ => rows_target 0) (by rw [cornered_nan]; cases b <;> rfl)
  obtain ⟨r, e, h, -⟩ := key false
  obtain ⟨r', e', h', -⟩ := key true
  rw [e] at e'
  injection e' with e'
  rw [← e'] at h'
  exact ⟨r, e, Prod.ext h h'⟩

end CrowdDynamics
