import Verif.Proofs.RoundedWallRun
import Verif.Proofs.IeeeWallRun

/-!
# C208: a wall stops an agent who walks against it, in floating point
-/

namespace CrowdDynamics

open Spec

/-- **C208** In floating point too, an agent who walks straight against a wall is stopped by it, however many
updates are made, although the damping term pulls it on and rounding errors occur in each operation. It never
sinks in by more than 15.1 cm, so its centre stays at least 3.9 cm away from the wall, never moves towards the
wall faster than 2.71, never goes further away than 1010 m, and does not leave its line. No force is NaN. -/
theorem C208_stopped {a : Agent} {X Y0 Y1 : ℝ} (h : PressStart a X Y0 Y1) (k : ℕ) :
    ∃ b : Agent, runF Arith.machine [⟨(X, Y0), (X, Y1)⟩] (fl64 (1 / 100)) (fl64 (1 / 100)) (fun _ => 0)
        (fun _ => (1, 0)) [] (fun _ : Fin 1 => a) k = some (fun _ => b) ∧
      a.radius - 0.151 ≤ X - b.position.1 ∧ X - b.position.1 ≤ 1010 ∧ b.position.2 = a.position.2 ∧
      -26 ≤ b.velocity.1 ∧ b.velocity.1 ≤ 2.71 ∧ b.velocity.2 = 0 := by
  obtain ⟨ρ, hρ, hk⟩ := press_run h
  obtain ⟨x, u, f, w, t, e, -, -, hs⟩ := hk k
  obtain ⟨B1, B2, B3⟩ := hs.walk.bounds (press_constants h.mass.1 h.mass.2)
  have n1 := abs_le.1 hs.mean
  have n2 := hs.top'
  have n3 := hs.far
  refine ⟨_, e, ?_, ?_, rfl, ?_, ?_, rfl⟩ <;> simp only [pressRow] <;> linarith

/-- **C208** The agent does get to the wall, and comes back to it whenever it is thrown off: from each moment
on, at most 260000 updates pass until it touches the wall. -/
theorem C208_returns {a : Agent} {X Y0 Y1 : ℝ} (h : PressStart a X Y0 Y1) (k : ℕ) :
    ∃ j ≤ 260000, ∃ b : Agent, runF Arith.machine [⟨(X, Y0), (X, Y1)⟩] (fl64 (1 / 100)) (fl64 (1 / 100))
        (fun _ => 0) (fun _ => (1, 0)) [] (fun _ : Fin 1 => a) (k + j) = some (fun _ => b) ∧
      X - b.position.1 < a.radius := by
  obtain ⟨j, hj, x, u, f, e, hx⟩ := press_again h k
  exact ⟨j, hj, _, e, hx⟩

/-- **C208** Nothing overflows: with infinities, NaN and exceptions in the model, the run is the same, without
exceptions, and the agent is stopped in the same way. -/
theorem C208_finite {a : Agent} {X Y0 Y1 : ℝ} (h : PressStart a X Y0 Y1) (hκ : |a.kappa| ≤ 2 ^ (20 : ℤ))
    (hY0 : |Y0| ≤ 2 ^ (20 : ℤ)) (hY1 : |Y1| ≤ 2 ^ (20 : ℤ)) (k : ℕ) :
    ∃ b : Agent, runI Arith.machine [⟨(X, Y0), (X, Y1)⟩] (fl64 (1 / 100)) (fl64 (1 / 100))
        (List.replicate k (finiteInput (fun _ => 0) (fun _ => (1, 0)) [])) (fun _ : Fin 1 => finiteAgent a) =
        .ok (fun _ => finiteAgent b) ∧
      a.radius - 0.151 ≤ X - b.position.1 ∧ X - b.position.1 ≤ 1010 ∧ b.position.2 = a.position.2 ∧
      -26 ≤ b.velocity.1 ∧ b.velocity.1 ≤ 2.71 ∧ b.velocity.2 = 0 := by
  obtain ⟨b, e, hb⟩ := C208_stopped h k
  exact ⟨b, press_runI h hκ hY0 hY1 k b e, hb⟩

/-- An adult of 73.5 kg who walks from the origin against the wall from (2, -1) to (2, 1), for ever. -/
example : ∃ a : Agent, a.position = (0, 0) ∧ a.radius = 1 / 4 ∧ a.targetVelocity = 5 / 4 ∧ ∀ k : ℕ,
    (∃ b : Agent, runF Arith.machine [⟨(2, -1), (2, 1)⟩] (fl64 (1 / 100)) (fl64 (1 / 100))
      (fun _ => 0) (fun _ => (1, 0)) [] (fun _ : Fin 1 => a) k = some (fun _ => b) ∧ b.position.1 ≤ 1.91) ∧
    (∃ j ≥ k, ∃ b : Agent, runF Arith.machine [⟨(2, -1), (2, 1)⟩] (fl64 (1 / 100)) (fl64 (1 / 100))
      (fun _ => 0) (fun _ => (1, 0)) [] (fun _ : Fin 1 => a) j = some (fun _ => b) ∧
      1.75 < b.position.1) ∧
    ∃ b : Agent, runI Arith.machine [⟨(2, -1), (2, 1)⟩] (fl64 (1 / 100)) (fl64 (1 / 100))
      (List.replicate k (finiteInput (fun _ => 0) (fun _ => (1, 0)) [])) (fun _ : Fin 1 => finiteAgent a) =
      .ok (fun _ => finiteAgent b) ∧ b.position.1 ≤ 1.91 := by
  have b0 : Binary64 0 := (binary64_iff _).2 fl64_zero
  refine ⟨{ Agent.default with
      radius := 1 / 4, mass := 73.5, targetVelocity := 5 / 4, tauAdj := 1 / 2, position := (0, 0)
      targetDirection := (1, 0) }, rfl, rfl, rfl, fun k => ?_⟩
  have h : PressStart { Agent.default with
      radius := 1 / 4, mass := 73.5, targetVelocity := 5 / 4, tauAdj := 1 / 2, position := (0, 0)
      targetDirection := (1, 0) } 2 (-1) 1 :=
    { tau := rfl, mu := rfl, damping := rfl, mass := by norm_num
      radius := ⟨⟨1, -2, by norm_num, by norm_num, by norm_num⟩, by norm_num, by norm_num⟩
      pace := ⟨⟨5, -2, by norm_num, by norm_num, by norm_num⟩, by norm_num, by norm_num⟩
      place := ⟨b0, b0⟩
      slow := ⟨b0, by norm_num [Agent.default, Agent.zero], rfl⟩
      aim := rfl, force := ⟨rfl, rfl⟩
      wall := ⟨⟨1, 1, by norm_num, by norm_num, by norm_num⟩, by norm_num,
        ⟨-1, 0, by norm_num, by norm_num, by norm_num⟩, ⟨1, 0, by norm_num, by norm_num, by norm_num⟩, by norm_num⟩
      beside := by rw [Set.uIcc_of_le (by norm_num)]; norm_num
      clear := by norm_num }
  refine ⟨?_, ?_, ?_⟩
  · obtain ⟨b, e, h1, -⟩ := C208_stopped h k
    refine ⟨b, e, ?_⟩
    norm_num at h1 ⊢
    linarith
  · obtain ⟨j, -, b, e, h1⟩ := C208_returns h k
    refine ⟨k + j, by omega, b, e, ?_⟩
    norm_num at h1 ⊢
    linarith
  · obtain ⟨b, e, h1, -⟩ := C208_finite h (by norm_num [Agent.default, Agent.zero]) (by norm_num) (by norm_num) k
    refine ⟨b, e, ?_⟩
    norm_num at h1 ⊢
    linarith

end CrowdDynamics
