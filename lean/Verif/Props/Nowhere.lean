import Verif.Proofs.Nowhere
import Verif.Proofs.IeeeCrowdCases

/-!
# C215: an agent who is infinitely far away has no influence
-/

namespace CrowdDynamics

open Spec
open scoped Classical

/-- **C215** An agent with a coordinate that is infinite or NaN, whatever its velocity is, neither exerts a force
on another agent nor gets one from another agent or from a wall, and no exception is raised for its pairs. -/
theorem C215_no_force {n : ℕ} (A : Arith) (agents : Fin n → AgentI) {k : Fin n} (h : Nowhere (agents k))
    (F : Fin n → F64 × F64) :
    (∀ j, interactionAgentAgentCircularG A agents k j F = .ok F ∧
      interactionAgentAgentCircularG A agents j k F = .ok F) ∧
    ∀ w, interactionAgentCircularObstacleG A agents k w F = F := by
  refine ⟨fun j => ⟨?_, ?_⟩, fun w => nowhere_wall A agents h w F⟩
  · unfold interactionAgentAgentCircularG
    rw [nowhere_pair A (.inl h)]
    rfl
  · unfold interactionAgentAgentCircularG
    rw [nowhere_pair A (.inr h)]
    rfl

/-- **C215** It stays so in a run of any number of updates: the agent never gets back to a finite position, and
the run is the same if the pairs with this agent are left out. -/
theorem C215_run {n : ℕ} (A : Arith) (walls : List Wall) (dtMin dtMax : ℝ) (inputs : List (StepInput n))
    (agents : Fin n → AgentI) {k : Fin n} (h : Nowhere (agents k)) :
    runI A walls dtMin dtMax (inputs.map (avoiding k)) agents = runI A walls dtMin dtMax inputs agents ∧
      ∀ c, runI A walls dtMin dtMax inputs agents = .ok c → Nowhere (c k) :=
  nowhere_run A agents h walls dtMin dtMax inputs

/-- An agent who has left to the right for ever, with a finite velocity that points back, beside another agent. -/
example (a b : AgentI) (inputs : List (StepInput 2)) (c : Fin 2 → AgentI)
    (hc : runI Arith.machine [⟨(2, 0), (2, 1)⟩] 0.001 0.01 inputs
      ![{ a with position := (.inf false, .num 1), velocity := (.num (-1), .num 0) }, b] = .ok c) :
    ¬ ∃ x y : ℝ, (c 0).position = (.num x, .num y) :=
  (C215_run _ _ _ _ _ _ (k := 0) (by rintro ⟨x, y, h⟩; cases h)).2 c hc

/-- The same agent and its pair with the other one. -/
example (a b : AgentI) (F : Fin 2 → F64 × F64) :
    interactionAgentAgentCircularG Arith.machine ![b, { a with position := (.inf false, .num 1) }] 0 1 F = .ok F :=
  ((C215_no_force _ _ (k := 1) (by rintro ⟨x, y, h⟩; cases h) F).1 0).2

/-- **C215** With a fixed time step (as by default) all other agents have the same positions, velocities and
exceptions as in the run without this agent. -/
theorem C215_removed {n : ℕ} {A : Arith} (hr : A.rnd = fl64) (walls : List Wall) {dt : ℝ} (h0 : 0 ≤ dt)
    (h1 : dt ≤ 2 ^ (10 : ℤ)) {k : Fin (n + 1)} {inputs : List (StepInput (n + 1))} {rest : List (StepInput n)}
    (hI : List.Forall₂ (Without k) inputs rest) {agents : Fin (n + 1) → AgentI} (h : Nowhere (agents k))
    (hk : (agents k).tauAdj ≠ 0) (ht : ∀ i, |(agents i).targetVelocity| ≤ 2 ^ (10 : ℤ)) :
    (runI A walls dt dt inputs agents).map (fun R i => R (k.succAbove i)) =
      runI A walls dt dt rest (fun i => agents (k.succAbove i)) :=
  nowhere_runI_without hr walls h0 h1 hI h hk ht

/-- Three agents. The one in the middle of the array is infinitely far away, with a finite velocity; the others
overlap. -/
example (m : ℕ) : (runI Arith.machine [⟨(-1, 1 / 4), (3, 1 / 4)⟩] (1 / 100) (1 / 100)
      (List.replicate m ghostInput)
      ![eager (pressedPair 0), { eager (pressedPair 0) with position := (.inf true, .num 0) },
        eager (pressedPair 1)]).map (fun R i => R ((1 : Fin 3).succAbove i)) =
    runI Arith.machine [⟨(-1, 1 / 4), (3, 1 / 4)⟩] (1 / 100) (1 / 100) (List.replicate m ghostRest)
      (fun i => ![eager (pressedPair 0), { eager (pressedPair 0) with position := (.inf true, .num 0) },
        eager (pressedPair 1)] ((1 : Fin 3).succAbove i)) := by
  refine C215_removed (A := Arith.machine) rfl _ (by norm_num) (by norm_num) ?_ (by rintro ⟨x, y, h⟩; cases h)
    ghostCrowd_tau (fun i => ?_)
  · induction m with
    | zero => exact .nil
    | succ m ih => exact .cons ghost_without ih
  · fin_cases i
    · exact ghostCrowd_target 0
    · exact ghostCrowd_target 1
    · exact ghostCrowd_target 2

/-- **C215** The distance of such an agent from an upright wall is infinite, and the normal of the wall is still a
vector of length one that points to the side of the agent. -/
theorem C215_normal {X Y0 Y1 y r : ℝ} (s : Bool) (h : 0 < fl64 (Y1 - Y0))
    (hb : |fl64 (Y1 - Y0)| < 2 ^ (1024 : ℤ)) (hy : |fl64 (y - Y0)| < 2 ^ (1024 : ℤ)) :
    distanceCircleLineG Arith.machine (.inf s, .num y) r (X, Y0) (X, Y1) =
      (.inf false, (.num (if s then -1 else 1), .num 0)) :=
  upright_infinite s h hb hy

/-- The wall from (2, 0) to (2, 1) and an agent infinitely far to the left of it. -/
example : distanceCircleLineG Arith.machine (.inf true, .num 1) 0.25 (2, 0) (2, 1) =
    (.inf false, (.num (-1), .num 0)) := by
  have e : fl64 ((1 : ℝ) - 0) = 1 := by rw [sub_zero, fl64_one]
  have b : |(1 : ℝ)| < 2 ^ (1024 : ℤ) := by rw [abs_one]; exact one_lt_zpow₀ (by norm_num) (by norm_num)
  have := C215_normal (X := 2) (Y0 := 0) (Y1 := 1) (y := 1) (r := 0.25) true (by rw [e]; exact one_pos)
    (by rw [e]; exact b) (by rw [e]; exact b)
  simpa using this

end CrowdDynamics
