import Verif.Proofs.IeeeCrowdCases

/-!
# C205: an agent that is not a number has no influence on others
-/

namespace CrowdDynamics

open Spec Real

/-- **C205**: an agent one of whose coordinates is NaN neither exerts a force on another agent nor
gets one from another agent or from a wall, whatever the other attributes are. The compiled
functions raise no exception for its pairs. -/
theorem C205_no_force {n : ℕ} (A : Arith) (agents : Fin n → AgentI) (k : Fin n) (b : Bool)
    (h : axisOf b (agents k).position = .nan) (force : Fin n → F64 × F64) :
    (∀ j, interactionAgentAgentCircularG A agents k j force = .ok force ∧
      interactionAgentAgentCircularG A agents j k force = .ok force) ∧
    ∀ walls, agentCircularObstacleG A agents walls force k = force k := by
  refine ⟨fun j => ⟨interactionG_nan A (.inl h) force, interactionG_nan A (.inr h) force⟩,
    fun walls => ?_⟩
  rw [agentCircularObstacleG_apply]
  exact wallForces_nan A h walls _

/-- **C205**: in a run of any number of updates, with any random forces, directions and pairs of
neighbours, it makes no difference if the pairs with an agent that is not a number are left out,
and this agent is never a number again. -/
theorem C205_pairs {n : ℕ} (A : Arith) (walls : List Wall) (dtMin dtMax : ℝ)
    (inputs : List (StepInput n)) (agents : Fin n → AgentI) (k : Fin n) (b : Bool)
    (h : Lost b (agents k).toRowI) :
    runI A walls dtMin dtMax inputs agents =
        runI A walls dtMin dtMax (inputs.map (avoiding k)) agents ∧
      ∀ R, runI A walls dtMin dtMax inputs agents = .ok R → Lost b (R k).toRowI :=
  runI_avoiding A walls dtMin dtMax inputs h

/-- **C205**: with a fixed time step (as by default) all other agents have the same positions,
velocities and exceptions as in the run without the agent that is not a number. -/
theorem C205_removed {n : ℕ} {A : Arith} (hr : A.rnd = fl64) (walls : List Wall) {dt : ℝ}
    (h0 : 0 ≤ dt) (h1 : dt ≤ 2 ^ (10 : ℤ)) {k : Fin (n + 1)} {b : Bool}
    {inputs : List (StepInput (n + 1))} {rest : List (StepInput n)}
    (hI : List.Forall₂ (Without k) inputs rest) {agents : Fin (n + 1) → AgentI}
    (h : Lost b (agents k).toRowI) (hk : (agents k).tauAdj ≠ 0)
    (ht : ∀ i, |(agents i).targetVelocity| ≤ 2 ^ (10 : ℤ)) :
    (runI A walls dt dt inputs agents).map (fun R i => R (k.succAbove i)) =
      runI A walls dt dt rest (fun i => agents (k.succAbove i)) :=
  runI_without hr walls h0 h1 hI h hk ht

/-- **C205**: for agents with finite attributes the interactions are those of C203. -/
theorem C205_finite {n : ℕ} (A : Arith) (agents : Crowd n) (pairs : List (Fin n × Fin n))
    (walls : List Wall) (force : Fin n → F64 × F64) :
    agentAgentCircularG A (fun i => finiteAgent (agents i)) pairs force =
        agentAgentCircularI A agents pairs force ∧
      agentCircularObstacleG A (fun i => finiteAgent (agents i)) walls force =
        agentCircularObstacleI A agents walls force :=
  ⟨agentAgentCircularG_finite A agents pairs force,
    agentCircularObstacleG_finite A agents walls force⟩

/-- The hypotheses of `C205_removed` hold for a crowd of three agents, one of them with NaN, and for
any number of updates. -/
example (m : ℕ) : (runI Arith.machine [⟨(-1, 1 / 4), (3, 1 / 4)⟩] (1 / 100) (1 / 100)
      (List.replicate m ghostInput) ghostCrowd).map (fun R i => R ((1 : Fin 3).succAbove i)) =
    runI Arith.machine [⟨(-1, 1 / 4), (3, 1 / 4)⟩] (1 / 100) (1 / 100)
      (List.replicate m ghostRest) (fun i => ghostCrowd ((1 : Fin 3).succAbove i)) := by
  refine C205_removed (A := Arith.machine) rfl _ (by norm_num) (by norm_num) ?_ ghostCrowd_lost
    ghostCrowd_tau ghostCrowd_target
  induction m with
  | zero => exact .nil
  | succ m ih => exact .cons ghost_without ih

/-- The hypotheses of `C205_no_force` and `C205_pairs` hold for the same crowd. -/
example (force : Fin 3 → F64 × F64) (inputs : List (StepInput 3)) :
    interactionAgentAgentCircularG Arith.machine ghostCrowd 1 0 force = .ok force ∧
      runI Arith.machine [] (1 / 1000) (1 / 100) inputs ghostCrowd =
        runI Arith.machine [] (1 / 1000) (1 / 100) (inputs.map (avoiding 1)) ghostCrowd :=
  ⟨((C205_no_force Arith.machine ghostCrowd 1 false rfl force).1 0).1,
    (C205_pairs Arith.machine [] (1 / 1000) (1 / 100) inputs ghostCrowd 1 false
      ghostCrowd_lost).1⟩

end CrowdDynamics
