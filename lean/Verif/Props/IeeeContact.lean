import Verif.Proofs.IeeeContactCases

/-!
# C203: the forces of the interactions are finite
-/

namespace CrowdDynamics

open Spec Real

/-- **C203** (full statement, refuted below): for agents and walls of ordinary size the functions
`agent_agent_circular` and `agent_circular_obstacle`, started with zero forces, raise no exception
and leave finite forces. -/
def C203_statement : Prop :=
  ∀ (n : ℕ) (agents : Crowd n) (pairs : List (Fin n × Fin n)) (walls : List Wall),
    (∀ i, SmallAgent (agents i) ∧ SmallContact (agents i)) → (∀ w ∈ walls, SmallWall w) →
    ∃ force, agentAgentCircularI Arith.machine agents pairs (fun _ => (.num 0, .num 0)) =
      .ok force ∧ FiniteForces (agentCircularObstacleI Arith.machine agents walls force)

/-- **C203** (refutation): an agent whose centre is the end of a slanted wall gets the force NaN. -/
theorem C203_wall_fails : ¬ C203_statement ∧
    ∃ (a : Crowd 1) (w : Wall), SmallAgent (a 0) ∧ SmallContact (a 0) ∧ SmallWall w ∧
      agentCircularObstacleI Arith.machine a [w] (fun _ => (.num 0, .num 0)) 0 = (.nan, .nan) := by
  refine ⟨fun H => ?_, cornered, slantedWall, (cornered_small 0).1, (cornered_small 0).2,
    slanted_small, cornered_nan⟩
  obtain ⟨force, h1, h2⟩ := H 1 cornered [] [slantedWall] cornered_small
    (fun w hw => by rw [List.mem_singleton.1 hw]; exact slanted_small)
  have e : force = fun _ => (.num 0, .num 0) := by
    injection h1 with h1
    exact h1.symm
  obtain ⟨p, q, h⟩ := h2 0
  rw [e, cornered_nan] at h
  injection h with h
  exact F64.noConfusion h

/-- **C203** (refutation): two agents, one of which slides past the other, both get the force NaN. -/
theorem C203_pair_fails : ¬ C203_statement ∧
    ∃ a : Crowd 2, (∀ i, SmallAgent (a i) ∧ SmallContact (a i)) ∧
      ∃ force, agentAgentCircularI Arith.machine a [(0, 1)] (fun _ => (.num 0, .num 0)) =
        .ok force ∧ (force 0).1 = .nan ∧ (force 1).1 = .nan := by
  obtain ⟨F, hF, hF0, hF1⟩ := sliding_nan
  refine ⟨fun H => ?_, slidingPair, slidingPair_small, F, hF, hF0, hF1⟩
  obtain ⟨force, h1, h2⟩ := H 2 slidingPair [(0, 1)] [] slidingPair_small (by simp)
  have e : force = F := by
    rw [hF] at h1
    injection h1 with h1
    exact h1.symm
  have key : ∀ l : List (Fin 2), l.foldl (fun force _ => force) F = F := by
    intro l
    induction l with
    | nil => rfl
    | cons i l ih => exact ih
  have e' : agentCircularObstacleI Arith.machine slidingPair [] F = F := key _
  obtain ⟨p, q, h⟩ := h2 0
  rw [e, e'] at h
  have := hF0
  rw [h] at this
  exact F64.noConfusion this

/-- **C203** (what holds): if the coordinates, velocities and radii are also multiples of `2 ^ -60`
(less than `10 ^ -18`), and no centre is the end of a wall, then the interactions with agents and
walls, in this order and started with moderate forces, raise no exception, and all forces remain
finite. The forces, after the interactions of agents and after those with walls, are the ones that
the rounded operations without overflow give. The numbers of pairs and of walls are limited only by
`2 * pairs + agents * walls + 1 < 2 ^ 53`. -/
theorem C203_finite_partial {n : ℕ} {A : Arith} (hr : A.rnd = fl64) (hh : AccurateHypot A.hypot)
    (he : SaneExp A.exp) {agents : Crowd n} {pairs : List (Fin n × Fin n)} {walls : List Wall}
    (ha : ∀ i, ModerateAgent (agents i) ∧ ModerateContact (agents i))
    (hf : ModerateForces fun i => (agents i).force)
    (hw : ∀ w ∈ walls, ModerateWall w ∧ ∀ i, (agents i).position ≠ w.p0 ∧
      (agents i).position ≠ w.p1)
    (hn : 1 + 2 * pairs.length + n * walls.length < 2 ^ 53) :
    ∃ force, agentAgentCircularI A agents pairs
        (fun i => (.num (agents i).force.1, .num (agents i).force.2)) = .ok force ∧
      (∀ i, force i = (.num (agentAgentCircularF A agents pairs i).force.1,
        .num (agentAgentCircularF A agents pairs i).force.2)) ∧
      FiniteForces (agentCircularObstacleI A agents walls force) ∧
      ∃ crowd, agentCircularObstacleF A (agentAgentCircularF A agents pairs) walls = some crowd ∧
        ∀ i, agentCircularObstacleI A agents walls force i =
          (.num (crowd i).force.1, .num (crowd i).force.2) := by
  obtain ⟨F, f, h1, h2, h3⟩ := agentAgentCircularI_num hr hh he ha pairs
    (SumForces.of_moderate hf) (by omega)
  obtain ⟨f', h5, h4⟩ := agentCircularObstacleI_num hr hh ha hw h3 hn
  have e : withForces agents (fun i => (agents i).force) = agents := rfl
  rw [e] at h2
  refine ⟨F, h1, fun i => ?_, h4.finite, withForces agents f', ?_, fun i => ?_⟩
  · rw [h2]
    exact Prod.ext (h3 i).1.1 (h3 i).2.1
  · rw [h2, h5]
  · exact Prod.ext (h4 i).1.1 (h4 i).2.1

/-- The hypotheses of `C203_finite_partial` hold for two agents that overlap, with a wall across
both of them. -/
example : ∃ force, agentAgentCircularI Arith.machine pressedPair [(0, 1)]
      (fun _ => (.num 0, .num 0)) = .ok force ∧
    FiniteForces (agentCircularObstacleI Arith.machine pressedPair [⟨(-1, 1 / 4), (3, 1 / 4)⟩]
      force) := by
  have f0 : (fun i => (pressedPair i).force) = fun _ => ((0, 0) : Vec) := by
    funext i
    fin_cases i <;> rfl
  obtain ⟨force, h1, -, h3, -⟩ := C203_finite_partial (pairs := [(0, 1)])
    (walls := [⟨(-1, 1 / 4), (3, 1 / 4)⟩]) (A := Arith.machine) rfl accurate_machine sane_machine
    pressedPair_moderate (by rw [f0]; exact zero_forces_moderate)
    (fun w hw => by rw [List.mem_singleton.1 hw]; exact ⟨long_wall_moderate, pressed_wall⟩)
    (by norm_num)
  have e : (fun i => ((.num (pressedPair i).force.1, .num (pressedPair i).force.2) : F64 × F64)) =
      fun _ => (.num 0, .num 0) := by
    funext i
    rw [congrFun f0 i]
  rw [e] at h1
  exact ⟨force, h1, h3⟩

/-- The agents and walls of the refutations meet the hypotheses of `C203_statement`. -/
example : (∀ i, SmallAgent (slidingPair i) ∧ SmallContact (slidingPair i)) ∧
    (∀ i, SmallAgent (cornered i) ∧ SmallContact (cornered i)) ∧ SmallWall slantedWall :=
  ⟨slidingPair_small, cornered_small, slanted_small⟩

end CrowdDynamics
