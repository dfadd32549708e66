import Verif.Proofs.DynamicsCases
import Verif.Proofs.Dynamics
import Verif.Proofs.ShippedRun
import Verif.Props.ShippedLogic
import Mathlib.Tactic.IntervalCases

/-!
# The equations of motion
-/

namespace CrowdDynamics

open Spec

variable {n : ℕ}

/-! ## C110: the forces between circular agents -/

/-- **C110** One call of `agent_agent_block_list` for circular agents adds to the force on every agent
exactly the sum, over all other agents, of social and contact force, and changes nothing else. The
cell size must reach the sight of every two agents. -/
theorem C110_pair_forces (cellPairs : (Fin n → Vec) → ℝ → List (Fin n × Fin n)) (A : AgentArray n)
    (c : ℝ) (hc : 0 < c)
    (hcells : EnumeratesNeighbours (fun i => (A.rows i).position) c
      (cellPairs (fun i => (A.rows i).position) c))
    (hA : A.dtype.kind = .circular) (hr : ∀ k, 0 ≤ (A.rows k).radius)
    (hsize : ∀ i j, i ≠ j → 3 + ((A.rows i).radius + (A.rows j).radius) ≤ c) :
    ∃ B, agentAgentBlockList cellPairs A c = some B ∧ B.dtype = A.dtype ∧
      ∀ k, ∃ F : Fin n → Vec, (∀ j, j ≠ k → IsNeighbourForce (A.rows k) (A.rows j) (F j)) ∧
        B.rows k =
          { A.rows k with force := (A.rows k).force + (∑ j ∈ Finset.univ.erase k, F j) } := by
  obtain ⟨B, e1, e2, e3⟩ := agentAgent_forces cellPairs A c hc hcells hA hsize
  exact ⟨B, e1, e2, fun k =>
    ⟨_, fun j _ => pairForces_spec _ _ (add_nonneg (hr k) (hr j)), e3 k⟩⟩

/-- The hypotheses are met by these agents and the cell size that all shipped simulations use. -/
example : (0 : ℝ) < 3.0 + 2 * 0.3 ∧
    EnumeratesNeighbours (fun i => (facing i).position) (3.0 + 2 * 0.3)
      ((fun _ _ => [(0, 1)] : (Fin 2 → Vec) → ℝ → List (Fin 2 × Fin 2))
        (fun i => (facing i).position) (3.0 + 2 * 0.3)) ∧
    (∀ k, 0 ≤ (facing k).radius) ∧
    ∀ i j, i ≠ j → 3 + ((facing i).radius + (facing j).radius) ≤ 3.0 + 2 * 0.3 :=
  ⟨by norm_num, facing_cells, fun k => by norm_num [facing], fun i j _ => by norm_num [facing]⟩

/-! ## C111: the walls that act are those of the field -/

/-- **C111** One update of the node `AgentObstacleInteractions` on circular or three-circle agents
raises nothing if the obstacles of the field are supported, and adds to the force and torque of
every agent exactly the sum of the effects of the edges of the obstacles of the field. Without
obstacles it changes nothing. -/
theorem C111_field_walls (env : SimEnv n) (s : SimState n)
    (ho : ∀ g, env.field.obstacles = some g → Supported g) :
    ∃ t, Node.agentObstacle.update env s = (.ok (), t) ∧ t.agents.dtype = s.agents.dtype ∧
      t.data = s.data ∧
      ∀ k, ∃ F : Vec × Vec → Vec × ℝ,
        (∀ w, IsWallEffect s.agents.dtype.kind (s.agents.rows k) w.1 w.2 (F w)) ∧
        t.agents.rows k = { s.agents.rows k with
          force := (s.agents.rows k).force + ((fieldWalls env.field.obstacles).map F).sum.1
          torque := (s.agents.rows k).torque + ((fieldWalls env.field.obstacles).map F).sum.2 } := by
  have hw := obstaclesOf_walls env ho
  cases hk : s.agents.dtype.kind with
  | circular =>
    refine ⟨{ s with agents := ⟨s.agents.dtype, agentCircularObstacle s.agents.rows
        ((fieldWalls env.field.obstacles).map fun w => ⟨w.1, w.2⟩)⟩ },
      by simp [Node.update, hw, CrowdDynamics.agentObstacle, isModel, hk], rfl, rfl,
      fun k => ⟨fun w => (wallForce (s.agents.rows k) ⟨w.1, w.2⟩, 0),
        fun w => wallForce_spec (s.agents.rows k) ⟨w.1, w.2⟩, ?_⟩⟩
    simp only
    rw [agentCircularObstacle_apply, List.map_map, (fst_sum_list _ _).1, (fst_sum_list _ _).2]
    simp [Function.comp_def]
  | threeCircle =>
    refine ⟨{ s with agents := ⟨s.agents.dtype, agentThreeCircleObstacle s.agents.rows
        ((fieldWalls env.field.obstacles).map fun w => ⟨w.1, w.2⟩)⟩ },
      by simp [Node.update, hw, CrowdDynamics.agentObstacle, isModel, hk], rfl, rfl,
      fun k => ⟨fun w => wallForceThree (s.agents.rows k) ⟨w.1, w.2⟩,
        fun w => wallForceThree_spec (s.agents.rows k) ⟨w.1, w.2⟩, ?_⟩⟩
    simp only
    rw [agentThreeCircleObstacle_apply, List.map_map]
    rfl

/-- A field with one wall as obstacle. -/
noncomputable def walledEnv : SimEnv 1 :=
  { demoEnv 1 with fields := fun _ => ⟨none, some (.lineString [(0, 0), (1, 0)]), [], []⟩ }

/-- Its obstacle is supported and gives one wall. -/
example : (∀ g, walledEnv.field.obstacles = some g → Supported g) ∧
    fieldWalls walledEnv.field.obstacles = [((0, 0), (1, 0))] := by
  refine ⟨fun g hg => ?_, rfl⟩
  cases hg
  exact .lineString _

/-! ## C112: Newton's law -/

/-- **C112** One update of a logic tree whose order is `before`, an integrator, `after`, where nothing
else moves agents and nobody is steered after their adjusting force: every circular agent makes one
time step, with a step size within the bounds of the integrator, under the sum of the contributions
of the nodes before the integrator in the state at the start of the update, with the directions of
walking as they are after the update. If after the integrator `Reset` is followed only by nodes that
leave forces alone, the forces are zero after the update. -/
theorem C112_newton (env : SimEnv n) (kind : ℕ → Node) (root : LTree) (before after : List Node)
    (dtMin dtMax : ℝ)
    (hn : root.postorder.map kind = before ++ .integrator dtMin dtMax :: after)
    (hb : ∀ x ∈ before, ¬ Moves x ∧ ¬ Clears x) (hs : AllBefore Steers Adjusts before)
    (ha : ∀ x ∈ after, ¬ Moves x ∧ ¬ Steers x) (hd : dtMin ≤ dtMax) (s t : SimState n)
    (hr : Regular env before s) (h0 : ∀ k, (s.agents.rows k).force = 0)
    (h : simUpdate env kind root s = (.ok (), t)) :
    (dtMin ≤ t.data.dt ∧ t.data.dt ≤ dtMax ∧ t.data.timeTot = s.data.timeTot + t.data.dt) ∧
    (∀ k, ∃ fs, List.Forall₂ (Contributes env (aiming s t) k) before fs ∧
      TimeStep (s.agents.rows k) (t.agents.rows k) fs.sum t.data.dt) ∧
    ((∃ l l', after = l ++ .reset :: l' ∧ ∀ x ∈ l', LeavesForces x) →
      ∀ k, (t.agents.rows k).force = 0) := by
  obtain ⟨u, hu, ea, et, ed, -⟩ := simUpdate_spec env kind root s t _ h
  rw [hn] at hu
  have := newton_list env before after dtMin dtMax hb hs ha hd s u hr h0 hu
  unfold aiming at this ⊢
  rwa [ea, et, ed]

example : (∀ x ∈ ([.adjusting, .agentAgent (3.0 + 2 * 0.3)] : List Node), ¬ Moves x ∧ ¬ Clears x) ∧
    AllBefore Steers Adjusts [.adjusting, .agentAgent (3.0 + 2 * 0.3)] ∧
    ∀ x ∈ ([.reset] : List Node), ¬ Moves x ∧ ¬ Steers x := by
  refine ⟨by simp [Moves, Clears], fun i j a b ha _ hs _ => ?_, by simp [Moves, Steers]⟩
  rcases i with _ | _ | i <;> simp at ha <;> subst ha <;> simp [Steers] at hs

/-- A tree with pair forces, for which the update of the two agents completes. -/
def facingTree : LTree := .node 0 [.node 1 [.node 2 [], .node 3 []]]

/-- The nodes of this tree. -/
noncomputable def facingKind : ℕ → Node
  | 0 => .reset
  | 1 => .integrator 0.01 0.02
  | 2 => .adjusting
  | _ => .agentAgent (3.0 + 2 * 0.3)

/-- All hypotheses together. -/
example : facingTree.postorder.map facingKind =
      [.adjusting, .agentAgent (3.0 + 2 * 0.3)] ++ .integrator 0.01 0.02 :: [.reset] ∧
    Regular facingEnv [.adjusting, .agentAgent (3.0 + 2 * 0.3)] (demoState facing) ∧
    (∀ k, ((demoState facing).agents.rows k).force = 0) ∧
    ∃ t, simUpdate facingEnv facingKind facingTree (demoState facing) = (.ok (), t) := by
  refine ⟨rfl, facing_regular _ (by simp), fun k => rfl, ?_⟩
  exact ⟨(simUpdate facingEnv facingKind facingTree (demoState facing)).2, rfl⟩

/-! ## C113: Newton's law in the shipped simulations -/

/-- **C113** Every shipped simulation except `TestMovement` (number 11, see C97), with circular agents
whose radii are at most 0.3: one completed update moves every agent by one time step of 0.01 under the
sum of a bounded random force, the adjusting force, the forces of all other agents, and, if the
simulation has the node for obstacles, the forces of the walls of the field; all forces are zero
afterwards. -/
theorem C113_shipped_newton (env : SimEnv n) (ratioObs width : ℝ) (hf : env.field.domain ≠ none)
    (hw : 1 ≤ (1 - ratioObs) * width) (k : ℕ) (e : LogicExpr)
    (he : (shippedLogic ratioObs width env.field)[k]? = some e) (hk : k ≠ 11) (s t : SimState n)
    (hr : Regular env [.agentAgent (3.0 + 2 * 0.3)] s) (h0 : ∀ i, (s.agents.rows i).force = 0)
    (h : e.update env s = (.ok (), t)) :
    ∃ order, e.order = .ok order ∧ MovesByNewton env order s t := by
  obtain ⟨d, hd⟩ := Option.ne_none_iff_exists'.1 hf
  obtain ⟨ring, holes⟩ := d
  have hlt : k < 13 := by
    have := (List.getElem?_eq_some_iff.1 he).1
    simpa [shippedLogic] using this
  interval_cases k
  all_goals
    simp only [shippedLogic, List.getElem?_cons_zero, List.getElem?_cons_succ,
      Option.some.injEq] at he
    subst he
  · exact shipped_newton env _ s t hr h0 h [.fluctuation, .orientation, .adjusting,
      .agentAgent (3.0 + 2 * 0.3)]
      false order_walk sensible_walk (by simp [Moves, Clears]) (by simp) (by simp)
      rfl
  · exact shipped_newton env _ s t hr h0 h [.insideDomain ring, .fluctuation, .navigation 0.1 0.5 0.3,
      .orientation, .adjusting, .agentAgent (3.0 + 2 * 0.3), .agentObstacle]
      true (order_navigation hd) (sensible_navigation ring) (by simp [Moves, Clears]) (by simp) (by simp)
      rfl
  · exact shipped_newton env _ s t hr h0 h [.insideDomain ring, .fluctuation, .navigation 0.1 0.5 0.3,
      .orientation, .adjusting, .agentAgent (3.0 + 2 * 0.3), .agentObstacle]
      true (order_navigation hd) (sensible_navigation ring) (by simp [Moves, Clears]) (by simp) (by simp)
      rfl
  · exact shipped_newton env _ s t hr h0 h [.insideDomain ring, .fluctuation, .navigation 0.1 0.5 0.3,
      .orientation, .adjusting, .agentAgent (3.0 + 2 * 0.3), .agentObstacle]
      true (order_navigation hd) (sensible_navigation ring) (by simp [Moves, Clears]) (by simp) (by simp)
      rfl
  · exact shipped_newton env _ s t hr h0 h [.fluctuation, .herding 10.0 5, .orientation, .adjusting,
      .agentAgent (3.0 + 2 * 0.3)]
      false order_herding sensible_herding (by simp [Moves, Clears]) (by simp) (by simp)
      rfl
  · exact shipped_newton env _ s t hr h0 h [.insideDomain ring, .fluctuation, .herding 10.0 5,
      .navigation 0.1 0.5 0.3, .orientation, .adjusting, .agentAgent (3.0 + 2 * 0.3), .agentObstacle]
      true (order_rounding hd) (sensible_rounding ring) (by simp [Moves, Clears]) (by simp) (by simp)
      rfl
  · exact shipped_newton env _ s t hr h0 h [.insideDomain ring, .fluctuation,
      .exitDetection ((1 - ratioObs) * width), .herding 10.0 5, .navigation 0.1 0.5 0.3,
      .orientation, .adjusting, .agentAgent (3.0 + 2 * 0.3), .agentObstacle]
      true (order_avoid hd hw) (sensible_avoid ring _) (by simp [Moves, Clears]) (by simp) (by simp)
      rfl
  · exact shipped_newton env _ s t hr h0 h [.fluctuation, .herding 10.0 5, .orientation, .adjusting,
      .agentAgent (3.0 + 2 * 0.3), .agentObstacle]
      true order_closed sensible_closed (by simp [Moves, Clears]) (by simp) (by simp)
      rfl
  · exact shipped_newton env _ s t hr h0 h [.fluctuation, .herding 10.0 5, .orientation, .adjusting,
      .agentAgent (3.0 + 2 * 0.3), .agentObstacle]
      true order_closed sensible_closed (by simp [Moves, Clears]) (by simp) (by simp)
      rfl
  · exact shipped_newton env _ s t hr h0 h [.insideDomain ring, .fluctuation, .exitDetection 20.0,
      .leaderFollower 20.0, .navigation 0.1 0.5 0.3, .orientation, .adjusting,
      .agentAgent (3.0 + 2 * 0.3), .agentObstacle]
      true (order_fourExits hd) (sensible_fourExits ring) (by simp [Moves, Clears]) (by simp) (by simp)
      rfl
  · exact shipped_newton env _ s t hr h0 h [.insideDomain ring, .fluctuation, .exitDetection 20.0,
      .leaderFollower 20.0, .navigation 0.1 0.5 0.3, .orientation, .adjusting,
      .agentAgent (3.0 + 2 * 0.3), .agentObstacle]
      true (order_fourExits hd) (sensible_fourExits ring) (by simp [Moves, Clears]) (by simp) (by simp)
      rfl
  · exact absurd rfl hk
  · exact shipped_newton env _ s t hr h0 h [.fluctuation, .orientation, .adjusting,
      .agentAgent (3.0 + 2 * 0.3)]
      false order_walk sensible_walk (by simp [Moves, Clears]) (by simp) (by simp)
      rfl

/-- The hypotheses are met by the two agents above in the simulation `Outdoor`. -/
example : facingEnv.field.domain ≠ none ∧ (1 : ℝ) ≤ (1 - 0.6) * 10 ∧
    (shippedLogic 0.6 10 facingEnv.field)[0]? = some walkLogic ∧
    Regular facingEnv [.agentAgent (3.0 + 2 * 0.3)] (demoState facing) ∧
    (∀ i, ((demoState facing).agents.rows i).force = 0) ∧
    ∃ t, walkLogic.update facingEnv (demoState facing) = (.ok (), t) :=
  ⟨by simp [SimEnv.field, facingEnv], by norm_num, rfl, facing_regular _ (by simp), fun _ => rfl,
    walk_total _ _⟩

end CrowdDynamics
