import Verif.Proofs.BodyDynamicsCases
import Verif.Proofs.BodyMotion
import Verif.Props.Dynamics

/-!
# The equations of motion of three-circle agents
-/

namespace CrowdDynamics

open Spec

variable {n : ℕ}

/-! ## C122: the effects of three-circle agents on each other -/

/-- What one call of `agent_agent_block_list` does to three-circle agents, if `arm` restricts the arms
of the forces: to force and torque of every agent it adds exactly the sum, over all other agents, of
social and contact force and of the moment of that force, and it changes nothing else. -/
def PairEffects (arm : Agent → Agent → Fin 3 → Fin 3 → ℝ × ℝ → ℝ × ℝ → Prop) : Prop :=
  ∀ (n : ℕ) (cellPairs : (Fin n → Vec) → ℝ → List (Fin n × Fin n)) (A : AgentArray n) (c : ℝ),
    0 < c → EnumeratesNeighbours (fun i => (A.rows i).position) c
      (cellPairs (fun i => (A.rows i).position) c) →
    A.dtype.kind = .threeCircle → (∀ k p, 0 ≤ (A.rows k).radii p) →
    (∀ k, ShouldersAttached (A.rows k)) →
    ∀ r : Fin n → ℝ, (∀ k, BodyWithin .threeCircle (A.rows k) (r k)) →
    (∀ i j, i ≠ j → 3 + (r i + r j) ≤ c) →
    ∃ B, agentAgentBlockList cellPairs A c = some B ∧ B.dtype = A.dtype ∧
      ∀ k, ∃ F : Fin n → Vec × ℝ,
        (∀ j, j ≠ k → IsBodyEffect (arm (A.rows k) (A.rows j)) (A.rows k) (A.rows j) (F j)) ∧
        B.rows k = { A.rows k with
          force := (A.rows k).force + (∑ j ∈ Finset.univ.erase k, F j).1
          torque := (A.rows k).torque + (∑ j ∈ Finset.univ.erase k, F j).2 }

/-- **C122** in full: the forces act at the point of contact. -/
def C122_statement : Prop := PairEffects fun a _ => ContactArm a

/-- **C122**, what holds: the same with the arms that the code uses, which lead to the far side of a
circle. -/
theorem C122_pair_effects_partial : PairEffects CodeArm := by
  intro n cellPairs A c hc hcells hA hr hs r hw hsize
  obtain ⟨B, e1, e2, e3⟩ := agentAgent_effects cellPairs A c hc hcells hA r hw hsize
  refine ⟨B, e1, e2, fun k => ⟨_, fun j _ => ?_, e3 k⟩⟩
  unfold orientedEffect
  split_ifs
  · exact (bodyEffect_spec (hr j) (hr k) (hs j) (hs k)).2
  · exact (bodyEffect_spec (hr k) (hr j) (hs k) (hs j)).1

/-- The hypotheses are met by these agents and the cell size that all shipped simulations use. -/
example : (0 : ℝ) < 3.0 + 2 * 0.3 ∧
    EnumeratesNeighbours (fun i => (rubbing i).position) (3.0 + 2 * 0.3) [(0, 1)] ∧
    (∀ k p, 0 ≤ (rubbing k).radii p) ∧ (∀ k, ShouldersAttached (rubbing k)) ∧
    (∀ k, BodyWithin .threeCircle (rubbing k) 0.3) ∧ (3 : ℝ) + (0.3 + 0.3) ≤ 3.0 + 2 * 0.3 :=
  ⟨by norm_num, rubbing_cells, fun k p => by rw [(rubbing_circles k p).2]; norm_num,
    rubbing_attached, rubbing_within, by norm_num⟩

/-- **C122** fails: the first of two agents that rub against each other is turned the wrong way or
not at all. -/
theorem C122_fails : ¬ C122_statement := by
  intro h
  have hyp := fun arm (h : PairEffects arm) => h 2 (fun _ _ => [(0, 1)]) ⟨.const .threeCircle, rubbing⟩
    (3.0 + 2 * 0.3) (by norm_num) rubbing_cells rfl
    (fun k p => by rw [(rubbing_circles k p).2]; norm_num) rubbing_attached (fun _ => 0.3)
    rubbing_within (fun i j _ => by norm_num)
  obtain ⟨B, e1, -, e2⟩ := hyp _ h
  obtain ⟨B', e1', -, e2'⟩ := hyp _ C122_pair_effects_partial
  rw [e1] at e1'
  cases e1'
  obtain ⟨F, f1, f2⟩ := e2 0
  obtain ⟨F', f1', f2'⟩ := e2' 0
  have t1 := congrArg Agent.torque f2
  have t2 := congrArg Agent.torque f2'
  rw [erase_zero_two, Finset.sum_singleton] at t1 t2
  simp only at t1 t2
  rw [rubbing_contact_torque (f1 1 (by decide))] at t1
  rw [t1] at t2
  rcases rubbing_code_torque (f1' 1 (by decide)) with h | h <;> rw [h] at t2 <;> linarith

/-! ## C123: Newton's law -/

/-- What one update of a logic tree does to three-circle agents, if `arm` restricts the arms of the
forces between agents. The order of the tree is `before`, an integrator, `after`, where nothing else
moves agents and nobody is steered after their adjusting force. Every agent makes one time step and
one turn, with a step size within the bounds of the integrator, under the sum of the contributions of
the nodes before the integrator in the state at the start of the update, with the aims as they are
after the update. If after the integrator `Reset` is followed only by nodes that leave forces alone,
forces and torques are zero after the update. -/
def TurnUpdates (arm : Agent → Agent → Fin 3 → Fin 3 → ℝ × ℝ → ℝ × ℝ → Prop) : Prop :=
  ∀ (n : ℕ) (env : SimEnv n) (kind : ℕ → Node) (root : LTree) (before after : List Node)
    (dtMin dtMax : ℝ), root.postorder.map kind = before ++ .integrator dtMin dtMax :: after →
    (∀ x ∈ before, ¬ Moves x ∧ ¬ Clears x) → AllBefore Steers Adjusts before →
    (∀ x ∈ after, ¬ Moves x ∧ ¬ Steers x) → dtMin ≤ dtMax → ∀ s t : SimState n,
    RegularBody env before s →
    (∀ k, (s.agents.rows k).force = 0 ∧ (s.agents.rows k).torque = 0) →
    simUpdate env kind root s = (.ok (), t) →
    (dtMin ≤ t.data.dt ∧ t.data.dt ≤ dtMax ∧ t.data.timeTot = s.data.timeTot + t.data.dt) ∧
    (∀ k, ∃ es, List.Forall₂ (ContributesBody arm env (aimingBody s t) k) before es ∧
      TimeStep (s.agents.rows k) (t.agents.rows k) es.sum.1 t.data.dt ∧
      TurnStep (s.agents.rows k) (t.agents.rows k) es.sum.2 t.data.dt) ∧
    ((∃ l l', after = l ++ .reset :: l' ∧ ∀ x ∈ l', LeavesForces x) →
      ∀ k, (t.agents.rows k).force = 0 ∧ (t.agents.rows k).torque = 0)

/-- **C123** in full: the forces between agents act at the point of contact. -/
def C123_statement : Prop := TurnUpdates fun a _ => ContactArm a

/-- **C123**, what holds: the same with the arms that the code uses. -/
theorem C123_newton_partial : TurnUpdates CodeArm := by
  intro n env kind root before after dtMin dtMax hn hb hs ha hd s t hr h0 h
  obtain ⟨u, hu, ea, et, ed, -⟩ := simUpdate_spec env kind root s t _ h
  rw [hn] at hu
  have := turn_list env before after dtMin dtMax hb hs ha hd s u hr h0 hu
  unfold aimingBody at this ⊢
  rwa [ea, et, ed]

/-- A tree with pair forces only. -/
def rubbingTree : LTree := .node 0 [.node 1 [.node 2 []]]

/-- The nodes of this tree. -/
noncomputable def rubbingKind : ℕ → Node
  | 0 => .reset
  | 1 => .integrator 0.01 0.02
  | _ => .agentAgent (3.0 + 2 * 0.3)

/-- All hypotheses together. -/
example : rubbingTree.postorder.map rubbingKind =
      [.agentAgent (3.0 + 2 * 0.3)] ++ .integrator 0.01 0.02 :: [.reset] ∧
    RegularBody facingEnv [.agentAgent (3.0 + 2 * 0.3)] rubbingState ∧
    (∀ k, (rubbingState.agents.rows k).force = 0 ∧ (rubbingState.agents.rows k).torque = 0) ∧
    ∃ t, simUpdate facingEnv rubbingKind rubbingTree rubbingState = (.ok (), t) :=
  ⟨rfl, rubbing_regular _ (by simp), fun _ => ⟨rfl, rfl⟩, _, rfl⟩

/-- **C123** fails: the torque on the first of the agents that rub against each other has the wrong
sign or is missing. -/
theorem C123_fails : ¬ C123_statement := by
  intro h
  obtain ⟨t, ht⟩ : ∃ t, simUpdate facingEnv rubbingKind rubbingTree rubbingState = (.ok (), t) :=
    ⟨_, rfl⟩
  have hyp := fun arm (h : TurnUpdates arm) => (h 2 facingEnv rubbingKind rubbingTree
    [.agentAgent (3.0 + 2 * 0.3)] [.reset] 0.01 0.02 rfl (by simp [Moves, Clears])
    (by rw [allBefore_iff]; simp [Steers, Adjusts]) (by simp [Moves, Steers]) (by norm_num)
    rubbingState t (rubbing_regular _ (by simp)) (fun _ => ⟨rfl, rfl⟩) ht).2.1 0
  have key : ∀ arm, TurnUpdates arm → ∃ e, IsBodyEffect (arm (aimingBody rubbingState t 0)
      (aimingBody rubbingState t 1)) (aimingBody rubbingState t 0) (aimingBody rubbingState t 1) e ∧
      (t.agents.rows 0).torquePrev = e.2 := by
    intro arm h
    obtain ⟨es, h1, -, -, -, -, -, -, -, -, h2, -⟩ := hyp arm h
    obtain ⟨e, _, ⟨F, f1, f2⟩, r1, rfl⟩ := List.forall₂_cons_left_iff.1 h1
    cases List.forall₂_nil_left_iff.1 r1
    rw [erase_zero_two, Finset.sum_singleton] at f2
    refine ⟨F 1, ?_, by rw [h2, f2]; simp⟩
    exact f1 1 (by decide)
  obtain ⟨e, h1, h2⟩ := key _ h
  obtain ⟨e', h1', h2'⟩ := key _ C123_newton_partial
  have same : ∀ i, SameTurn (aimingBody rubbingState t i) (rubbing i) := fun i =>
    ⟨⟨by constructor <;> rfl, rfl, rfl, rfl⟩, rfl, rfl, rfl, rfl, rfl⟩
  have h3 := rubbing_contact_torque (contactEffect_congr (same 0) (same 1) h1)
  rw [← h2, h2'] at h3
  rcases rubbing_code_torque (bodyEffect_congr (same 0) (same 1) h1') with h | h <;> rw [h] at h3 <;> norm_num at h3

/-- **C123**, what holds in the shipped simulations: in all of them except `TestMovement` (number 11,
see C97), with three-circle agents that fit into circles of radius 0.3, one completed update moves and
turns every agent by a time step of 0.01 under the sum of bounded random forces and torques, the
adjusting ones, the effects of all other agents, and, if the simulation has the node for obstacles,
the effects of the walls of the field; no forces and torques are left. The forces between agents have
the arms that the code uses. -/
theorem C123_shipped_newton_partial (env : SimEnv n) (ratioObs width : ℝ)
    (hf : env.field.domain ≠ none) (hw : 1 ≤ (1 - ratioObs) * width) (k : ℕ) (e : LogicExpr)
    (he : (shippedLogic ratioObs width env.field)[k]? = some e) (hk : k ≠ 11) (s t : SimState n)
    (hr : RegularBody env [.agentAgent (3.0 + 2 * 0.3)] s)
    (h0 : ∀ i, (s.agents.rows i).force = 0 ∧ (s.agents.rows i).torque = 0)
    (h : e.update env s = (.ok (), t)) :
    ∃ order, e.order = .ok order ∧ TurnsByNewton CodeArm env order s t := by
  obtain ⟨d, hd⟩ := Option.ne_none_iff_exists'.1 hf
  obtain ⟨ring, holes⟩ := d
  have hlt : k < 13 := by
    have := (List.getElem?_eq_some_iff.1 he).1
    simpa [shippedLogic] using this
  interval_cases k
  all_goals
    simp only [shippedLogic, List.getElem?_cons_zero, List.getElem?_cons_succ,
      Option.some.injEq] at he
    subst he
  · exact shipped_turn env _ s t hr h0 h [.fluctuation, .orientation, .adjusting,
      .agentAgent (3.0 + 2 * 0.3)]
      false order_walk sensible_walk (by simp [Moves, Clears]) (by simp) (by simp)
      rfl
  · exact shipped_turn env _ s t hr h0 h [.insideDomain ring, .fluctuation, .navigation 0.1 0.5 0.3,
      .orientation, .adjusting, .agentAgent (3.0 + 2 * 0.3), .agentObstacle]
      true (order_navigation hd) (sensible_navigation ring) (by simp [Moves, Clears]) (by simp) (by simp)
      rfl
  · exact shipped_turn env _ s t hr h0 h [.insideDomain ring, .fluctuation, .navigation 0.1 0.5 0.3,
      .orientation, .adjusting, .agentAgent (3.0 + 2 * 0.3), .agentObstacle]
      true (order_navigation hd) (sensible_navigation ring) (by simp [Moves, Clears]) (by simp) (by simp)
      rfl
  · exact shipped_turn env _ s t hr h0 h [.insideDomain ring, .fluctuation, .navigation 0.1 0.5 0.3,
      .orientation, .adjusting, .agentAgent (3.0 + 2 * 0.3), .agentObstacle]
      true (order_navigation hd) (sensible_navigation ring) (by simp [Moves, Clears]) (by simp) (by simp)
      rfl
  · exact shipped_turn env _ s t hr h0 h [.fluctuation, .herding 10.0 5, .orientation, .adjusting,
      .agentAgent (3.0 + 2 * 0.3)]
      false order_herding sensible_herding (by simp [Moves, Clears]) (by simp) (by simp)
      rfl
  · exact shipped_turn env _ s t hr h0 h [.insideDomain ring, .fluctuation, .herding 10.0 5,
      .navigation 0.1 0.5 0.3, .orientation, .adjusting, .agentAgent (3.0 + 2 * 0.3), .agentObstacle]
      true (order_rounding hd) (sensible_rounding ring) (by simp [Moves, Clears]) (by simp) (by simp)
      rfl
  · exact shipped_turn env _ s t hr h0 h [.insideDomain ring, .fluctuation,
      .exitDetection ((1 - ratioObs) * width), .herding 10.0 5, .navigation 0.1 0.5 0.3,
      .orientation, .adjusting, .agentAgent (3.0 + 2 * 0.3), .agentObstacle]
      true (order_avoid hd hw) (sensible_avoid ring _) (by simp [Moves, Clears]) (by simp) (by simp)
      rfl
  · exact shipped_turn env _ s t hr h0 h [.fluctuation, .herding 10.0 5, .orientation, .adjusting,
      .agentAgent (3.0 + 2 * 0.3), .agentObstacle]
      true order_closed sensible_closed (by simp [Moves, Clears]) (by simp) (by simp)
      rfl
  · exact shipped_turn env _ s t hr h0 h [.fluctuation, .herding 10.0 5, .orientation, .adjusting,
      .agentAgent (3.0 + 2 * 0.3), .agentObstacle]
      true order_closed sensible_closed (by simp [Moves, Clears]) (by simp) (by simp)
      rfl
  · exact shipped_turn env _ s t hr h0 h [.insideDomain ring, .fluctuation, .exitDetection 20.0,
      .leaderFollower 20.0, .navigation 0.1 0.5 0.3, .orientation, .adjusting,
      .agentAgent (3.0 + 2 * 0.3), .agentObstacle]
      true (order_fourExits hd) (sensible_fourExits ring) (by simp [Moves, Clears]) (by simp) (by simp)
      rfl
  · exact shipped_turn env _ s t hr h0 h [.insideDomain ring, .fluctuation, .exitDetection 20.0,
      .leaderFollower 20.0, .navigation 0.1 0.5 0.3, .orientation, .adjusting,
      .agentAgent (3.0 + 2 * 0.3), .agentObstacle]
      true (order_fourExits hd) (sensible_fourExits ring) (by simp [Moves, Clears]) (by simp) (by simp)
      rfl
  · exact absurd rfl hk
  · exact shipped_turn env _ s t hr h0 h [.fluctuation, .orientation, .adjusting,
      .agentAgent (3.0 + 2 * 0.3)]
      false order_walk sensible_walk (by simp [Moves, Clears]) (by simp) (by simp)
      rfl

/-- The hypotheses are met by the two agents above in the simulation `Outdoor`. -/
example : facingEnv.field.domain ≠ none ∧ (1 : ℝ) ≤ (1 - 0.6) * 10 ∧
    (shippedLogic 0.6 10 facingEnv.field)[0]? = some walkLogic ∧
    RegularBody facingEnv [.agentAgent (3.0 + 2 * 0.3)] rubbingState ∧
    (∀ i, (rubbingState.agents.rows i).force = 0 ∧ (rubbingState.agents.rows i).torque = 0) ∧
    ∃ t, walkLogic.update facingEnv rubbingState = (.ok (), t) :=
  ⟨by simp [SimEnv.field, facingEnv], by norm_num, rfl, rubbing_regular _ (by simp),
    fun _ => ⟨rfl, rfl⟩, walk_total _ _⟩

end CrowdDynamics
