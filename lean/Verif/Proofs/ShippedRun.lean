import Verif.Proofs.ShippedLogic
import Verif.Proofs.Simulation

/-!
# Helper lemmas: orders and updates of the shipped simulations
-/

namespace CrowdDynamics

open Spec

variable {f : Field} {ring : List Vec} {holes : List (List Vec)}

theorem possible_plain (node : Node) : Possible (.new (.plain node)) := .new (.plain node)

theorem possible_inside (hd : f.domain = some (ring, holes)) : Possible (callInsideDomain f) :=
  .new (.insideDomain f ring holes hd)

theorem possible_exit {r : ℝ} (h : 1 ≤ r) : Possible (.new (.exitDetection r)) :=
  .new (.exitDetection r h)

theorem possible_walk : Possible walkLogic :=
  .shift (possible_plain _) (.cons (.shift (possible_plain _) (.cons (possible_plain _)
    (.cons (.shift (possible_plain _) (.cons (possible_plain _) .nil))
      (.cons (possible_plain _) .nil)))) .nil)

theorem possible_herding : Possible herdingLogic :=
  .shift (possible_plain _) (.cons (.shift (possible_plain _) (.cons (possible_plain _)
    (.cons (.shift (possible_plain _) (.cons (possible_plain _) (.cons (possible_plain _) .nil)))
      (.cons (possible_plain _) .nil)))) .nil)

theorem possible_closed : Possible closedRoomLogic :=
  .shift (possible_plain _) (.cons (.shift (possible_plain _) (.cons (possible_plain _)
    (.cons (.shift (possible_plain _) (.cons (possible_plain _) (.cons (possible_plain _) .nil)))
      (.cons (possible_plain _) (.cons (possible_plain _) .nil))))) .nil)

theorem possible_navigation (hd : f.domain = some (ring, holes)) : Possible (navigationLogic f) :=
  .shift (.shift (possible_plain _) (.cons (possible_inside hd) .nil))
    (.cons (.shift (possible_plain _) (.cons (possible_plain _)
    (.cons (.shift (possible_plain _) (.cons (possible_plain _) (.cons (possible_plain _) .nil)))
      (.cons (possible_plain _) (.cons (possible_plain _) .nil))))) .nil)

theorem possible_rounding (hd : f.domain = some (ring, holes)) : Possible (roundingLogic f) :=
  .shift (.shift (possible_plain _) (.cons (possible_inside hd) .nil))
    (.cons (.shift (possible_plain _) (.cons (possible_plain _)
    (.cons (.shift (possible_plain _) (.cons (.shift (possible_plain _)
      (.cons (possible_plain _) .nil)) (.cons (possible_plain _) .nil)))
      (.cons (possible_plain _) (.cons (possible_plain _) .nil))))) .nil)

theorem possible_avoid {ratioObs width : ℝ} (hd : f.domain = some (ring, holes))
    (hr : 1 ≤ (1 - ratioObs) * width) : Possible (avoidObstacleLogic ratioObs width f) :=
  .shift (.shift (possible_plain _) (.cons (possible_inside hd) .nil))
    (.cons (.shift (possible_plain _) (.cons (possible_plain _)
    (.cons (.shift (possible_plain _) (.cons (.shift (.shift (possible_plain _)
      (.cons (possible_exit hr) .nil)) (.cons (possible_plain _) .nil))
      (.cons (possible_plain _) .nil)))
      (.cons (possible_plain _) (.cons (possible_plain _) .nil))))) .nil)

theorem possible_fourExits (hd : f.domain = some (ring, holes)) : Possible (fourExitsLogic f) :=
  .shift (.shift (possible_plain _) (.cons (possible_inside hd) .nil))
    (.cons (.shift (possible_plain _) (.cons (possible_plain _)
    (.cons (.shift (possible_plain _) (.cons (.shift (.shift (possible_plain _)
      (.cons (possible_exit (by norm_num)) .nil)) (.cons (possible_plain _) .nil))
      (.cons (possible_plain _) .nil)))
      (.cons (possible_plain _) (.cons (possible_plain _) .nil))))) .nil)

theorem possible_testMovement : Possible testMovementLogic :=
  .shift (.shift (.shift (possible_plain _) (.cons (possible_plain _) .nil))
    (.cons (possible_plain _) .nil)) (.cons (possible_plain _) .nil)

/-- Evaluating the list of calls of a concrete expression. -/
macro "list_calls" : tactic => `(tactic| simp only [belowCalls, callsAll, rootCall, callReset,
  callIntegrator, callFluctuation, callAdjusting, callAgentAgent, callAgentObstacle, callNavigation,
  callLeaderFollower, callHerding, callExitDetection, callOrientation, callInsideDomain, walkLogic,
  navigationLogic, herdingLogic, roundingLogic, avoidObstacleLogic, closedRoomLogic, fourExitsLogic,
  testMovementLogic, List.nil_append, List.append_nil, List.cons_append])

theorem order_walk : walkLogic.order = .ok [.fluctuation, .orientation, .adjusting,
    .agentAgent (3.0 + 2 * 0.3), .integrator 0.01 0.01, .reset] := by
  refine order_eq possible_walk ?_
  list_calls
  repeat' first | exact .nil | refine .cons (.plain _) ?_

theorem order_herding : herdingLogic.order = .ok [.fluctuation, .herding 10.0 5, .orientation,
    .adjusting, .agentAgent (3.0 + 2 * 0.3), .integrator 0.01 0.01, .reset] := by
  refine order_eq possible_herding ?_
  list_calls
  repeat' first | exact .nil | refine .cons (.plain _) ?_

theorem order_closed : closedRoomLogic.order = .ok [.fluctuation, .herding 10.0 5, .orientation,
    .adjusting, .agentAgent (3.0 + 2 * 0.3), .agentObstacle, .integrator 0.01 0.01, .reset] := by
  refine order_eq possible_closed ?_
  list_calls
  repeat' first | exact .nil | refine .cons (.plain _) ?_

theorem order_navigation (hd : f.domain = some (ring, holes)) :
    (navigationLogic f).order = .ok [.insideDomain ring, .fluctuation, .navigation 0.1 0.5 0.3,
      .orientation, .adjusting, .agentAgent (3.0 + 2 * 0.3), .agentObstacle,
      .integrator 0.01 0.01, .reset] := by
  refine order_eq (possible_navigation hd) ?_
  list_calls
  refine .cons (.insideDomain _ _ _ hd) ?_
  repeat' first | exact .nil | refine .cons (.plain _) ?_

theorem order_rounding (hd : f.domain = some (ring, holes)) :
    (roundingLogic f).order = .ok [.insideDomain ring, .fluctuation, .herding 10.0 5,
      .navigation 0.1 0.5 0.3, .orientation, .adjusting, .agentAgent (3.0 + 2 * 0.3),
      .agentObstacle, .integrator 0.01 0.01, .reset] := by
  refine order_eq (possible_rounding hd) ?_
  list_calls
  refine .cons (.insideDomain _ _ _ hd) ?_
  repeat' first | exact .nil | refine .cons (.plain _) ?_

theorem order_avoid {ratioObs width : ℝ} (hd : f.domain = some (ring, holes))
    (hr : 1 ≤ (1 - ratioObs) * width) :
    (avoidObstacleLogic ratioObs width f).order = .ok [.insideDomain ring, .fluctuation,
      .exitDetection ((1 - ratioObs) * width), .herding 10.0 5,
      .navigation 0.1 0.5 0.3, .orientation, .adjusting, .agentAgent (3.0 + 2 * 0.3),
      .agentObstacle, .integrator 0.01 0.01, .reset] := by
  refine order_eq (possible_avoid hd hr) ?_
  list_calls
  refine .cons (.insideDomain _ _ _ hd) ?_
  repeat' first | exact .nil | refine .cons (.plain _) ?_ | refine .cons (.exitDetection _ hr) ?_

theorem order_fourExits (hd : f.domain = some (ring, holes)) :
    (fourExitsLogic f).order = .ok [.insideDomain ring, .fluctuation,
      .exitDetection 20.0, .leaderFollower 20.0,
      .navigation 0.1 0.5 0.3, .orientation, .adjusting, .agentAgent (3.0 + 2 * 0.3),
      .agentObstacle, .integrator 0.01 0.01, .reset] := by
  refine order_eq (possible_fourExits hd) ?_
  list_calls
  refine .cons (.insideDomain _ _ _ hd) ?_
  repeat' first | exact .nil | refine .cons (.plain _) ?_ |
    refine .cons (.exitDetection _ (by norm_num)) ?_

theorem order_testMovement : testMovementLogic.order = .ok [.integrator 0.01 0.01, .adjusting,
    .orientation, .reset] := by
  refine order_eq possible_testMovement ?_
  list_calls
  repeat' first | exact .nil | refine .cons (.plain _) ?_

/-- Checking a concrete order. -/
macro "check_order" : tactic => `(tactic|
  constructor <;> simp [allBefore_iff, Steers, Adjusts, AddsForces, Moves, Clears])

theorem sensible_walk : SensibleOrder [.fluctuation, .orientation, .adjusting,
    .agentAgent (3.0 + 2 * 0.3), .integrator 0.01 0.01, .reset] := by check_order

theorem sensible_herding : SensibleOrder [.fluctuation, .herding 10.0 5, .orientation,
    .adjusting, .agentAgent (3.0 + 2 * 0.3), .integrator 0.01 0.01, .reset] := by check_order

theorem sensible_closed : SensibleOrder [.fluctuation, .herding 10.0 5, .orientation,
    .adjusting, .agentAgent (3.0 + 2 * 0.3), .agentObstacle, .integrator 0.01 0.01, .reset] := by
  check_order

theorem sensible_navigation (ring : List Vec) : SensibleOrder [.insideDomain ring, .fluctuation,
    .navigation 0.1 0.5 0.3, .orientation, .adjusting, .agentAgent (3.0 + 2 * 0.3), .agentObstacle,
    .integrator 0.01 0.01, .reset] := by check_order

theorem sensible_rounding (ring : List Vec) : SensibleOrder [.insideDomain ring, .fluctuation,
    .herding 10.0 5, .navigation 0.1 0.5 0.3, .orientation, .adjusting,
    .agentAgent (3.0 + 2 * 0.3), .agentObstacle, .integrator 0.01 0.01, .reset] := by check_order

theorem sensible_avoid (ring : List Vec) (r : ℝ) : SensibleOrder [.insideDomain ring, .fluctuation,
    .exitDetection r, .herding 10.0 5, .navigation 0.1 0.5 0.3, .orientation, .adjusting,
    .agentAgent (3.0 + 2 * 0.3), .agentObstacle, .integrator 0.01 0.01, .reset] := by check_order

theorem sensible_fourExits (ring : List Vec) : SensibleOrder [.insideDomain ring, .fluctuation,
    .exitDetection 20.0, .leaderFollower 20.0, .navigation 0.1 0.5 0.3, .orientation, .adjusting,
    .agentAgent (3.0 + 2 * 0.3), .agentObstacle, .integrator 0.01 0.01, .reset] := by check_order

variable {n : ℕ}

/-- An update runs the nodes in their order. -/
theorem update_of_order {e : LogicExpr} {nodes : List Node} (ho : e.order = .ok nodes)
    (env : SimEnv n) (s : SimState n) : e.update env s = match updateNodes env nodes s with
      | (.error err, s) => (.error err, s)
      | (.ok (), s) =>
        (.ok (), { s with data := { s.data with iterations := s.data.iterations + 1 } }) := by
  unfold LogicExpr.order at ho
  unfold LogicExpr.update
  obtain ⟨b, hb⟩ : ∃ b, e.build = b := ⟨_, rfl⟩
  rw [hb] at ho ⊢
  obtain ⟨r, st⟩ := b
  cases r with
  | error err => cases ho
  | ok o =>
    cases o with
    | none => cases ho
    | some root =>
      cases ho
      rfl

theorem update_order {e : LogicExpr} {nodes : List Node} (ho : e.order = .ok nodes)
    (env : SimEnv n) (s t : SimState n) (r : Except PyErr Unit) (h : e.update env s = (r, t)) :
    ∃ u, updateNodes env nodes s = (r, u) ∧ t.agents = u.agents := by
  rw [update_of_order ho] at h
  obtain ⟨q, u, hu⟩ : ∃ q u, updateNodes env nodes s = (q, u) := ⟨_, _, rfl⟩
  rw [hu] at h ⊢
  cases q <;> cases h <;> exact ⟨_, rfl, rfl⟩

theorem nodes_active (env : SimEnv n) (nodes : List Node) (hn : ∀ x ∈ nodes, ¬ IsInsideDomain x) :
    ∀ (s s' : SimState n) (r : Except PyErr Unit), updateNodes env nodes s = (r, s') →
    ∀ i, (s'.agents.rows i).active = (s.agents.rows i).active := by
  induction nodes with
  | nil => intro s s' r h i; cases h; rfl
  | cons x xs ih =>
    intro s s' r h i
    obtain ⟨q, t, hq⟩ : ∃ q t, x.update env s = (q, t) := ⟨_, _, rfl⟩
    have hf := (update_frame env x s t q hq).1 (hn x List.mem_cons_self)
    rw [updateNodes, hq] at h
    cases q with
    | error e => cases h; exact hf.active i
    | ok u =>
      exact (ih (fun y hy => hn y (List.mem_cons_of_mem _ hy)) t s' r h i).trans (hf.active i)

theorem timestep_const (a : Crowd n) (d : ℝ) : adaptiveTimestep a d d = d := by
  have := timestep_bounds a (le_refl d)
  exact le_antisymm this.2 this.1

theorem kind_cases (d : DtypeObj) : d.kind = .circular ∨ d.kind = .threeCircle := by
  cases d.kind
  · exact .inl rfl
  · exact .inr rfl

theorem agentAgent_total (env : SimEnv n) (c : ℝ) (s : SimState n) :
    ∃ t, (Node.agentAgent c).update env s = (.ok (), t) := by
  simp only [Node.update, agentAgentBlockList, isModel]
  rcases kind_cases s.agents.dtype with h | h <;> simp [h]

theorem walk_total (env : SimEnv n) (s : SimState n) : ∃ t, walkLogic.update env s = (.ok (), t) := by
  rw [update_of_order order_walk]
  simp only [updateNodes]
  have e1 : ∀ s : SimState n, ∃ t, Node.fluctuation.update env s = (.ok (), t) := fun _ => ⟨_, rfl⟩
  have e2 : ∀ s : SimState n, ∃ t, Node.orientation.update env s = (.ok (), t) := fun _ => ⟨_, rfl⟩
  have e3 : ∀ s : SimState n, ∃ t, Node.adjusting.update env s = (.ok (), t) := fun _ => ⟨_, rfl⟩
  have e5 : ∀ s : SimState n, ∃ t, (Node.integrator 0.01 0.01).update env s = (.ok (), t) :=
    fun _ => ⟨_, rfl⟩
  have e6 : ∀ s : SimState n, ∃ t, Node.reset.update env s = (.ok (), t) := fun _ => ⟨_, rfl⟩
  obtain ⟨s1, h1⟩ := e1 s
  obtain ⟨s2, h2⟩ := e2 s1
  obtain ⟨s3, h3⟩ := e3 s2
  obtain ⟨s4, h4⟩ := agentAgent_total env (3.0 + 2 * 0.3) s3
  obtain ⟨s5, h5⟩ := e5 s4
  obtain ⟨s6, h6⟩ := e6 s5
  simp only [h1, h2, h3, h4, h5, h6]
  exact ⟨_, rfl⟩

theorem testMovement_total (env : SimEnv n) (s : SimState n) :
    ∃ t, testMovementLogic.update env s = (.ok (), t) := by
  rw [update_of_order order_testMovement]
  exact ⟨_, rfl⟩

/-- One update of `TestMovement` without forces: everyone moves on. -/
theorem testMovement_step (env : SimEnv n) (s t : SimState n) (h0 : NoForces s)
    (h : testMovementLogic.update env s = (.ok (), t)) :
    NoForces t ∧ ∀ i, (t.agents.rows i).velocity = (s.agents.rows i).velocity ∧
      (t.agents.rows i).angularVelocity = (s.agents.rows i).angularVelocity ∧
      (t.agents.rows i).position =
        (s.agents.rows i).position + (0.01 : ℝ) • (s.agents.rows i).velocity := by
  obtain ⟨u, hu, ea⟩ := update_order order_testMovement env s t _ h
  have eu : u.agents = resetUpdate (orientationUpdate (adjusting
      (integratorUpdate 0.01 0.01 s).agents)) := by
    cases hu
    rfl
  unfold NoForces
  rw [ea, eu]
  have hdt := timestep_const s.agents.rows 0.01
  have hz : ∀ i, (s.agents.rows i).force = 0 ∧ (s.agents.rows i).forcePrev = 0 := fun i =>
    ⟨(h0 i).1, (h0 i).2.1⟩
  rcases kind_cases s.agents.dtype with hk | hk
  · have hk' : isModel s.agents .threeCircle = false := by simp [isModel, hk]
    constructor
    · intro i
      simp [resetUpdate, orientationUpdate, adjusting, integratorUpdate, velocityVerletIntegrator,
        isModel, hk, translationalVerlet, translationalVerletRow, forceAdjustAgents, hz i]
      rfl
    · intro i
      simp [resetUpdate, orientationUpdate, adjusting, integratorUpdate, velocityVerletIntegrator,
        isModel, hk, translationalVerlet, translationalVerletRow, forceAdjustAgents, hz i, hdt]
  · have ht : ∀ i, (s.agents.rows i).torque = 0 ∧ (s.agents.rows i).torquePrev = 0 := fun i =>
      (h0 i).2.2 hk
    constructor
    · intro i
      simp [resetUpdate, orientationUpdate, adjusting, integratorUpdate, velocityVerletIntegrator,
        isModel, hk, translationalVerlet, translationalVerletRow, forceAdjustAgents, hz i, ht i,
        torqueAdjustAgents, orientTowardsTargetDirection, rotationalVerlet, rotationalVerletRow,
        shoulders, shouldersRow]
      rfl
    · intro i
      simp [resetUpdate, orientationUpdate, adjusting, integratorUpdate, velocityVerletIntegrator,
        isModel, hk, translationalVerlet, translationalVerletRow, forceAdjustAgents, hz i, ht i,
        torqueAdjustAgents, orientTowardsTargetDirection, rotationalVerlet, rotationalVerletRow,
        shoulders, shouldersRow, hdt]

end CrowdDynamics
