import Verif.Proofs.StandoffCases

/-!
# The tests of the test simulations: C196
-/

namespace CrowdDynamics

open Spec

/-- **C196** (full statement): both tests in `test_validation.py` pass for both types of agents, whatever
random numbers are drawn. -/
def C196_statement : Prop :=
  (∀ (z : ℕ → ℝ → ℝ → ℝ) (kind : Kind) (st : AgentsState) (env : SimEnv 1) (s : SimState 1),
    movementAgents z kind = some st → NewSimulation kind st.array s →
    runTest (testMovementLogic.update env) 10.0 s) ∧
  ∀ (z : ℕ → ℝ → ℝ → ℝ) (kind : Kind) (st : AgentsState) (env : SimEnv 2) (s : SimState 2),
    OpenField env → interactionAgents z kind = some st → NewSimulation kind st.array s →
    runTest (walkLogic.update env) 8.0 s

/-- **C196**, what holds (1): `test_movement` passes for both types of agents; the agent has walked
exactly the expected ten metres. -/
theorem C196_movement_partial (z : ℕ → ℝ → ℝ → ℝ) (kind : Kind) (st : AgentsState) (env : SimEnv 1)
    (s : SimState 1) (hst : movementAgents z kind = some st) (hs : NewSimulation kind st.array s) :
    runTest (testMovementLogic.update env) 10.0 s ∧
    ∀ fuel r t, simRun (testMovementLogic.update env) (some thousandIterations) fuel 0 s = some (r, t) →
      Spec.dist (t.agents.rows 0).position (s.agents.rows 0).position = 10 := by
  have hok : ∀ k, ∃ t, AfterUpdates (testMovementLogic.update env) k s t := by
    intro k
    induction k with
    | zero => exact ⟨s, .zero _⟩
    | succ k ih =>
      obtain ⟨t, ht⟩ := ih
      obtain ⟨u, hu⟩ := testMovement_total env t
      exact ⟨u, .succ ht hu⟩
  have hk := hs.kind
  subst hk
  have hrow : [s.agents.rows 0] = st.array := by rw [← hs.rows]; simp [List.ofFn_succ]
  have p0 := (C140_walk z st env s s hst hrow 0 (.zero _)).position
  have hd : ∀ t, AfterUpdates (testMovementLogic.update env) 1000 s t →
      Spec.dist (t.agents.rows 0).position (s.agents.rows 0).position = 10 := by
    intro t ht
    rw [(C140_walk z st env s t hst hrow 1000 ht).position, p0]
    unfold Spec.dist
    rw [Prod.mk_sub_mk, sub_zero, len_axis]
    norm_num
  obtain ⟨t, ht⟩ := hok 1000
  refine ⟨⟨1001, t, ?_, .inl ?_⟩, fun fuel r t h =>
    hd t (run_thousand_unique order_testMovement hs.iterations hok fuel h)⟩
  · rw [run_thousand order_testMovement hs.iterations hok 1001 (by norm_num), afterUpdates_iterate ht]
  · have := hd t ht
    change (10.0 : ℝ) ≤ Spec.dist (t.agents.rows 0).position (s.agents.rows 0).position
    rw [this]
    norm_num

/-- **C196**, what holds (2): the run of `test_agent_interaction` ends after exactly 1000 updates without
an exception, for both types of agents and in every world. What is missing: the assertion about the
distance, which can fail. -/
theorem C196_ends_partial (env : SimEnv 2) (s : SimState 2) (hi : s.data.iterations = 0) :
    (∃ fuel t, simRun (walkLogic.update env) (some thousandIterations) fuel 0 s = some (.ok (), t)) ∧
    ∀ fuel r t, simRun (walkLogic.update env) (some thousandIterations) fuel 0 s = some (r, t) →
      r = .ok () ∧ AfterUpdates (walkLogic.update env) 1000 s t := by
  have h0 := run_thousand order_walk (env := env) hi (walk_updates env s)
  refine ⟨⟨1001, _, h0 1001 (by norm_num)⟩, fun fuel r t h => ⟨?_, run_thousand_unique order_walk hi
    (walk_updates env s) fuel h⟩⟩
  obtain ⟨m, states, -, hr⟩ := simRun_spec _ _ fuel 0 s t r h
  rcases hr with ⟨hr, -⟩ | ⟨e, -, -, he⟩
  · exact hr
  · obtain ⟨u, hu⟩ := walk_total env (states m)
    rw [hu] at he
    cases he

/-- **C196** A head-on encounter of circular agents ends in a standoff: if the random forces push both
agents along the line, equally strongly and towards opposite sides, then after any number of updates the
first agent is still on its own side, at most 2.9 metres behind its start and 2.305 metres ahead of it, and
the other one is on the other side. They never pass each other. -/
theorem C196_standoff (z : ℕ → ℝ → ℝ → ℝ) (st : AgentsState) (env : SimEnv 2) (s : SimState 2)
    (hst : interactionAgents z .circular = some st) (hs : NewSimulation .circular st.array s)
    (hw : OpenField env) (hd : OppositeDraws env) (N : ℕ) (t : SimState 2)
    (h : AfterUpdates (walkLogic.update env) N s t) :
    -2.9 ≤ (t.agents.rows 0).position.1 ∧ (t.agents.rows 0).position.1 ≤ 2.305 ∧
      2.695 ≤ (t.agents.rows 1).position.1 ∧ (t.agents.rows 1).position.1 ≤ 7.9 ∧
      ∀ i, (t.agents.rows i).position.2 = 0 := by
  have hrow : [s.agents.rows 0, s.agents.rows 1] = st.array := by
    rw [← hs.rows]; simp [List.ofFn_succ]
  obtain ⟨y0, h5, -⟩ := C141_symmetric z st hst env hw.obstacles hw.cells hd.strength hd.line hd.sides s
    t hs.kind hrow N h
  obtain ⟨P, R, hS, -⟩ := standoff hst hs hw hd N t h
  have e1 := hS.overlap
  have e2 := hS.near
  have e3 := hS.fast
  have e4 := hS.back'
  exact ⟨by linarith, by linarith, by linarith, by linarith, y0⟩

/-- **C196** So `test_agent_interaction` fails for circular agents whenever the random forces are like
this. -/
theorem C196_interaction_fails (z : ℕ → ℝ → ℝ → ℝ) (st : AgentsState) (env : SimEnv 2) (s : SimState 2)
    (hst : interactionAgents z .circular = some st) (hs : NewSimulation .circular st.array s)
    (hw : OpenField env) (hd : OppositeDraws env) : ¬ runTest (walkLogic.update env) 8.0 s := by
  rintro ⟨fuel, t, h1, h2⟩
  have h := ((C196_ends_partial env s hs.iterations).2 fuel _ t h1).2
  obtain ⟨a1, a2, -, -, a3⟩ := C196_standoff z st env s hst hs hw hd 1000 t h
  have r0 := (interaction_rows hst hs).1
  have hl : length ((t.agents.rows 0).position - (s.agents.rows 0).position) ≤ 3 := by
    change len _ ≤ 3
    have e : (t.agents.rows 0).position - (s.agents.rows 0).position =
        ((t.agents.rows 0).position.1, 0) := by
      rw [r0]
      exact Prod.ext (by simp [walkerRow]) (by simp [walkerRow, a3])
    rw [e, len_axis, abs_le]
    constructor <;> linarith
  rcases h2 with h2 | h2
  · norm_num at h2
    linarith
  · unfold npIsclose at h2
    have := (abs_le.1 h2).1
    norm_num at this
    linarith

/-- **C196** is false. -/
theorem C196_fails : ¬ C196_statement := by
  intro h
  obtain ⟨st, a, b, h1, h2, h3, -⟩ := C141_start (fun _ _ _ => 0) .circular
  have hs : NewSimulation .circular st.array (demoState ![a, b]) :=
    ⟨rfl, by rw [h3]; simp [demoState, List.ofFn_succ], rfl⟩
  exact C196_interaction_fails _ st pushedEnv _ h1 hs pushed_world.1 pushed_world.2
    (h.2 _ _ st pushedEnv _ pushed_world.1 h1 hs)

/-- The hypotheses of `C196_standoff` and `C196_interaction_fails` can be met. -/
example : ∃ (st : AgentsState) (s t : SimState 2),
    interactionAgents (fun _ _ _ => 0) .circular = some st ∧ NewSimulation .circular st.array s ∧
    OpenField pushedEnv ∧ OppositeDraws pushedEnv ∧
    AfterUpdates (walkLogic.update pushedEnv) 100000 s t ∧ (t.agents.rows 0).position.1 ≤ 2.305 := by
  obtain ⟨st, a, b, h1, h2, h3, -⟩ := C141_start (fun _ _ _ => 0) .circular
  have hs : NewSimulation .circular st.array (demoState ![a, b]) :=
    ⟨rfl, by rw [h3]; simp [demoState, List.ofFn_succ], rfl⟩
  obtain ⟨t, ht⟩ := walk_updates pushedEnv (demoState ![a, b]) 100000
  exact ⟨st, _, t, h1, hs, pushed_world.1, pushed_world.2, ht,
    (C196_standoff _ st _ _ h1 hs pushed_world.1 pushed_world.2 _ t ht).2.1⟩

/-- A run of three-circle agents ends, too. -/
example (rows : Crowd 2) : ∃ (s : SimState 2), s.agents.dtype.kind = .threeCircle ∧
    s.data.iterations = 0 ∧ ∃ fuel t, simRun (walkLogic.update pushedEnv) (some thousandIterations) fuel 0
      s = some (.ok (), t) :=
  ⟨{ demoState rows with agents := ⟨.fresh .threeCircle 0, rows⟩ }, rfl, rfl,
    (C196_ends_partial pushedEnv _ rfl).1⟩

/-- `test_movement` with a three-circle agent passes. -/
example : ∃ (st : AgentsState) (s : SimState 1),
    movementAgents (fun _ _ _ => 0) .threeCircle = some st ∧ NewSimulation .threeCircle st.array s ∧
    runTest (testMovementLogic.update (demoEnv 1)) 10.0 s := by
  obtain ⟨st, a, h1, h2, h3, h4⟩ := C140_start (fun _ _ _ => 0) .threeCircle
  have hs : NewSimulation (n := 1) .threeCircle st.array
      { demoState (n := 1) (fun _ => a) with agents := ⟨.fresh .threeCircle 0, fun _ => a⟩ } :=
    ⟨rfl, by rw [h3]; simp [List.ofFn_succ], rfl⟩
  exact ⟨st, _, h1, hs, (C196_movement_partial _ _ st (demoEnv 1) _ h1 hs).1⟩

end CrowdDynamics
