import Verif.Proofs.ShippedLogicCases
import Verif.Proofs.ShippedLogic
import Verif.Proofs.ShippedRun
import Verif.Props.Simulation
import Mathlib.Tactic.IntervalCases

/-!
# Properties C94-C98: the logic of the shipped simulations
-/

namespace CrowdDynamics

open Spec

/-! ## C94: what an expression with `<<` builds -/

/-- **C94** Evaluating any expression made of constructors and `<<` in a new simulation raises nothing
if its constructors do not, and builds exactly one tree: that of the left operand with the trees
of the right operand as further children of its root. No node is used twice, so every node of the
expression is in the tree once. -/
theorem C94_tree (e : LogicExpr) (hp : Possible e) :
    ∃ t nodes data, e.build = (.ok (some t), ⟨nodes, [t], data⟩) ∧
      Stands (fun i => nodes[i]?) e t ∧ Distinct [t] :=
  build_spec e hp

example := C94_tree (fourExitsLogic unitField) (possible_fourExits rfl)

/-- **C94** The operator associates to the left, so `a << b << c` runs `b` before `c`, and a chain of
dependencies needs parentheses: `a << (b << c)` runs `c` before `b`. -/
theorem C94_chain (a b c : NodeCall) (x y z : Node) (ha : Makes a x) (hb : Makes b y)
    (hc : Makes c z) :
    (LogicExpr.shift (.shift (.new a) [.new b]) [.new c]).order = .ok [y, z, x] ∧
    (LogicExpr.shift (.new a) [.shift (.new b) [.new c]]).order = .ok [z, y, x] := by
  constructor
  · refine order_eq (.shift (.shift (.new ha) (.cons (.new hb) .nil)) (.cons (.new hc) .nil)) ?_
    simp [belowCalls, callsAll, rootCall, ha, hb, hc]
  · refine order_eq (.shift (.new ha) (.cons (.shift (.new hb) (.cons (.new hc) .nil)) .nil)) ?_
    simp [belowCalls, callsAll, rootCall, ha, hb, hc]

/-- **C94** Building a logic is no part of a simulation: whatever the expression and whether or not a
constructor raises, the counters of iterations and of time and the last step are zero afterwards. -/
theorem C94_counters (e : LogicExpr) :
    e.build.2.data.iterations = 0 ∧ e.build.2.data.timeTot = 0 ∧ e.build.2.data.dt = 0 := by
  have h := eval_counters e ⟨[], [], newData⟩
  have : e.build.2 = (e.eval ⟨[], [], newData⟩).2 := by
    unfold LogicExpr.build
    split <;> simp [*]
  rw [this]
  exact h

/-- The shipped expressions are possible in a field with a domain. -/
example : Possible (fourExitsLogic unitField) ∧ Possible testMovementLogic :=
  ⟨possible_fourExits rfl, possible_testMovement⟩

/-! ## C95: sensible orders -/

/-- C95, full statement: every shipped simulation (whose constructors raise nothing) updates its nodes
in a sensible order. -/
def C95_statement : Prop :=
  ∀ (ratioObs width : ℝ) (f : Field), f.domain ≠ none → 1 ≤ (1 - ratioObs) * width →
    ∀ e ∈ shippedLogic ratioObs width f, ∃ order, e.order = .ok order ∧ SensibleOrder order

/-- **C95** holds for all shipped simulations except `TestMovement` (number 11). -/
theorem C95_partial (ratioObs width : ℝ) (f : Field) (hf : f.domain ≠ none)
    (hr : 1 ≤ (1 - ratioObs) * width) (k : ℕ) (e : LogicExpr)
    (he : (shippedLogic ratioObs width f)[k]? = some e) (hk : k ≠ 11) :
    ∃ order, e.order = .ok order ∧ SensibleOrder order := by
  obtain ⟨d, hd⟩ := Option.ne_none_iff_exists'.1 hf
  obtain ⟨ring, holes⟩ := d
  have hlt : k < 13 := by
    have := (List.getElem?_eq_some_iff.1 he).1
    simpa [shippedLogic] using this
  interval_cases k
  all_goals
    simp only [shippedLogic, List.getElem?_cons_zero, List.getElem?_cons_succ,
      Option.some.injEq] at he
    subst he
  · exact ⟨_, order_walk, sensible_walk⟩
  · exact ⟨_, order_navigation hd, sensible_navigation ring⟩
  · exact ⟨_, order_navigation hd, sensible_navigation ring⟩
  · exact ⟨_, order_navigation hd, sensible_navigation ring⟩
  · exact ⟨_, order_herding, sensible_herding⟩
  · exact ⟨_, order_rounding hd, sensible_rounding ring⟩
  · exact ⟨_, order_avoid hd hr, sensible_avoid ring _⟩
  · exact ⟨_, order_closed, sensible_closed⟩
  · exact ⟨_, order_closed, sensible_closed⟩
  · exact ⟨_, order_fourExits hd, sensible_fourExits ring⟩
  · exact ⟨_, order_fourExits hd, sensible_fourExits ring⟩
  · exact absurd rfl hk
  · exact ⟨_, order_walk, sensible_walk⟩

/-- The hypotheses can be met: `AvoidObstacle` with its default parameters. -/
example : unitField.domain ≠ none ∧ (1 : ℝ) ≤ (1 - 0.6) * 10 ∧
    (shippedLogic 0.6 10 unitField)[6]? = some (avoidObstacleLogic 0.6 10 unitField) :=
  ⟨by simp [unitField], by norm_num, rfl⟩

/-- **C95** fails: `TestMovement` is written without parentheses, so its integrator runs before the
node that computes the forces. -/
theorem C95_fails : ¬ C95_statement := by
  intro h
  obtain ⟨order, h1, h2⟩ := h 0.6 10 unitField (by simp [unitField]) (by norm_num)
    testMovementLogic (by simp [shippedLogic])
  rw [order_testMovement] at h1
  cases h1
  have := h2.forces 1 0 .adjusting (.integrator 0.01 0.01) rfl rfl trivial trivial
  omega

/-! ## C96: who is inside -/

/-- C96, full statement: after a completed update of a shipped simulation that contains an
`InsideDomain`, exactly the agents that are inside the domain are active. -/
def C96_statement : Prop :=
  ∀ (n : ℕ) (env : SimEnv n) (ratioObs width : ℝ) (ring : List Vec)
    (holes : List (List Vec)), env.field.domain = some (ring, holes) → 1 ≤ (1 - ratioObs) * width →
    ∀ e ∈ [navigationLogic env.field, roundingLogic env.field, avoidObstacleLogic ratioObs width env.field, fourExitsLogic env.field],
    ∀ s t : SimState n, e.update env s = (.ok (), t) →
      ∀ i, (t.agents.rows i).active = env.contains ring (t.agents.rows i).position

/-- **C96** What holds: the active agents are those that were inside the domain at the start of the
update. -/
theorem C96_partial {n : ℕ} (env : SimEnv n) (ratioObs width : ℝ) (ring : List Vec)
    (holes : List (List Vec)) (hd : env.field.domain = some (ring, holes))
    (hr : 1 ≤ (1 - ratioObs) * width) (e : LogicExpr)
    (he : e ∈ [navigationLogic env.field, roundingLogic env.field, avoidObstacleLogic ratioObs width env.field,
      fourExitsLogic env.field]) (s t : SimState n) (h : e.update env s = (.ok (), t)) (i : Fin n) :
    (t.agents.rows i).active = env.contains ring (s.agents.rows i).position := by
  have key : ∃ rest, e.order = .ok (.insideDomain ring :: rest) ∧
      ∀ x ∈ rest, ¬ IsInsideDomain x := by
    simp only [List.mem_cons, List.not_mem_nil, or_false] at he
    rcases he with rfl | rfl | rfl | rfl
    · exact ⟨_, order_navigation hd, by simp [IsInsideDomain]⟩
    · exact ⟨_, order_rounding hd, by simp [IsInsideDomain]⟩
    · exact ⟨_, order_avoid hd hr, by simp [IsInsideDomain]⟩
    · exact ⟨_, order_fourExits hd, by simp [IsInsideDomain]⟩
  obtain ⟨rest, ho, hrest⟩ := key
  obtain ⟨u, hu, ea⟩ := update_order ho env s t _ h
  rw [ea]
  obtain ⟨q, v, hv⟩ : ∃ q v, (Node.insideDomain ring).update env s = (q, v) := ⟨_, _, rfl⟩
  rw [updateNodes, hv] at hu
  cases q with
  | error e => simp at hu
  | ok x =>
    simp only at hu
    rw [nodes_active env rest hrest v u _ hu i, (insideDomain_frame env ring s v _ hv).2.1 i]

/-- The hypotheses of `C96_partial` are met by the walker. -/
example : unitField.domain = some ([(0, 0), (1, 0), (1, 1), (0, 1), (0, 0)], []) ∧
    ∃ t, (navigationLogic unitField).update unitEnv (demoState walker) = (.ok (), t) :=
  ⟨rfl, let ⟨t, h, _⟩ := walker_update; ⟨t, h⟩⟩

/-- **C96** fails: `InsideDomain` is written beside the integrator and runs before it, so an agent that
leaves the domain in this update is still active after it. -/
theorem C96_fails : ¬ C96_statement := by
  intro h
  obtain ⟨t, h1, h2, h3⟩ := walker_update
  have := h 1 unitEnv 0.6 10 _ _ rfl (by norm_num) _ (List.mem_cons_self) _ _ h1 0
  rw [h2, h3] at this
  norm_num [unitEnv, demoEnv] at this

/-! ## C97: the movement test -/

/-- C97, full statement: in `TestMovement` an agent that starts with a velocity other than the one it
aims at changes its velocity. -/
def C97_statement : Prop :=
  ∀ (n : ℕ) (env : SimEnv n) (s t : SimState n) (i : Fin n), NoForces s →
    0 < (s.agents.rows i).mass → 0 < (s.agents.rows i).tauAdj →
    (s.agents.rows i).velocity ≠ (s.agents.rows i).targetVelocity • (s.agents.rows i).targetDirection →
    AfterUpdates (testMovementLogic.update env) 2 s t →
    (t.agents.rows i).velocity ≠ (s.agents.rows i).velocity

/-- **C97** What happens instead: the forces are computed after the integrator and cleared before the
next update, so after any number of updates all agents have their initial velocity and, for
three-circle agents, angular velocity, and have moved along a straight line. -/
theorem C97_coasting {n : ℕ} (env : SimEnv n) (k : ℕ) (s t : SimState n) (h0 : NoForces s)
    (h : AfterUpdates (testMovementLogic.update env) k s t) :
    NoForces t ∧ ∀ i, (t.agents.rows i).velocity = (s.agents.rows i).velocity ∧
      (t.agents.rows i).angularVelocity = (s.agents.rows i).angularVelocity ∧
      (t.agents.rows i).position =
        (s.agents.rows i).position + ((k : ℝ) * 0.01) • (s.agents.rows i).velocity := by
  induction h with
  | zero => exact ⟨h0, fun i => ⟨rfl, rfl, by simp⟩⟩
  | @succ k s u v _ h2 ih =>
    obtain ⟨hr, hi⟩ := ih h0
    obtain ⟨hr', hs⟩ := testMovement_step env u v hr h2
    refine ⟨hr', fun i => ?_⟩
    obtain ⟨a1, a2, a3⟩ := hs i
    obtain ⟨b1, b2, b3⟩ := hi i
    refine ⟨a1.trans b1, a2.trans b2, ?_⟩
    rw [a3, b3, b1, Nat.cast_add, Nat.cast_one, add_mul, one_mul, add_smul, add_assoc]

/-- The hypotheses of `C97_coasting` are met by the standing agent. -/
example : ∃ t, NoForces (demoState starter) ∧
    AfterUpdates (testMovementLogic.update (demoEnv 1)) 2 (demoState starter) t :=
  let ⟨h, t, ht⟩ := starter_run
  ⟨t, h, ht⟩

/-- **C97** fails: an agent that stands and wants to walk keeps standing. -/
theorem C97_fails : ¬ C97_statement := by
  intro h
  obtain ⟨h0, t, ht⟩ := starter_run
  refine h 1 (demoEnv 1) _ t 0 h0 ?_ ?_ ?_ ht ((C97_coasting (demoEnv 1) 2 _ t h0 ht).2 0).1
  · norm_num [demoState, starter]
  · norm_num [demoState, starter]
  · intro he
    have := congrArg Prod.fst he
    simp [demoState, starter, Agent.default, Agent.zero] at this

/-! ## C98: every shipped simulation can be updated -/

/-- C98, full statement: every update of every shipped simulation ends without an exception, if its
field has a domain and the parameters are accepted: those with agents for all agents, those without
as they are. -/
def C98_statement : Prop :=
  (∀ (n : ℕ) (env : SimEnv n) (s : SimState n) (ratioObs width : ℝ), env.field.domain ≠ none →
    s.data.inactive ≠ none → 1 ≤ (1 - ratioObs) * width →
    ∀ e ∈ shippedLogic ratioObs width env.field, ∃ t, e.update env s = (.ok (), t)) ∧
  ∀ logic ∈ agentlessLogic, updateWithoutAgents logic = .ok ()

/-- **C98** What holds: in the shipped simulations `Outdoor`, `TestMovement` and
`TestAgentInteraction` no update ever raises an exception, whatever the agents, the field, the random
numbers and the libraries. -/
theorem C98_partial {n : ℕ} (env : SimEnv n) (s : SimState n) (e : LogicExpr)
    (he : e ∈ [walkLogic, testMovementLogic]) : ∃ t, e.update env s = (.ok (), t) := by
  simp only [List.mem_cons, List.not_mem_nil, or_false] at he
  rcases he with rfl | rfl
  · exact walk_total env s
  · exact testMovement_total env s

/-- Both expressions are in the list, and a crowd exists. -/
example : walkLogic ∈ [walkLogic, testMovementLogic] ∧ Nonempty (SimState 1) :=
  ⟨by simp, ⟨demoState walker⟩⟩

/-- **C98** fails: the shipped simulations `AroundCircle` and `AvoidPillar` have no agents, and their
first update raises `AttributeError`. -/
theorem C98_fails : ¬ C98_statement ∧
    ∀ logic ∈ agentlessLogic, updateWithoutAgents logic = .error .attribute := by
  have key : ∀ logic ∈ agentlessLogic, updateWithoutAgents logic = .error .attribute := by
    intro logic hl
    simp only [agentlessLogic, List.mem_cons, List.not_mem_nil, or_false] at hl
    rcases hl with rfl | rfl
    · simp only [updateWithoutAgents, order_closed]
      rfl
    · rfl
  refine ⟨fun h => ?_, key⟩
  have h1 := h.2 none (by simp [agentlessLogic])
  rw [key none (by simp [agentlessLogic])] at h1
  cases h1

end CrowdDynamics
