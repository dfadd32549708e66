import Verif.Proofs.ValidationTests
import Verif.Props.Viewpoint

/-!
# The test simulations: C140, C141
-/

namespace CrowdDynamics

open Spec

/-! ## C140: the movement test -/

/-- **C140** `TestMovement` starts with one agent, of either type, at the origin that walks along the
first axis at 1 m/s. -/
theorem C140_start (z : ℕ → ℝ → ℝ → ℝ) (kind : Kind) :
    ∃ st a, movementAgents z kind = some st ∧ st.kind = kind ∧ st.array = [a] ∧
      Walker kind (0, 0) (1, 0) 0 a := by
  obtain ⟨st, h1, h2, -, h4⟩ := movement_array z kind
  have := walker_row kind (0, 0) 0
  rw [Real.cos_zero, Real.sin_zero] at this
  exact ⟨st, _, h1, h2, h4, this⟩

/-- **C140** After `k` updates it has walked exactly `k` centimetres along the axis, with unchanged
velocity, orientation and body, shoulders attached, and without any force left over. -/
theorem C140_walk (z : ℕ → ℝ → ℝ → ℝ) (st : AgentsState) (env : SimEnv 1) (s t : SimState 1)
    (hst : movementAgents z s.agents.dtype.kind = some st) (hs : [s.agents.rows 0] = st.array) (k : ℕ)
    (h : AfterUpdates (testMovementLogic.update env) k s t) :
    Walker s.agents.dtype.kind (k / 100, 0) (1, 0) 0 (t.agents.rows 0) := by
  obtain ⟨st', a, h1, h2, h3, h4⟩ := C140_start z s.agents.dtype.kind
  rw [h1] at hst
  cases hst
  rw [h3] at hs
  cases hs
  suffices H : t.agents.dtype = s.agents.dtype ∧
      Walker s.agents.dtype.kind (k / 100, 0) (1, 0) 0 (t.agents.rows 0) from H.2
  clear h1 h2 h3
  induction h with
  | zero => exact ⟨rfl, by simpa using h4⟩
  | @succ k s u v _ hv ih =>
    obtain ⟨e, hu⟩ := ih h4
    rw [← e] at hu
    obtain ⟨e2, hw⟩ := walker_step env u v 0 _ hu hv
    rw [e] at hw
    refine ⟨e2.trans e, ?_⟩
    have : ((k + 1 : ℕ) : ℝ) / 100 = k / 100 + 0.01 := by push_cast; ring
    rw [this]
    exact hw

/-- The hypotheses can be met: 100 updates of a three-circle agent end one metre further. -/
example : ∃ (st : AgentsState) (s t : SimState 1),
    movementAgents (fun _ _ _ => 0) s.agents.dtype.kind = some st ∧ [s.agents.rows 0] = st.array ∧
    s.agents.dtype.kind = .threeCircle ∧
    AfterUpdates (testMovementLogic.update (demoEnv 1)) 100 s t ∧ (t.agents.rows 0).position = (1, 0) := by
  obtain ⟨st, a, h1, h2, h3, h4⟩ := C140_start (fun _ _ _ => 0) .threeCircle
  have run : ∀ (k : ℕ) (s : SimState 1),
      ∃ t, AfterUpdates (testMovementLogic.update (demoEnv 1)) k s t := by
    intro k s
    induction k with
    | zero => exact ⟨s, .zero _⟩
    | succ k ih =>
      obtain ⟨t, ht⟩ := ih
      obtain ⟨u, hu⟩ := testMovement_total (demoEnv 1) t
      exact ⟨u, .succ ht hu⟩
  let s : SimState 1 := { demoState (n := 1) (fun _ => a) with agents := ⟨.fresh .threeCircle 0, fun _ => a⟩ }
  obtain ⟨t, ht⟩ := run 100 s
  refine ⟨st, s, t, h1, h3.symm, rfl, ht, ?_⟩
  have := (C140_walk (fun _ _ _ => 0) st (demoEnv 1) s t h1 h3.symm 100 ht).position
  rw [this]
  norm_num

/-! ## C141: the interaction test -/

/-- **C141** `TestAgentInteraction` starts with two agents, of either type, five metres apart that do not
overlap and walk towards each other at 1 m/s: without interaction they would meet after 2.5 seconds. -/
theorem C141_start (z : ℕ → ℝ → ℝ → ℝ) (kind : Kind) :
    ∃ st a b, interactionAgents z kind = some st ∧ st.kind = kind ∧ st.array = [a, b] ∧
      Walker kind (0, 0) (1, 0) 0 a ∧ Walker kind (5, 0) (-1, 0) Real.pi b ∧ DisjointBodies kind a b ∧
      a.position + (2.5 : ℝ) • a.velocity = b.position + (2.5 : ℝ) • b.velocity := by
  obtain ⟨st, h1, h2, -, h4⟩ := interaction_array z kind
  have ha := walker_row kind (0, 0) 0
  have hb := walker_row kind (5, 0) Real.pi
  rw [Real.cos_zero, Real.sin_zero] at ha
  rw [Real.cos_pi, Real.sin_pi] at hb
  refine ⟨st, _, _, h1, h2, h4, ha, hb, ?_, ?_⟩
  · have far : ∀ p q : ℝ × ℝ, ∀ r, r ≤ 4 → p.1 = 0 → q.1 = 5 → r ≤ Spec.dist p q := by
      intro p q r hr hp hq
      have : (5 : ℝ) ≤ Spec.dist p q := by
        unfold Spec.dist len
        apply Real.le_sqrt_of_sq_le
        rw [Prod.fst_sub, hp, hq]
        nlinarith [sq_nonneg (p - q).2]
      linarith
    have e1 : ∀ d ∈ discs kind (walkerRow kind (0, 0) 0), d.1.1 = 0 ∧ d.2 ≤ 1 := by
      cases kind
      · intro d hd
        simp only [discs, List.mem_singleton] at hd
        subst hd
        norm_num [ha.position, ha.radius]
      · intro d hd
        simp only [discs, List.mem_cons, List.not_mem_nil, or_false] at hd
        rcases hd with rfl | rfl | rfl <;> norm_num [walkerRow]
    have e2 : ∀ d ∈ discs kind (walkerRow kind (5, 0) Real.pi), d.1.1 = 5 ∧ d.2 ≤ 1 := by
      cases kind
      · intro d hd
        simp only [discs, List.mem_singleton] at hd
        subst hd
        norm_num [hb.position, hb.radius]
      · intro d hd
        simp only [discs, List.mem_cons, List.not_mem_nil, or_false] at hd
        rcases hd with rfl | rfl | rfl <;> norm_num [walkerRow]
    intro d hd e he
    obtain ⟨a1, a2⟩ := e1 d hd
    obtain ⟨b1, b2⟩ := e2 e he
    exact far _ _ _ (by linarith) a1 b1
  · rw [ha.position, ha.velocity, hb.position, hb.velocity]
    ext <;> norm_num

/-- The reflection at the vertical line halfway between the two agents. -/
noncomputable def halfway : RigidMotion where
  lin :=
    { toFun := fun v => (-v.1, v.2)
      map_add' := fun u v => by ext <;> simp [add_comm]
      map_smul' := fun c v => by ext <;> simp }
  isometry v := by
    unfold len
    congr 1
    show (-v.1) ^ 2 + v.2 ^ 2 = _
    ring
  shift := (5, 0)

/-- The reflection at the line on which the agents walk. -/
noncomputable def axis : RigidMotion where
  lin :=
    { toFun := fun v => (v.1, -v.2)
      map_add' := fun u v => by ext <;> simp [add_comm]
      map_smul' := fun c v => by ext <;> simp }
  isometry v := by
    unfold len
    congr 1
    show v.1 ^ 2 + (-v.2) ^ 2 = _
    ring
  shift := (0, 0)

/-- **C141** If the random forces push both agents along the line, equally strongly and towards opposite
sides, then after any number of updates the circular agents are still on the line, at equal distances from
the point halfway between them, and have opposite velocities along the line. -/
theorem C141_symmetric (z : ℕ → ℝ → ℝ → ℝ) (st : AgentsState)
    (hst : interactionAgents z .circular = some st) (env : SimEnv 2)
    (hf : env.field.obstacles = none)
    (hc : ∀ pos c, 0 < c → EnumeratesNeighbours pos c (env.cellPairs pos c))
    (hz : ∀ d, env.z d 0 = env.z d 1) (hs0 : ∀ d i, Real.sin (env.phi d i) = 0)
    (hc0 : ∀ d, Real.cos (env.phi d 1) = -Real.cos (env.phi d 0))
    (s t : SimState 2) (hk : s.agents.dtype.kind = .circular)
    (hs : [s.agents.rows 0, s.agents.rows 1] = st.array) (N : ℕ)
    (h : AfterUpdates (walkLogic.update env) N s t) :
    (∀ i, (t.agents.rows i).position.2 = 0) ∧
      (t.agents.rows 0).position.1 + (t.agents.rows 1).position.1 = 5 ∧
      (t.agents.rows 1).velocity = -(t.agents.rows 0).velocity ∧
      ∀ i, (t.agents.rows i).velocity.2 = 0 := by
  obtain ⟨st', h1, -, -, h4⟩ := interaction_array z .circular
  rw [h1] at hst
  cases hst
  rw [h4] at hs
  have r0 : s.agents.rows 0 = walkerRow .circular (0, 0) 0 := by simpa using (List.cons.inj hs).1
  have r1 : s.agents.rows 1 = walkerRow .circular (5, 0) Real.pi := by
    simpa using (List.cons.inj (List.cons.inj hs).2).1
  obtain ⟨kind, root, hpo, hup⟩ := update_as_tree order_walk
  rw [hup] at h
  have hphys : ∀ x ∈ root.postorder.map kind, Physical x := by
    rw [hpo]; simp [Physical]
  have hcell : ∀ c, .agentAgent c ∈ root.postorder.map kind → 0 < c ∧
      ∀ i j, i ≠ j → 3 + ((s.agents.rows i).radius + (s.agents.rows j).radius) ≤ c := by
    intro c hm
    rw [hpo] at hm
    have : c = 3.0 + 2 * 0.3 := by simpa using hm
    subst this
    refine ⟨by norm_num, fun i j hij => ?_⟩
    fin_cases i <;> fin_cases j <;> simp only [Fin.zero_eta, Fin.mk_one, r0, r1] <;>
      norm_num [walkerRow]
  have g1 := C133_symmetry halfway (Equiv.swap 0 1) env ⟨by simp [fieldWalls, hf], by simp [hf],
    by simp [hf], fun d i => ?_, fun d i => ?_, hc, hc⟩ kind root hphys s ⟨rfl, fun i => ?_, rfl, rfl⟩ hk
    hcell N t h 0
  have g2 := C133_symmetry axis (Equiv.refl _) env ⟨by simp [fieldWalls, hf], by simp [hf],
    by simp [hf], fun d i => rfl, fun d i => ?_, hc, hc⟩ kind root hphys s ⟨rfl, fun i => ?_, rfl, rfl⟩ hk
    hcell N t h
  · simp only [Equiv.swap_apply_left] at g1
    have y : ∀ i, (t.agents.rows i).position.2 = 0 ∧ (t.agents.rows i).velocity.2 = 0 := by
      intro i
      have := g2 i
      simp only [Equiv.refl_apply] at this
      have e1 := congrArg (fun a => a.position.2) this
      have e2 := congrArg (fun a => a.velocity.2) this
      simp [RigidMotion.agent, RigidMotion.point, axis] at e1 e2
      constructor <;> linarith
    refine ⟨fun i => (y i).1, ?_, ?_, fun i => (y i).2⟩
    · rw [g1]
      simp [RigidMotion.agent, RigidMotion.point, halfway]
    · ext
      · rw [g1]
        simp [RigidMotion.agent, halfway]
      · rw [(y 1).2, Prod.snd_neg, (y 0).2, neg_zero]
  · simp [axis, hs0]
  · fin_cases i
    · simp only [Fin.zero_eta, Equiv.refl_apply, r0]
      simp [walkerRow, RigidMotion.agent, RigidMotion.point, axis, Agent.default, Agent.zero]
    · simp only [Fin.mk_one, Equiv.refl_apply, r1]
      simp [walkerRow, RigidMotion.agent, RigidMotion.point, axis, Agent.default, Agent.zero]
  · fin_cases i <;> simp [hz]
  · fin_cases i <;> simp [halfway, hs0, hc0]
  · fin_cases i
    · simp only [Fin.zero_eta, Equiv.swap_apply_left, r0, r1]
      simp [walkerRow, RigidMotion.agent, RigidMotion.point, halfway, Agent.default, Agent.zero]
    · simp only [Fin.mk_one, Equiv.swap_apply_right, r0, r1]
      simp [walkerRow, RigidMotion.agent, RigidMotion.point, halfway, Agent.default, Agent.zero]

/-- The hypotheses can be met: random forces in opposite directions in an empty world. -/
example : ∃ (st : AgentsState) (s : SimState 2),
    interactionAgents (fun _ _ _ => 0) .circular = some st ∧ emptyEnv.field.obstacles = none ∧
    (∀ pos c, 0 < c → EnumeratesNeighbours pos c (emptyEnv.cellPairs pos c)) ∧
    (∀ d, emptyEnv.z d 0 = emptyEnv.z d 1) ∧ (∀ d i, Real.sin (emptyEnv.phi d i) = 0) ∧
    (∀ d, Real.cos (emptyEnv.phi d 1) = -Real.cos (emptyEnv.phi d 0)) ∧
    s.agents.dtype.kind = .circular ∧ [s.agents.rows 0, s.agents.rows 1] = st.array ∧
    ∃ t, AfterUpdates (walkLogic.update emptyEnv) 2 s t := by
  obtain ⟨st, a, b, h1, h2, h3, -⟩ := C141_start (fun _ _ _ => 0) .circular
  obtain ⟨t, ht⟩ := walk_total emptyEnv (demoState ![a, b])
  obtain ⟨u, hu⟩ := walk_total emptyEnv t
  refine ⟨st, demoState ![a, b], h1, rfl, fun _ _ _ => two_cells _ _, fun _ => rfl, fun d i => ?_,
    fun d => ?_, rfl, by rw [h3]; rfl, u, .succ (.succ (.zero _) ht) hu⟩
  · fin_cases i <;> simp [emptyEnv]
  · simp [emptyEnv]

end CrowdDynamics
