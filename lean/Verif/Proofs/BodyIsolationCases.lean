import Verif.Proofs.BodyIsolation
import Verif.Proofs.BodyStride
import Verif.Proofs.TurningCases
import Verif.Proofs.BodyViewpointCases
import Verif.Proofs.IsolationCases

/-!
# Cases and helper lemmas for `Verif.Props.BodyIsolation`
-/

namespace CrowdDynamics

open Spec

/-! ## Two agents that rub against each other, listed in one order or the other -/

/-- The surroundings of two agents that are listed in the order of `pair`. -/
noncomputable def orderEnv (pair : Fin 2 × Fin 2) : SimEnv 2 :=
  { demoEnv 2 with
    fields := fun _ => ⟨some ([(0, 0), (9, 0), (9, 9), (0, 9), (0, 0)], []), none, [], []⟩
    cellPairs := fun _ _ => [pair] }

/-- The order in which the nodes of `Outdoor` are updated. -/
noncomputable def walkOrder : List Node :=
  [.fluctuation, .orientation, .adjusting, .agentAgent (3.0 + 2 * 0.3), .integrator 0.01 0.01, .reset]

theorem order_cells (pair : Fin 2 × Fin 2) (hp : pair = (0, 1) ∨ pair = (1, 0)) (s : SimState 2) :
    CellsWork (orderEnv pair) s := by
  rcases hp with rfl | rfl
  · exact two_cells _ _
  · exact two_cells_swap _ _

/-- The states of the run. -/
noncomputable def rubWalk (pair : Fin 2 × Fin 2) (k : ℕ) : SimState 2 :=
  (fun s => (walkLogic.update (orderEnv pair) s).2)^[k] rubbingState

theorem rubWalk_succ (pair : Fin 2 × Fin 2) (k : ℕ) :
    walkLogic.update (orderEnv pair) (rubWalk pair k) = (.ok (), rubWalk pair (k + 1)) := by
  obtain ⟨t, ht⟩ := walk_total (orderEnv pair) (rubWalk pair k)
  rw [show rubWalk pair (k + 1) = (walkLogic.update (orderEnv pair) (rubWalk pair k)).2 from
    Function.iterate_succ_apply' _ _ _, ht]

theorem rub_regular (pair : Fin 2 × Fin 2) (hp : pair = (0, 1) ∨ pair = (1, 0)) (nodes : List Node)
    (hn : ∀ c, .agentAgent c ∈ nodes → c = 3.0 + 2 * 0.3) :
    RegularBody (orderEnv pair) nodes rubbingState := by
  have r := rubbing_regular nodes hn
  refine ⟨r.kind, r.radii, r.attached, r.mass, r.inertia, r.tau, r.tauRot, r.std, r.stdTorque,
    fun d k a b h => ⟨le_rfl, h⟩, fun d k a b h => ⟨le_rfl, h⟩,
    fun g hg => by simp [SimEnv.field, orderEnv] at hg, fun c hc => ?_⟩
  rw [hn c hc]
  exact ⟨by norm_num, ⟨fun _ => 0.3, rubbing_within, fun i j _ => by norm_num⟩, order_cells pair hp _⟩

theorem rubWalk_run (pair : Fin 2 × Fin 2) (hp : pair = (0, 1) ∨ pair = (1, 0)) (N : ℕ) :
    ShippedBodyRun (orderEnv pair) walkLogic walkOrder rubbingState N (rubWalk pair) := by
  refine ⟨⟨0, 1, 0, by norm_num, by norm_num, rfl⟩, order_walk, by simp [SimEnv.field, orderEnv],
    rub_regular pair hp _ (by simp),
    fun i => ⟨rfl, rfl⟩, ⟨rfl, fun k _ => rubWalk_succ pair k, fun k _ h => ?_⟩,
    fun j _ => order_cells pair hp _⟩
  obtain ⟨c, hc, -⟩ := h
  cases hc

/-- The torque on the first agent is what the pair contributes and what does not depend on the order. -/
theorem rubWalk_torque : ∃ x : ℝ,
    ((rubWalk (0, 1) 1).agents.rows 0).torquePrev = x + 3600 ∧
    ((rubWalk (1, 0) 1).agents.rows 0).torquePrev = x := by
  have key : ∃ x : ℝ, ∀ pair, pair = (0, 1) ∨ pair = (1, 0) →
      ((rubWalk pair 1).agents.rows 0).torquePrev =
        x + (orientedEffect rubbing [pair] 0 1).2 := by
    obtain ⟨s1, h1⟩ : ∃ s1, Node.fluctuation.update (demoEnv 2) rubbingState = (.ok (), s1) := ⟨_, rfl⟩
    obtain ⟨s2, h2⟩ : ∃ s2, Node.orientation.update (demoEnv 2) s1 = (.ok (), s2) := ⟨_, rfl⟩
    obtain ⟨s3, h3⟩ : ∃ s3, Node.adjusting.update (demoEnv 2) s2 = (.ok (), s3) := ⟨_, rfl⟩
    refine ⟨(s3.agents.rows 0).torque, fun pair hp => ?_⟩
    have hu := rubWalk_succ pair 0
    obtain ⟨u, hu, ea⟩ := update_order order_walk _ _ _ _ hu
    rw [ea]
    simp only [updateNodes] at hu
    have h1' : Node.fluctuation.update (orderEnv pair) (rubWalk pair 0) = (.ok (), s1) := h1
    have h2' : Node.orientation.update (orderEnv pair) s1 = (.ok (), s2) := h2
    have h3' : Node.adjusting.update (orderEnv pair) s2 = (.ok (), s3) := h3
    rw [h1'] at hu
    simp only at hu
    rw [h2'] at hu
    simp only at hu
    rw [h3'] at hu
    simp only at hu
    have m1 := fun k => (node_still_body _ _ _ _ _ h1' (by simp [Moves]) k).1
    have m2 := fun k => (node_still_body _ _ _ _ _ h2' (by simp [Moves]) k).1
    have m3 := fun k => (node_still_body _ _ _ _ _ h3' (by simp [Moves]) k).1
    have k1 := (update_keeps _ _ _ _ _ h1').1
    have k2 := (update_keeps _ _ _ _ _ h2').1
    have k3 := (update_keeps _ _ _ _ _ h3').1
    have r3 := regularBody_step (regularBody_step (regularBody_step (s := rubWalk pair 0)
      (rub_regular pair hp [.fluctuation, .orientation, .adjusting, .agentAgent (3.0 + 2 * 0.3)] (by simp))
      k1 m1) k2 m2) k3 m3
    have hrows : ∀ i, ∃ f g o, s3.agents.rows i =
        { rubbing i with force := f, torque := g, targetOrientation := o } := by
      intro i
      cases h1; cases h2; cases h3
      exact ⟨_, _, _, rfl⟩
    obtain ⟨c0, ⟨R, c1, c1'⟩, c2⟩ := r3.cells _ List.mem_cons_self
    obtain ⟨B, e1, e2, e3⟩ := agentAgent_effects (orderEnv pair).cellPairs s3.agents _ c0 c2 r3.kind R c1 c1'
    obtain ⟨s4, h4, h4'⟩ : ∃ s4, (Node.agentAgent (3.0 + 2 * 0.3)).update (orderEnv pair) s3 =
        (.ok (), s4) ∧ s4.agents = B := ⟨{ s3 with agents := B }, by simp only [Node.update, e1], rfl⟩
    rw [h4] at hu
    cases hu
    have hk : s4.agents.dtype.kind = .threeCircle := by
      rw [h4', e2]; exact r3.kind
    have : ((resetUpdate (integratorUpdate 0.01 0.01 s4).agents).rows 0).torquePrev =
        (s4.agents.rows 0).torque := by
      simp [resetUpdate, integratorUpdate, velocityVerletIntegrator, isModel, hk, translationalVerlet,
        rotationalVerlet, shoulders]
      rfl
    refine this.trans ?_
    rw [h4', e3, erase_zero_two, Finset.sum_singleton]
    obtain ⟨_, _, _, q0⟩ := hrows 0
    obtain ⟨_, _, _, q1⟩ := hrows 1
    simp only [orientedEffect, q0, q1]
    rfl
  obtain ⟨x, hx⟩ := key
  refine ⟨x, ?_, ?_⟩
  · rw [hx _ (.inl rfl)]
    simp only [orientedEffect, List.mem_singleton, Prod.mk.injEq, Fin.isValue, one_ne_zero, zero_ne_one,
      and_self, if_false, rub_first]
  · rw [hx _ (.inr rfl)]
    simp only [orientedEffect, List.mem_singleton, if_true, rub_second, add_zero]

/-! ## The two agents and a third one -/

/-- The two agents that rub against each other, and one far away. -/
noncomputable def rubbers (i : Fin 3) : Agent :=
  if h : (i : ℕ) < 2 then rubbing ⟨i, h⟩
  else { rubbing 0 with position := (50, 0), positionLs := (50, 0), positionRs := (50, 0) }

/-- The three at the start of a simulation. -/
noncomputable def rubbersState : SimState 3 :=
  { demoState rubbers with agents := ⟨.const .threeCircle, rubbers⟩ }

/-- The states of the three. -/
noncomputable def rubbersWalk (k : ℕ) : SimState 3 :=
  (fun s => (walkLogic.update trioEnv s).2)^[k] rubbersState

theorem rubbers_value (P : Agent → Prop) (h0 : P (rubbing 0)) (h1 : P (rubbing 1))
    (h2 : P { rubbing 0 with position := (50, 0), positionLs := (50, 0), positionRs := (50, 0) })
    (i : Fin 3) : P (rubbers i) := by
  fin_cases i
  · exact h0
  · exact h1
  · exact h2

theorem rubbers_within (i : Fin 3) : BodyWithin .threeCircle (rubbers i) 0.3 := by
  refine rubbers_value (fun a => BodyWithin .threeCircle a 0.3) (rubbing_within 0) (rubbing_within 1) ?_ i
  intro d hd
  simp only [discs, List.mem_cons, List.not_mem_nil, or_false] at hd
  have h0 : Spec.dist (50, (0 : ℝ)) (50, 0) = 0 := by
    unfold Spec.dist Spec.len; simp
  rcases hd with rfl | rfl | rfl <;> simp only [h0, zero_add] <;> exact le_of_eq rfl

theorem rubbersWalk_succ (k : ℕ) :
    walkLogic.update trioEnv (rubbersWalk k) = (.ok (), rubbersWalk (k + 1)) := by
  obtain ⟨t, ht⟩ := walk_total trioEnv (rubbersWalk k)
  rw [show rubbersWalk (k + 1) = (walkLogic.update trioEnv (rubbersWalk k)).2 from
    Function.iterate_succ_apply' _ _ _, ht]

theorem rubbersWalk_run (N : ℕ) :
    ShippedBodyRun trioEnv walkLogic walkOrder rubbersState N rubbersWalk := by
  have hv : ∀ i : Fin 3, (rubbers i).rT = 0.3 ∧ (rubbers i).rS = 0.3 ∧ (rubbers i).mass = 80 ∧
      (rubbers i).inertiaRot = 4 ∧ (rubbers i).tauAdj = 0.5 ∧ (rubbers i).tauRot = 0.2 ∧
      (rubbers i).stdRandForce = 0.1 ∧ (rubbers i).stdRandTorque = 0.1 ∧ (rubbers i).force = 0 ∧
      (rubbers i).torque = 0 ∧ ShouldersAttached (rubbers i) := by
    intro i
    fin_cases i <;> norm_num [rubbers, rubbing, Agent.default, Agent.zero, ShouldersAttached]
  refine ⟨⟨0, 1, 0, by norm_num, by norm_num, rfl⟩, order_walk, by simp [SimEnv.field, trioEnv], ?_,
    fun i => ⟨(hv i).2.2.2.2.2.2.2.2.1, (hv i).2.2.2.2.2.2.2.2.2.1⟩,
    ⟨rfl, fun k _ => rubbersWalk_succ k, fun k _ h => ?_⟩, fun j _ => trio_cells _⟩
  · refine ⟨rfl, fun k p => ?_, fun k => (hv k).2.2.2.2.2.2.2.2.2.2, fun k => ?_, fun k => ?_, fun k => ?_,
      fun k => ?_, fun k => ?_, fun k => ?_, fun d k a b h => ⟨le_rfl, h⟩, fun d k a b h => ⟨le_rfl, h⟩,
      fun g hg => by simp [SimEnv.field, trioEnv] at hg, fun c hc => ?_⟩
    · change 0 ≤ (rubbers k).radii p
      fin_cases p
      · change 0 ≤ (rubbers k).rT
        rw [(hv k).1]; norm_num
      · change 0 ≤ (rubbers k).rS
        rw [(hv k).2.1]; norm_num
      · change 0 ≤ (rubbers k).rS
        rw [(hv k).2.1]; norm_num
    · exact lt_of_lt_of_eq (by norm_num) (hv k).2.2.1.symm
    · exact lt_of_lt_of_eq (by norm_num) (hv k).2.2.2.1.symm
    · exact lt_of_lt_of_eq (by norm_num) (hv k).2.2.2.2.1.symm
    · exact lt_of_lt_of_eq (by norm_num) (hv k).2.2.2.2.2.1.symm
    · exact le_of_le_of_eq (by norm_num) (hv k).2.2.2.2.2.2.1.symm
    · exact le_of_le_of_eq (by norm_num) (hv k).2.2.2.2.2.2.2.1.symm
    · rw [List.mem_singleton] at hc
      cases hc
      exact ⟨by norm_num, ⟨fun _ => 0.3, rubbers_within, fun i j _ => by norm_num⟩, trio_cells _⟩
  · obtain ⟨c, hc, -⟩ := h
    cases hc

theorem rubbers_apart :
    BodiesApart (κ := Fin 2) (Fin.castLE (by norm_num : 2 ≤ 3)) (rubbersWalk 0) := by
  intro i k hk
  have : k = 2 := by
    fin_cases k
    · exact absurd ⟨0, rfl⟩ hk
    · exact absurd ⟨1, rfl⟩ hk
    · rfl
  subst this
  refine circles_far (rubbers_within _) (rubbers_within _) (Real.le_sqrt_of_sq_le ?_)
  change _ ≤ ((rubbers _).position - (rubbers 2).position).1 ^ 2 + _
  refine le_trans ?_ (le_add_of_nonneg_right (sq_nonneg _))
  fin_cases i <;> norm_num [rubbers, rubbing]

/-! ## Two agents far from each other -/

/-- An agent that looks and wants to walk in the direction `(1, 0)`, at `(x, 0)`. -/
noncomputable def pacer (x : ℝ) : Agent :=
  { Agent.default with
    mass := 80, inertiaRot := 4, rT := 0.1, rS := 0.1, rTs := 0.15, tauAdj := 0.5
    position := (x, 0), positionLs := (x, 0.15), positionRs := (x, -0.15)
    targetVelocity := 1.3, targetDirection := (1, 0), stdRandForce := 0.1 }

/-- Two agents, 100 m apart. -/
noncomputable def pacersState : SimState 2 :=
  { demoState (fun _ : Fin 2 => pacer 0) with
    agents := ⟨.const .threeCircle, fun i => pacer (100 * (i : ℕ))⟩ }

/-- Only the first of them. -/
noncomputable def pacerState : SimState 1 :=
  { demoState (fun _ : Fin 1 => pacer 0) with agents := ⟨.const .threeCircle, fun _ => pacer 0⟩ }

theorem pacer_attached (x : ℝ) : ShouldersAttached (pacer x) := by
  constructor <;> simp [pacer, Agent.default, Agent.zero]

theorem pacer_within (x : ℝ) : BodyWithin .threeCircle (pacer x) 0.25 := by
  intro d hd
  simp only [discs, List.mem_cons, List.not_mem_nil, or_false] at hd
  have h1 : Spec.dist (x, 0) (x, (0.15 : ℝ)) = 0.15 := by
    unfold Spec.dist len
    rw [Real.sqrt_eq_iff_mul_self_eq (by positivity) (by norm_num)]
    norm_num
  have h2 : Spec.dist (x, 0) (x, (-0.15 : ℝ)) = 0.15 := by
    unfold Spec.dist len
    rw [Real.sqrt_eq_iff_mul_self_eq (by positivity) (by norm_num)]
    norm_num
  have h3 : Spec.dist (x, (0 : ℝ)) (x, 0) = 0 := by
    unfold Spec.dist len; simp
  rcases hd with rfl | rfl | rfl
  · change Spec.dist (x, (0 : ℝ)) (x, 0) + 0.1 ≤ _
    rw [h3]; norm_num
  · change Spec.dist (x, (0 : ℝ)) (x, 0.15) + 0.1 ≤ _
    rw [h1]; norm_num
  · change Spec.dist (x, (0 : ℝ)) (x, -0.15) + 0.1 ≤ _
    rw [h2]; norm_num

theorem pacer_radii (x : ℝ) (p : Fin 3) : 0 ≤ (pacer x).radii p := by
  fin_cases p <;> norm_num [Agent.radii, pacer]

/-- The states of the two. -/
noncomputable def pacing (k : ℕ) : SimState 2 :=
  (fun s => (walkLogic.update (orderEnv (0, 1)) s).2)^[k] pacersState

/-- The states of the first, alone. -/
noncomputable def pacingAlone (k : ℕ) : SimState 1 :=
  (fun s => (walkLogic.update openEnv s).2)^[k] pacerState

theorem pacing_succ (k : ℕ) :
    walkLogic.update (orderEnv (0, 1)) (pacing k) = (.ok (), pacing (k + 1)) := by
  obtain ⟨t, ht⟩ := walk_total (orderEnv (0, 1)) (pacing k)
  rw [show pacing (k + 1) = (walkLogic.update (orderEnv (0, 1)) (pacing k)).2 from
    Function.iterate_succ_apply' _ _ _, ht]

theorem pacingAlone_succ (k : ℕ) :
    walkLogic.update openEnv (pacingAlone k) = (.ok (), pacingAlone (k + 1)) := by
  obtain ⟨t, ht⟩ := walk_total openEnv (pacingAlone k)
  rw [show pacingAlone (k + 1) = (walkLogic.update openEnv (pacingAlone k)).2 from
    Function.iterate_succ_apply' _ _ _, ht]

theorem pacing_run (N : ℕ) : ShippedBodyRun (orderEnv (0, 1)) walkLogic walkOrder pacersState N
    pacing := by
  refine ⟨⟨0, 1, 0, by norm_num, by norm_num, rfl⟩, order_walk, by simp [SimEnv.field, orderEnv], ?_,
    fun i => ⟨rfl, rfl⟩, ⟨rfl, fun k _ => pacing_succ k, fun k _ h => ?_⟩,
    fun j _ => order_cells _ (.inl rfl) _⟩
  · refine ⟨rfl, fun k p => pacer_radii _ p, fun k => pacer_attached _, ?_, ?_, ?_, ?_, ?_, ?_,
      fun d k a b h => ⟨le_rfl, h⟩, fun d k a b h => ⟨le_rfl, h⟩,
      fun g hg => by simp [SimEnv.field, orderEnv] at hg, fun c hc => ?_⟩
    iterate 6 exact fun k => by norm_num [pacersState, pacer, Agent.default, Agent.zero]
    rw [List.mem_singleton] at hc
    cases hc
    exact ⟨by norm_num, ⟨fun _ => 0.25, fun _ => pacer_within _, fun i j _ => by norm_num⟩,
      order_cells _ (.inl rfl) _⟩
  · obtain ⟨c, hc, -⟩ := h
    cases hc

theorem pacingAlone_run (N : ℕ) : ShippedBodyRun openEnv walkLogic walkOrder pacerState N
    pacingAlone := by
  refine ⟨⟨0, 1, 0, by norm_num, by norm_num, rfl⟩, order_walk, by simp [SimEnv.field, openEnv], ?_,
    fun i => ⟨rfl, rfl⟩, ⟨rfl, fun k _ => pacingAlone_succ k, fun k _ h => ?_⟩,
    fun j _ => lonely_cells _ rfl _⟩
  · refine ⟨rfl, fun k p => pacer_radii _ p, fun k => pacer_attached _, ?_, ?_, ?_, ?_, ?_, ?_,
      fun d k a b h => ⟨le_rfl, h⟩, fun d k a b h => ⟨le_rfl, h⟩,
      fun g hg => by simp [SimEnv.field, openEnv] at hg, fun c hc => ?_⟩
    iterate 6 exact fun k => by norm_num [pacerState, pacer, Agent.default, Agent.zero]
    rw [List.mem_singleton] at hc
    cases hc
    exact ⟨by norm_num, ⟨fun _ => 0.25, fun _ => pacer_within _, fun i j _ => by norm_num⟩,
      lonely_cells _ rfl _⟩
  · obtain ⟨c, hc, -⟩ := h
    cases hc

theorem pacing_direction (i : Fin 2) (k : ℕ) :
    ((pacing k).agents.rows i).targetDirection = (1, 0) := by
  induction k with
  | zero => rfl
  | succ k ih => rw [← ih]; exact walk_direction _ _ _ (pacing_succ k) i

theorem pacingAlone_direction (i : Fin 1) (k : ℕ) :
    ((pacingAlone k).agents.rows i).targetDirection = (1, 0) := by
  induction k with
  | zero => rfl
  | succ k ih => rw [← ih]; exact walk_direction _ _ _ (pacingAlone_succ k) i

/-- Nobody moves more than 2 cm per update. -/
theorem pacing_step (j : ℕ) (hj : j < 1000) (i : Fin 2) :
    Spec.dist ((pacing (j + 1)).agents.rows i).position ((pacing j).agents.rows i).position ≤
      0.02 := by
  induction j using Nat.strong_induction_on generalizing i with
  | _ j ih =>
  have hr := pacing_run (j + 1)
  have hout : ∀ k < j + 1, ∀ i, BodyOutOfReach (orderEnv (0, 1)) (pacing k).agents.rows i := by
    intro k hk i
    refine ⟨fun l hl => ?_, fun w hw => by simp [fieldWalls, SimEnv.field, orderEnv] at hw⟩
    have hb := (completed_body hr.order hr.completed k hk.le).2
    have hw : ∀ l, BodyWithin .threeCircle ((pacing k).agents.rows l) 0.25 := fun l =>
      within_of_attached (pacer_attached (100 * (l : ℕ))) (run_attached hr hk.le l) (hb l).rT (hb l).rS
        (hb l).rTs (pacer_within _)
    refine circles_far (hw i) (hw l) ?_
    have h1 := drift_le (S := pacing) (N := k) i
      (fun k' hk' => ih k' (by omega) (by omega) i) k le_rfl
    have h2 := drift_le (S := pacing) (N := k) l
      (fun k' hk' => ih k' (by omega) (by omega) l) k le_rfl
    have h3 := dist_le_drifts ((pacing 0).agents.rows i).position ((pacing 0).agents.rows l).position
      ((pacing k).agents.rows i).position ((pacing k).agents.rows l).position
    have h4 : (100 : ℝ) ≤ Spec.dist ((pacing 0).agents.rows i).position
        ((pacing 0).agents.rows l).position := by
      refine Real.le_sqrt_of_sq_le ?_
      fin_cases i <;> fin_cases l <;>
        first | exact absurd rfl hl | norm_num [pacing, pacersState, pacer]
    have h5 : (k : ℝ) ≤ 1000 := by exact_mod_cast (by omega : k ≤ 1000)
    linarith
  have := body_stride hr i rfl (by norm_num [pacersState, pacer])
    (by norm_num [pacersState, pacer])
    (fun j _ => by rw [pacing_direction]; norm_num [len]) 24 1.45
    (fun j hj d hd => by
      have h1 := (disturbs_body_alone (hout j hj i) hd).1
      have hb := (completed_body order_walk hr.completed j hj.le).2 i
      rw [← hb.stdRandForce, ← hb.mass] at h1
      norm_num [pacersState, pacer] at h1
      exact h1)
    (by norm_num [pacersState, pacer])
    (by norm_num [pacersState, pacer, Agent.default, Agent.zero, len]) j (by omega)
  norm_num [pacersState, pacer] at this ⊢
  linarith

theorem pacingAlone_step (N j : ℕ) (hj : j < N) (i : Fin 1) :
    Spec.dist ((pacingAlone (j + 1)).agents.rows i).position
      ((pacingAlone j).agents.rows i).position ≤ 0.02 := by
  have hr := pacingAlone_run N
  have := body_stride hr i rfl (by norm_num [pacerState, pacer])
    (by norm_num [pacerState, pacer])
    (fun j _ => by rw [pacingAlone_direction]; norm_num [len]) 24 1.45
    (fun j hj d hd => by
      have h1 := (disturbs_body_alone ⟨fun k hk => absurd (Subsingleton.elim k i) hk, fun w hw => by
        simp [fieldWalls, SimEnv.field, openEnv] at hw⟩ hd).1
      have hb := (completed_body order_walk hr.completed j hj.le).2 i
      rw [← hb.stdRandForce, ← hb.mass] at h1
      norm_num [pacerState, pacer] at h1
      exact h1)
    (by norm_num [pacerState, pacer])
    (by norm_num [pacerState, pacer, Agent.default, Agent.zero, len]) j hj
  norm_num [pacerState, pacer] at this ⊢
  linarith

theorem pacing_apart : ∀ j < 1000, BodiesApart (fun _ : Unit => (0 : Fin 2)) (pacing j) := by
  refine bodies_horizon (pacing_run 1000) 0.02 pacing_step (fun _ => 0.25)
    (fun _ => pacer_within _) (fun _ k hk => ?_)
  have : k = 1 := by
    fin_cases k
    · exact absurd ⟨(), rfl⟩ hk
    · rfl
  subst this
  refine Real.le_sqrt_of_sq_le ?_
  norm_num [pacersState, pacer]

end CrowdDynamics
