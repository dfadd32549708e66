import Verif.Proofs.Isolation
import Verif.Props.LongRun
import Verif.Props.Momentum

/-!
# Cases and helper lemmas for `Verif.Props.Isolation`
-/

namespace CrowdDynamics

open Spec

variable {κ : Type} {n m : ℕ} {ι : κ → Fin n} {ι' : κ → Fin m}

/-- Two agents who walk towards each other, and one far away who walks away. -/
noncomputable def trio : Crowd 3 := fun i =>
  if h : (i : ℕ) < 2 then facing ⟨i, h⟩
  else { facing 1 with position := (100, 0), velocity := (1, 0), targetDirection := (1, 0) }

/-- The surroundings of the three. -/
noncomputable def trioEnv : SimEnv 3 :=
  { demoEnv 3 with
    fields := fun _ => ⟨some ([(0, 0), (9, 0), (9, 9), (0, 9), (0, 0)], []), none, [], []⟩
    cellPairs := fun _ _ => [(0, 1), (0, 2), (1, 2)] }

theorem trio_cells (s : SimState 3) : CellsWork trioEnv s := by
  refine ⟨by simp [trioEnv], ?_, (0, 0), fun i j hij _ _ => ?_⟩
  · simp only [trioEnv, List.map_cons, List.map_nil]
    decide
  · have H : ∀ i j : Fin 3, i ≠ j → (i, j) ∈ [((0 : Fin 3), (1 : Fin 3)), (0, 2), (1, 2)] ∨
        (j, i) ∈ [((0 : Fin 3), (1 : Fin 3)), (0, 2), (1, 2)] := by decide
    exact H i j hij

/-- The states of the run of the three. -/
noncomputable def threeWalk (k : ℕ) : SimState 3 :=
  (fun s => (walkLogic.update trioEnv s).2)^[k] (demoState trio)

theorem trio_row (i : Fin 3) : (trio i).radius = 0.3 ∧ (trio i).mass = 80 ∧ (trio i).tauAdj = 0.5 ∧
    (trio i).stdRandForce = 0.1 ∧ (trio i).targetVelocity = 1 ∧ (trio i).force = 0 ∧ (trio i).forcePrev = 0 ∧
    len (trio i).velocity = 1 ∧ len (trio i).targetDirection = 1 := by
  fin_cases i <;> norm_num [trio, facing, Agent.default, Agent.zero, len]

theorem threeWalk_run (N : ℕ) : ShippedRun trioEnv walkLogic
    [.fluctuation, .orientation, .adjusting, .agentAgent (3.0 + 2 * 0.3), .integrator 0.01 0.01, .reset]
    (demoState trio) N threeWalk := by
  refine ⟨⟨0, 1, 0, by norm_num, by norm_num, rfl⟩, order_walk, by simp [SimEnv.field, trioEnv], ?_,
    fun i => ⟨(trio_row i).2.2.2.2.2.1, (trio_row i).2.2.2.2.2.2.1⟩, ⟨rfl, fun k _ => ?_, fun k _ h => ?_⟩,
    fun j _ => trio_cells _⟩
  · refine ⟨rfl, fun k => ?_, fun k => ?_, fun k => ?_, fun k => ?_,
      fun d k a b h => ⟨le_rfl, h⟩, fun g hg => by simp [SimEnv.field, trioEnv] at hg,
      fun c hc => ?_⟩
    · show 0 ≤ (trio k).radius
      rw [(trio_row k).1]; norm_num
    · show 0 < (trio k).mass
      rw [(trio_row k).2.1]; norm_num
    · show 0 < (trio k).tauAdj
      rw [(trio_row k).2.2.1]; norm_num
    · show 0 ≤ (trio k).stdRandForce
      rw [(trio_row k).2.2.2.1]; norm_num
    rw [List.mem_singleton] at hc
    cases hc
    refine ⟨by norm_num, fun i j _ => ?_, trio_cells _⟩
    show 3 + ((trio i).radius + (trio j).radius) ≤ _
    rw [(trio_row i).1, (trio_row j).1]
    norm_num
  · obtain ⟨t, ht⟩ := walk_total trioEnv (threeWalk k)
    rw [show threeWalk (k + 1) = (walkLogic.update trioEnv (threeWalk k)).2 from
      Function.iterate_succ_apply' _ _ _, ht]
  · obtain ⟨c, hc, -⟩ := h
    cases hc

theorem trio_same : SameSurroundings (κ := Fin 2) (Fin.castLE (by norm_num)) id trioEnv meetingEnv :=
  ⟨rfl, rfl, rfl, rfl, rfl, fun _ _ => rfl, fun _ _ => rfl⟩

theorem trio_members : SameMembers (κ := Fin 2) (Fin.castLE (by norm_num)) id (demoState trio)
    (demoState facing) := by
  refine ⟨fun i => ?_, rfl, rfl⟩
  have : (i : ℕ) < 2 := i.2
  simp only [demoState, trio, id, Fin.val_castLE, dif_pos this, Fin.eta]

theorem trio_apart : KeptApart (κ := Fin 2) (Fin.castLE (by norm_num : 2 ≤ 3)) (demoState trio) := by
  intro i k hk
  have : k = 2 := by
    fin_cases k
    · exact absurd ⟨0, rfl⟩ hk
    · exact absurd ⟨1, rfl⟩ hk
    · rfl
  subst this
  show 3 + ((trio _).radius + (trio _).radius) ≤ Spec.dist (trio _).position (trio _).position
  rw [(trio_row _).1, (trio_row _).1]
  fin_cases i
  · norm_num [trio, facing, Spec.dist, len]
    exact Real.le_sqrt_of_sq_le (by norm_num)
  · norm_num [trio, facing, Spec.dist, len]
    exact Real.le_sqrt_of_sq_le (by norm_num)

/-- The agent `wanderer` and another one, 100 m away. -/
noncomputable def amblers : Crowd 2 := fun i => { wanderer 0 with position := (100 * (i : ℕ), 0) }

/-- Their surroundings. -/
noncomputable def amblersEnv : SimEnv 2 :=
  { demoEnv 2 with
    fields := fun _ => ⟨some ([(0, 0), (9, 0), (9, 9), (0, 9), (0, 0)], []), none, [], []⟩
    cellPairs := fun _ _ => [(0, 1)] }

/-- The states of the run. -/
noncomputable def ambling (k : ℕ) : SimState 2 :=
  (fun s => (walkLogic.update amblersEnv s).2)^[k] (demoState amblers)

theorem amblers_cells (s : SimState 2) : CellsWork amblersEnv s := by
  refine ⟨by simp [amblersEnv], ?_, (0, 0), fun i j hij _ _ => ?_⟩
  · simp only [amblersEnv, List.map_cons, List.map_nil]
    decide
  · have H : ∀ i j : Fin 2, i ≠ j → (i, j) ∈ [((0 : Fin 2), (1 : Fin 2))] ∨
        (j, i) ∈ [((0 : Fin 2), (1 : Fin 2))] := by decide
    exact H i j hij

theorem ambling_run (N : ℕ) : ShippedRun amblersEnv walkLogic
    [.fluctuation, .orientation, .adjusting, .agentAgent (3.0 + 2 * 0.3), .integrator 0.01 0.01, .reset]
    (demoState amblers) N ambling := by
  refine ⟨⟨0, 1, 0, by norm_num, by norm_num, rfl⟩, order_walk, by simp [SimEnv.field, amblersEnv], ?_,
    fun i => ⟨rfl, rfl⟩, ⟨rfl, fun k _ => ?_, fun k _ h => ?_⟩, fun j _ => amblers_cells _⟩
  · refine ⟨rfl, fun k => by norm_num [demoState, amblers, wanderer],
      fun k => by norm_num [demoState, amblers, wanderer],
      fun k => by norm_num [demoState, amblers, wanderer],
      fun k => by norm_num [demoState, amblers, wanderer, Agent.default, Agent.zero],
      fun d k a b h => ⟨le_rfl, h⟩, fun g hg => by simp [SimEnv.field, amblersEnv] at hg,
      fun c hc => ?_⟩
    rw [List.mem_singleton] at hc
    cases hc
    refine ⟨by norm_num, fun i j _ => ?_, amblers_cells _⟩
    norm_num [demoState, amblers, wanderer]
  · obtain ⟨t, ht⟩ := walk_total amblersEnv (ambling k)
    rw [show ambling (k + 1) = (walkLogic.update amblersEnv (ambling k)).2 from
      Function.iterate_succ_apply' _ _ _, ht]
  · obtain ⟨c, hc, -⟩ := h
    cases hc

theorem ambling_direction (i : Fin 2) (k : ℕ) :
    ((ambling k).agents.rows i).targetDirection = (1, 0) := by
  induction k with
  | zero => rfl
  | succ k ih =>
    obtain ⟨t, ht⟩ := walk_total amblersEnv (ambling k)
    rw [show ambling (k + 1) = (walkLogic.update amblersEnv (ambling k)).2 from
      Function.iterate_succ_apply' _ _ _, ht, ← ih]
    exact walk_direction _ _ _ ht i

/-- Neither moves more than 2 cm per update. -/
theorem ambling_step (j : ℕ) (hj : j < 1000) (i : Fin 2) :
    Spec.dist ((ambling (j + 1)).agents.rows i).position ((ambling j).agents.rows i).position ≤ 0.02 := by
  induction j using Nat.strong_induction_on generalizing i with
  | _ j ih =>
  have hr := ambling_run (j + 1)
  have hout : ∀ k < j + 1, ∀ i, OutOfReach amblersEnv (ambling k).agents.rows i := by
    intro k hk i
    refine ⟨fun l hl => ?_, fun w hw => by simp [fieldWalls, SimEnv.field, amblersEnv] at hw⟩
    have hb := (completed_body hr.order hr.completed k hk.le).2
    rw [← (hb i).radius, ← (hb l).radius]
    have h1 := drift_le (S := ambling) (N := k) i
      (fun k' hk' => ih k' (by omega) (by omega) i) k le_rfl
    have h2 := drift_le (S := ambling) (N := k) l
      (fun k' hk' => ih k' (by omega) (by omega) l) k le_rfl
    have h3 := dist_le_drifts ((ambling 0).agents.rows i).position ((ambling 0).agents.rows l).position
      ((ambling k).agents.rows i).position ((ambling k).agents.rows l).position
    have h4 : (100 : ℝ) ≤ Spec.dist ((ambling 0).agents.rows i).position
        ((ambling 0).agents.rows l).position := by
      refine Real.le_sqrt_of_sq_le ?_
      fin_cases i <;> fin_cases l <;> first | exact absurd rfl hl | norm_num [ambling, demoState, amblers]
    have h5 : (k : ℝ) ≤ 1000 := by exact_mod_cast (by omega : k ≤ 1000)
    norm_num [demoState, amblers, wanderer] at h1 h2 h3 h4 ⊢
    linarith
  have := (C132_no_jump_partial hr i (by norm_num [demoState, amblers, wanderer])
    (by norm_num [demoState, amblers, wanderer])
    (fun j _ => by rw [ambling_direction]; norm_num [len]) 0 1.3
    (fun j hj d hd => by
      have h1 := disturbs_alone (hout j hj i) hd
      have hb := (completed_body order_walk hr.completed j hj.le).2 i
      rw [← hb.stdRandForce] at h1
      norm_num [demoState, amblers, wanderer, Agent.default, Agent.zero] at h1
      exact h1)
    (by norm_num [demoState, amblers, wanderer])
    (by norm_num [demoState, amblers, wanderer, Agent.default, Agent.zero, len]) j (by omega)).1
  norm_num [demoState, amblers, wanderer] at this ⊢
  linarith

theorem wandering_step (N j : ℕ) (hj : j < N) (i : Fin 1) :
    Spec.dist ((wandering (j + 1)).agents.rows i).position ((wandering j).agents.rows i).position ≤ 0.02 := by
  obtain rfl : i = 0 := Subsingleton.elim _ _
  have := (C132_no_jump_partial (wandering_run N) 0 (by norm_num [demoState, wanderer])
    (by norm_num [demoState, wanderer])
    (fun j _ => by rw [wandering_direction]; norm_num [len]) 0 1.3
    (fun j hj d hd => by
      have h1 := disturbs_alone (wandering_alone j) hd
      have hb := (completed_body order_walk (wandering_run N).completed j hj.le).2 0
      rw [← hb.stdRandForce] at h1
      norm_num [demoState, wanderer, Agent.default, Agent.zero] at h1
      exact h1)
    (by norm_num [demoState, wanderer])
    (by norm_num [demoState, wanderer, Agent.default, Agent.zero, len]) j hj).1
  norm_num [demoState, wanderer] at this ⊢
  linarith

end CrowdDynamics
