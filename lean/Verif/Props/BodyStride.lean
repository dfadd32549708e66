import Verif.Proofs.BodyStrideCases

/-!
# C192: three-circle agents do not jump over walls
-/

namespace CrowdDynamics

open Spec

variable {n : ℕ}

/-- **C192** In no run of a shipped simulation with walls does a circle of a three-circle agent that does not
touch a wall pass it in the next update. -/
def C192_statement : Prop :=
  ∀ (n : ℕ) (env : SimEnv n) (e : LogicExpr) (order : List Node) (s : SimState n) (N : ℕ)
    (S : ℕ → SimState n), ShippedBodyRun env e order s N S → .agentObstacle ∈ order →
    ∀ i, 1 / 30 ≤ (s.agents.rows i).tauAdj → 1 / 30 ≤ (s.agents.rows i).tauRot →
    (∀ p, 0 < (s.agents.rows i).radii p) →
    ∀ j < N, ∀ w ∈ fieldWalls env.field.obstacles, ∀ p,
      (∀ z ∈ segment ℝ w.1 w.2,
        (s.agents.rows i).radii p ≤ Spec.dist (((S j).agents.rows i).circles p) z) →
      Disjoint (segment ℝ (((S j).agents.rows i).circles p) (((S (j + 1)).agents.rows i).circles p))
        (segment ℝ w.1 w.2)

/-- **C192** False: nothing limits the speed of an agent. The torso of one with 100 m/s half a metre in front
of a wall is on the other side after one update. -/
theorem C192_fails : ¬ C192_statement := by
  intro H
  obtain ⟨S, h⟩ := bulletBody_run 100 0
  have hdis := H 1 bulletEnv closedRoomLogic _ _ 1 S h (by simp [closedOrder]) 0
    (by norm_num [bulletBodyState, bulletBody]) (by norm_num [bulletBodyState, bulletBody])
    (fun p => by fin_cases p <;> norm_num [Agent.radii, bulletBodyState, bulletBody]) 0 (by norm_num)
    ((0.5, -1), (0.5, 1)) (by simp [fieldWalls, SimEnv.field, bulletEnv, fillHoles, outline, consecutive]) 0
    (fun z hz => by
      have := bullet_far z hz
      rw [h.completed.first]
      change (0.2 : ℝ) ≤ Spec.dist (0, 0) z
      linarith)
  rw [h.completed.first] at hdis
  change Disjoint (segment ℝ ((0 : ℝ), (0 : ℝ)) ((S 1).agents.rows 0).position) _ at hdis
  rw [bulletBody_moves 100 0 h, Set.disjoint_left] at hdis
  refine hdis (a := (0.5, 0)) ⟨1 - 0.5 / 0.98, 0.5 / 0.98, by norm_num, by norm_num, by norm_num, ?_⟩
    ⟨1 / 2, 1 / 2, by norm_num, by norm_num, by norm_num, ?_⟩
  · ext <;> norm_num
  · ext <;> norm_num

/-- **C192** What holds: with the limits `V` of the speed and `W` of the angular velocity of C189, in every
update the torso moves at most `dt V (1 + dt / tauAdj)` and every circle at most
`dt V (1 + dt / tauAdj) + rTs dt W (1 + dt / tauRot)`; a circle whose radius is larger does not pass a wall
(of the field or any other) that it does not touch. -/
theorem C192_no_jump_partial {env : SimEnv n} {e : LogicExpr} {order : List Node} {s : SimState n}
    {N : ℕ} {S : ℕ → SimState n} (h : ShippedBodyRun env e order s N S) (i : Fin n)
    (hf : (s.agents.rows i).forcePrev = 0) (hf' : (s.agents.rows i).torquePrev = 0)
    (ht : 1 / 30 ≤ (s.agents.rows i).tauAdj) (ht' : 1 / 30 ≤ (s.agents.rows i).tauRot)
    (hv : 0 ≤ (s.agents.rows i).targetVelocity) (hw : 0 ≤ (s.agents.rows i).targetAngularVelocity)
    (hd : ∀ j < N, len ((S (j + 1)).agents.rows i).targetDirection ≤ 1) (F M V W : ℝ)
    (hF : ∀ j < N, ∀ d, DisturbsBody env order (S j) (S (j + 1)) i d → len d.1 ≤ F ∧ |d.2| ≤ M)
    (hV : V = (s.agents.rows i).targetVelocity +
      (s.agents.rows i).tauAdj * F / (s.agents.rows i).mass)
    (hW : W = (s.agents.rows i).targetAngularVelocity +
      (s.agents.rows i).tauRot * M / (s.agents.rows i).inertiaRot)
    (h0 : len (s.agents.rows i).velocity ≤ V) (h0' : |(s.agents.rows i).angularVelocity| ≤ W)
    (j : ℕ) (hj : j < N) :
    Spec.dist ((S (j + 1)).agents.rows i).position ((S j).agents.rows i).position ≤
      0.01 * V * (1 + 0.01 / (s.agents.rows i).tauAdj) ∧
    ∀ p : Fin 3, ∀ bound : ℝ, bound = 0.01 * V * (1 + 0.01 / (s.agents.rows i).tauAdj) +
        (if p = 0 then 0 else |(s.agents.rows i).rTs| *
          (0.01 * W * (1 + 0.01 / (s.agents.rows i).tauRot))) →
      Spec.dist (((S (j + 1)).agents.rows i).circles p) (((S j).agents.rows i).circles p) ≤ bound ∧
      (bound < (s.agents.rows i).radii p → ∀ a b : ℝ × ℝ,
        (∀ z ∈ segment ℝ a b,
          (s.agents.rows i).radii p ≤ Spec.dist (((S j).agents.rows i).circles p) z) →
        Disjoint (segment ℝ (((S j).agents.rows i).circles p) (((S (j + 1)).agents.rows i).circles p))
          (segment ℝ a b)) := by
  have h1 := body_stride h i hf ht hv hd F V (fun j hj d hd => (hF j hj d hd).1) hV h0 j hj
  obtain ⟨k, turn, hk, h2⟩ :=
    body_swing h i hf' ht' hw M W (fun j hj d hd => (hF j hj d hd).2) hW h0' j hj
  refine ⟨h1, fun p bound hb => ?_⟩
  have hb0 := (completed_body h.order h.completed j hj.le).2 i
  have hb1 := (completed_body h.order h.completed (j + 1) hj).2 i
  have key : Spec.dist (((S (j + 1)).agents.rows i).circles p) (((S j).agents.rows i).circles p) ≤
      bound := by
    rw [hb]
    split_ifs with hp
    · subst hp
      rw [add_zero]
      exact h1
    · refine (circle_step (run_attached h hj.le i) (run_attached h hj i)
        (hb1.rTs.symm.trans hb0.rTs) hk p).trans (add_le_add h1 ?_)
      rw [← hb0.rTs]
      exact mul_le_mul_of_nonneg_left h2 (abs_nonneg _)
  exact ⟨key, fun hlt a b hab => short_step (lt_of_le_of_lt key hlt) hab⟩

/-! ## Examples -/

/-- The hypotheses of the refuted statement are met by the fast agent, which gets to (0.98, 0). -/
example : ∃ S : ℕ → SimState 1,
    ShippedBodyRun bulletEnv closedRoomLogic closedOrder (bulletBodyState 100 0) 1 S ∧
      ((S 1).agents.rows 0).position = (0.98, 0) := by
  obtain ⟨S, h⟩ := bulletBody_run 100 0
  refine ⟨S, h, ?_⟩
  rw [bulletBody_moves 100 0 h]
  ext <;> norm_num

/-- An agent alone in `Outdoor`, with random force and torque: its shoulders (of radius 0.1) move at most
1.6 cm per update and do not pass a wall that they do not touch. -/
example (N j : ℕ) (hj : j < N) (a b : ℝ × ℝ)
    (hab : ∀ z ∈ segment ℝ a b, (0.1 : ℝ) ≤ Spec.dist ((pacingAlone j).agents.rows 0).positionLs z) :
    Spec.dist ((pacingAlone (j + 1)).agents.rows 0).positionLs
      ((pacingAlone j).agents.rows 0).positionLs ≤ 0.016 ∧
    Disjoint (segment ℝ ((pacingAlone j).agents.rows 0).positionLs
      ((pacingAlone (j + 1)).agents.rows 0).positionLs) (segment ℝ a b) := by
  have hr := pacingAlone_run N
  obtain ⟨k1, k2⟩ := (C192_no_jump_partial hr 0 rfl rfl (by norm_num [pacerState, pacer])
    (by norm_num [pacerState, pacer, Agent.default]) (by norm_num [pacerState, pacer])
    (by norm_num [pacerState, pacer, Agent.default, Agent.zero])
    (fun j _ => by rw [pacingAlone_direction]; norm_num [len]) 24 1.2 1.45 0.06
    (fun j hj d hd => by
      obtain ⟨h1, h2⟩ := disturbs_body_alone ⟨fun k hk => absurd (Subsingleton.elim k 0) hk,
        fun w hw => by simp [fieldWalls, SimEnv.field, openEnv] at hw⟩ hd
      have hb := (completed_body order_walk hr.completed j hj.le).2 0
      rw [← hb.stdRandForce, ← hb.mass] at h1
      rw [← hb.stdRandTorque, ← hb.inertiaRot] at h2
      norm_num [pacerState, pacer, Agent.default] at h1 h2 ⊢
      exact ⟨h1, h2⟩)
    (by norm_num [pacerState, pacer]) (by norm_num [pacerState, pacer, Agent.default, Agent.zero])
    (by norm_num [pacerState, pacer, Agent.default, Agent.zero, len])
    (by norm_num [pacerState, pacer, Agent.default, Agent.zero]) j hj).2 1 _ rfl
  have hbound : (0.01 : ℝ) * 1.45 * (1 + 0.01 / (pacerState.agents.rows 0).tauAdj) +
      (if (1 : Fin 3) = 0 then 0 else |(pacerState.agents.rows 0).rTs| *
        (0.01 * 0.06 * (1 + 0.01 / (pacerState.agents.rows 0).tauRot))) ≤ 0.016 := by
    norm_num [pacerState, pacer, Agent.default, abs_of_pos]
  exact ⟨k1.trans hbound, k2 (lt_of_le_of_lt hbound (by norm_num [pacerState, pacer, Agent.radii])) a b
    (fun z hz => by
      have := hab z hz
      norm_num [pacerState, pacer, Agent.radii, Agent.circles] at this ⊢
      exact this)⟩

end CrowdDynamics
