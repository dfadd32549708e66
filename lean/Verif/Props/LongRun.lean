import Verif.Proofs.LongRunCases
import Verif.Proofs.LongRun
import Verif.Proofs.ShippedTotal

/-!
# Long runs of circular agents: C130, C131, C132
-/

namespace CrowdDynamics

open Spec

variable {n : ℕ}

/-! ## A run for the examples -/

/-! ## C130: speed limit -/

/-- **C130** In every run of a shipped simulation (other than `TestMovement`) of any length: if all that
acts on an agent besides its adjusting force never exceeds `F`, and it never wants to walk faster than
`targetVelocity`, its speed never exceeds `targetVelocity + tauAdj * F / mass`, provided it does not
start faster. -/
theorem C130_speed_limit {env : SimEnv n} {e : LogicExpr} {order : List Node} {s : SimState n} {N : ℕ}
    {S : ℕ → SimState n} (h : ShippedRun env e order s N S) (i : Fin n)
    (ht : 1 / 30 ≤ (s.agents.rows i).tauAdj) (hv : 0 ≤ (s.agents.rows i).targetVelocity)
    (hd : ∀ j < N, len ((S (j + 1)).agents.rows i).targetDirection ≤ 1) (F : ℝ)
    (hF : ∀ j < N, ∀ d, Disturbs env order (S j) (S (j + 1)) i d → len d ≤ F)
    (h0 : len (s.agents.rows i).velocity ≤ (s.agents.rows i).targetVelocity +
      (s.agents.rows i).tauAdj * F / (s.agents.rows i).mass) :
    ∀ j ≤ N, len ((S j).agents.rows i).velocity ≤ (s.agents.rows i).targetVelocity +
      (s.agents.rows i).tauAdj * F / (s.agents.rows i).mass := by
  obtain ⟨A, U, hD, hU⟩ := run_drive h i
  have htau := h.regular.tau i
  have hm := h.regular.mass i
  refine drive_bound hD (by norm_num) htau ?_ (fun j hj => ?_) (by rw [h.completed.first]; exact h0)
  · rw [div_le_iff₀ htau]
    linarith
  · obtain ⟨⟨d, h1, h2⟩, -⟩ := hU j hj
    rw [h2]
    refine (len_add_le' _ _).trans ?_
    rw [len_smul', len_smul', abs_of_nonneg hv, abs_of_nonneg (div_pos htau hm).le]
    have a1 := mul_le_mul_of_nonneg_left (hd j hj) hv
    have a2 := mul_le_mul_of_nonneg_left (hF j hj d h1) (div_pos htau hm).le
    rw [mul_one] at a1
    rw [mul_div_right_comm]
    exact add_le_add a1 a2

/-- **C130** In particular an agent who stays out of reach of others and touches no wall never gets
faster than its target velocity by more than three standard deviations of the random force (per mass)
times the relaxation time. -/
theorem C130_alone {env : SimEnv n} {e : LogicExpr} {order : List Node} {s : SimState n} {N : ℕ}
    {S : ℕ → SimState n} (h : ShippedRun env e order s N S) (i : Fin n)
    (ht : 1 / 30 ≤ (s.agents.rows i).tauAdj) (hv : 0 ≤ (s.agents.rows i).targetVelocity)
    (hd : ∀ j < N, len ((S (j + 1)).agents.rows i).targetDirection ≤ 1)
    (hu : ∀ j < N, OutOfReach env (S j).agents.rows i)
    (h0 : len (s.agents.rows i).velocity ≤ (s.agents.rows i).targetVelocity +
      3 * (s.agents.rows i).tauAdj * (s.agents.rows i).stdRandForce) :
    ∀ j ≤ N, len ((S j).agents.rows i).velocity ≤ (s.agents.rows i).targetVelocity +
      3 * (s.agents.rows i).tauAdj * (s.agents.rows i).stdRandForce := by
  have hm := (h.regular.mass i).ne'
  have he : (s.agents.rows i).tauAdj * (3 * (s.agents.rows i).mass * (s.agents.rows i).stdRandForce) /
      (s.agents.rows i).mass = 3 * (s.agents.rows i).tauAdj * (s.agents.rows i).stdRandForce := by
    field_simp
  rw [← he] at h0 ⊢
  refine C130_speed_limit h i ht hv hd _ (fun j hj d hdj => ?_) h0
  have := disturbs_alone (hu j hj) hdj
  have hb := (completed_body h.order h.completed j hj.le).2 i
  rwa [← hb.mass, ← hb.stdRandForce] at this

example (N : ℕ) : ∀ j ≤ N, len ((wandering j).agents.rows 0).velocity ≤ 1.3 := by
  have := C130_alone (wandering_run N) 0 (by norm_num [demoState, wanderer])
    (by norm_num [demoState, wanderer])
    (fun j _ => by rw [wandering_direction]; norm_num [len]) (fun j _ => wandering_alone j)
    (by norm_num [demoState, wanderer, Agent.default, Agent.zero, len])
  intro j hj
  have := this j hj
  norm_num [demoState, wanderer, Agent.default, Agent.zero] at this ⊢
  exact this

/-! ## C131: relaxation -/

/-- **C131** In every run of a shipped simulation (other than `TestMovement`), an agent without random
force, out of reach of others and walls, who keeps its direction: the difference of its velocity to the
desired velocity keeps its direction (no overshooting) and shrinks at least by the factor
`1 - dt / (2 tauAdj)` per update. -/
theorem C131_relaxes {env : SimEnv n} {e : LogicExpr} {order : List Node} {s : SimState n} {N : ℕ}
    {S : ℕ → SimState n} (h : ShippedRun env e order s N S) (i : Fin n)
    (ht : 1 / 30 ≤ (s.agents.rows i).tauAdj) (hs : (s.agents.rows i).stdRandForce = 0) (dir : ℝ × ℝ)
    (hd : ∀ j < N, ((S (j + 1)).agents.rows i).targetDirection = dir)
    (hu : ∀ j < N, OutOfReach env (S j).agents.rows i) :
    ∀ j ≤ N, ∃ c, 0 ≤ c ∧ c ≤ (1 - 0.01 / (2 * (s.agents.rows i).tauAdj)) ^ j ∧
      ((S j).agents.rows i).velocity - (s.agents.rows i).targetVelocity • dir =
        c • ((s.agents.rows i).velocity - (s.agents.rows i).targetVelocity • dir) := by
  obtain ⟨A, U, hD, hU⟩ := run_drive h i
  have htau := h.regular.tau i
  have := drive_relax hD (by norm_num) htau (by rw [div_le_iff₀ htau]; linarith)
    (u := (s.agents.rows i).targetVelocity • dir) (fun j hj => by
      obtain ⟨⟨d, h1, h2⟩, -⟩ := hU j hj
      have h3 := disturbs_alone (hu j hj) h1
      have hb := (completed_body h.order h.completed j hj.le).2 i
      rw [← hb.stdRandForce, hs, mul_zero] at h3
      have h4 : d = 0 := by
        have h5 : len d = 0 := le_antisymm h3 (Real.sqrt_nonneg _)
        unfold len at h5
        rw [Real.sqrt_eq_zero (by positivity)] at h5
        ext
        · simp; nlinarith [sq_nonneg d.1, sq_nonneg d.2]
        · simp; nlinarith [sq_nonneg d.1, sq_nonneg d.2]
      rw [h2, h4, smul_zero, add_zero, hd j hj])
  intro j hj
  obtain ⟨c, c0, c1, c2⟩ := this j hj
  refine ⟨c, c0, by rw [show 0.01 / (2 * (s.agents.rows i).tauAdj) =
    0.01 / (s.agents.rows i).tauAdj / 2 by rw [div_div, mul_comm]]; exact c1, ?_⟩
  rw [h.completed.first] at c2
  exact c2

/-- The single agent in `Outdoor`: after 300 updates (three seconds) the speed is at least 1.2. -/
example : ∃ c, 0 ≤ c ∧ c ≤ (0.99 : ℝ) ^ 300 ∧
    ((wandering 300).agents.rows 0).velocity - (1.3 : ℝ) • ((1, 0) : ℝ × ℝ) =
      c • ((0, 0) - (1.3 : ℝ) • ((1, 0) : ℝ × ℝ)) := by
  obtain ⟨c, h0, h1, h2⟩ := C131_relaxes (wandering_run 300) 0 (by norm_num [demoState, wanderer])
    rfl (1, 0) (fun j _ => wandering_direction _) (fun j _ => wandering_alone j) 300 le_rfl
  refine ⟨c, h0, h1.trans (le_of_eq ?_), h2⟩
  norm_num [demoState, wanderer]

/-! ## C132: nobody jumps over a wall -/

/-- C132, full statement: in no run of a shipped simulation with walls does an agent that does not touch
a wall pass it in the next update. -/
def C132_statement : Prop :=
  ∀ (n : ℕ) (env : SimEnv n) (e : LogicExpr) (order : List Node) (s : SimState n) (N : ℕ)
    (S : ℕ → SimState n), ShippedRun env e order s N S → .agentObstacle ∈ order →
    ∀ i, 1 / 30 ≤ (s.agents.rows i).tauAdj → 0 < (s.agents.rows i).radius →
    ∀ j < N, ∀ w ∈ fieldWalls env.field.obstacles,
      (∀ z ∈ segment ℝ w.1 w.2, (s.agents.rows i).radius ≤ Spec.dist ((S j).agents.rows i).position z) →
      Disjoint (segment ℝ ((S j).agents.rows i).position ((S (j + 1)).agents.rows i).position)
        (segment ℝ w.1 w.2)

/-- **C132** What holds: with the speed limit `V` of C130, in every update every agent moves at most
`dt * V * (1 + dt / tauAdj)`; if this is less than its radius, it does not pass a wall (of the field or
any other) that it does not touch. -/
theorem C132_no_jump_partial {env : SimEnv n} {e : LogicExpr} {order : List Node} {s : SimState n}
    {N : ℕ} {S : ℕ → SimState n} (h : ShippedRun env e order s N S) (i : Fin n)
    (ht : 1 / 30 ≤ (s.agents.rows i).tauAdj) (hv : 0 ≤ (s.agents.rows i).targetVelocity)
    (hd : ∀ j < N, len ((S (j + 1)).agents.rows i).targetDirection ≤ 1) (F V : ℝ)
    (hF : ∀ j < N, ∀ d, Disturbs env order (S j) (S (j + 1)) i d → len d ≤ F)
    (hV : V = (s.agents.rows i).targetVelocity +
      (s.agents.rows i).tauAdj * F / (s.agents.rows i).mass)
    (h0 : len (s.agents.rows i).velocity ≤ V) (j : ℕ) (hj : j < N) :
    Spec.dist ((S (j + 1)).agents.rows i).position ((S j).agents.rows i).position ≤
      0.01 * V * (1 + 0.01 / (s.agents.rows i).tauAdj) ∧
    (0.01 * V * (1 + 0.01 / (s.agents.rows i).tauAdj) < (s.agents.rows i).radius →
      ∀ a b : ℝ × ℝ,
      (∀ z ∈ segment ℝ a b, (s.agents.rows i).radius ≤ Spec.dist ((S j).agents.rows i).position z) →
      Disjoint (segment ℝ ((S j).agents.rows i).position ((S (j + 1)).agents.rows i).position)
        (segment ℝ a b)) := by
  have hspeed := C130_speed_limit h i ht hv hd F hF (hV ▸ h0)
  rw [← hV] at hspeed
  have htau := h.regular.tau i
  have hm := h.regular.mass i
  have hbound : Spec.dist ((S (j + 1)).agents.rows i).position ((S j).agents.rows i).position ≤
      0.01 * V * (1 + 0.01 / (s.agents.rows i).tauAdj) := by
    obtain ⟨A, U, hD, hU⟩ := run_drive h i
    obtain ⟨⟨d, h1, h2⟩, h3⟩ := hU j hj
    have hUV : len (U j) ≤ V := by
      rw [h2, hV]
      refine (len_add_le' _ _).trans ?_
      rw [len_smul', len_smul', abs_of_nonneg hv, abs_of_nonneg (div_pos htau hm).le]
      have a1 := mul_le_mul_of_nonneg_left (hd j hj) hv
      have a2 := mul_le_mul_of_nonneg_left (hF j hj d h1) (div_pos htau hm).le
      rw [mul_one] at a1
      rw [mul_div_right_comm]
      exact add_le_add a1 a2
    have hA : len (A j) ≤ 1 / (s.agents.rows i).tauAdj * (V + V) := by
      rw [hD.accel htau hj, len_smul', abs_of_nonneg (one_div_pos.2 htau).le]
      refine mul_le_mul_of_nonneg_left ?_ (one_div_pos.2 htau).le
      rw [sub_eq_add_neg]
      refine (len_add_le' _ _).trans ?_
      rw [len_neg']
      exact add_le_add hUV (hspeed j hj.le)
    unfold Spec.dist
    rw [h3, show ∀ p q r : ℝ × ℝ, p + q + r - p = q + r by intro p q r; abel]
    refine (len_add_le' _ _).trans ?_
    rw [len_smul', len_smul', abs_of_nonneg (by norm_num), abs_of_nonneg (by norm_num)]
    have b1 := mul_le_mul_of_nonneg_left (hspeed (j + 1) hj) (show (0 : ℝ) ≤ 0.01 by norm_num)
    have b2 := mul_le_mul_of_nonneg_left hA (show (0 : ℝ) ≤ 0.01 ^ 2 / 2 by norm_num)
    have : 0.01 * V * (1 + 0.01 / (s.agents.rows i).tauAdj) =
      0.01 * V + 0.01 ^ 2 / 2 * (1 / (s.agents.rows i).tauAdj * (V + V)) := by ring
    rw [this]
    exact add_le_add b1 b2
  refine ⟨hbound, fun hlt a b hw => ?_⟩
  rw [Set.disjoint_left]
  intro x hx hx'
  have h1 := hw x hx'
  obtain ⟨a', b', ha, hb, hab, rfl⟩ := hx
  have hx2 : ((S j).agents.rows i).position - (a' • ((S j).agents.rows i).position +
      b' • ((S (j + 1)).agents.rows i).position) =
      (-b') • (((S (j + 1)).agents.rows i).position - ((S j).agents.rows i).position) := by
    rw [show a' = 1 - b' by linarith]
    module
  unfold Spec.dist at h1 hbound
  rw [hx2, len_smul', abs_neg, abs_of_nonneg hb] at h1
  have h2 := mul_le_mul_of_nonneg_right (show b' ≤ 1 by linarith)
    (len_nonneg' (((S (j + 1)).agents.rows i).position -
      ((S j).agents.rows i).position))
  rw [one_mul] at h2
  linarith

/-- The single agent in `Outdoor` moves at most 1.326 cm per update. -/
example (N j : ℕ) (hj : j < N) : Spec.dist ((wandering (j + 1)).agents.rows 0).position
    ((wandering j).agents.rows 0).position ≤ 0.01326 := by
  have := (C132_no_jump_partial (wandering_run N) 0 (by norm_num [demoState, wanderer])
    (by norm_num [demoState, wanderer])
    (fun j _ => by rw [wandering_direction]; norm_num [len]) 0 1.3
    (fun j hj d hd => by
      have h1 := disturbs_alone (wandering_alone j) hd
      have hb := (completed_body order_walk (wandering_run N).completed j hj.le).2 0
      rw [← hb.stdRandForce] at h1
      norm_num [demoState, wanderer, Agent.default, Agent.zero] at h1
      exact h1)
    (by norm_num [demoState, wanderer])
    (by norm_num [demoState, wanderer, Agent.default, Agent.zero, len]) j hj).1
  norm_num [demoState, wanderer] at this ⊢
  exact this

/-- A very fast agent in front of a wall, in a closed room simulation. -/
noncomputable def bullet : Crowd 1 := fun _ =>
  { Agent.default with
    mass := 80, radius := 0.25, tauAdj := 0.5, velocity := (100, 0), targetVelocity := 0,
    stdRandForce := 0 }

/-- The wall. -/
noncomputable def bulletEnv : SimEnv 1 :=
  { demoEnv 1 with
    fields := fun _ => ⟨some ([(0, 0), (9, 0), (9, 9), (0, 9), (0, 0)], []),
      some (.lineString [(0.5, -1), (0.5, 1)]), [], []⟩ }

/-- **C132** fails: nothing limits the speed of an agent. One with 100 m/s at a distance of 0.5 m from
a wall is on the other side after one update. -/
theorem C132_fails : ¬ C132_statement := by
  intro h
  have ho : ∀ g, bulletEnv.field.obstacles = some g → Supported g := by
    intro g hg
    cases hg
    exact .lineString _
  obtain ⟨t, ht⟩ := herding_total bulletEnv (demoState bullet) ho closedRoomLogic (by simp)
  have hrun : ShippedRun bulletEnv closedRoomLogic [.fluctuation, .herding 10.0 5, .orientation,
      .adjusting, .agentAgent (3.0 + 2 * 0.3), .agentObstacle, .integrator 0.01 0.01, .reset]
      (demoState bullet) 1
      (fun j => if j = 0 then demoState bullet else t) := by
    refine ⟨⟨0, 1, 7, by norm_num, by norm_num, rfl⟩, order_closed, by simp [SimEnv.field, bulletEnv],
      ?_, fun i => ⟨rfl, rfl⟩, ⟨rfl, fun k hk => ?_, fun k _ h => ?_⟩,
      fun j _ => lonely_cells _ rfl _⟩
    · refine ⟨rfl, fun k => by norm_num [demoState, bullet], fun k => by norm_num [demoState, bullet],
        fun k => by norm_num [demoState, bullet],
        fun k => by norm_num [demoState, bullet, Agent.default, Agent.zero],
        fun d k a b h => ⟨le_rfl, h⟩, ho, fun c hc => ?_⟩
      rw [List.mem_singleton] at hc
      cases hc
      exact ⟨by norm_num, fun i j hij => absurd (Subsingleton.elim i j) hij, lonely_cells _ rfl _⟩
    · have : k = 0 := by omega
      subst this
      simpa using ht
    · obtain ⟨c, hc, -⟩ := h
      cases hc
  have hwall : ∀ z ∈ segment ℝ ((0.5, -1) : ℝ × ℝ) (0.5, 1), z.1 = 0.5 := by
    rintro z ⟨a, b, ha, hb, hab, rfl⟩
    simp only [Prod.smul_mk, smul_eq_mul, Prod.mk_add_mk]
    linear_combination 0.5 * hab
  have hfar : ∀ z ∈ segment ℝ ((0.5, -1) : ℝ × ℝ) (0.5, 1), (0.5 : ℝ) ≤ Spec.dist (0, 0) z := by
    intro z hz
    unfold Spec.dist len
    refine Real.le_sqrt_of_sq_le ?_
    simp only [Prod.fst_sub, hwall z hz]
    nlinarith [sq_nonneg ((0, 0) - z : ℝ × ℝ).2]
  have hdis := h 1 bulletEnv closedRoomLogic _ _ 1 _ hrun (by simp) 0
    (by norm_num [demoState, bullet]) (by norm_num [demoState, bullet]) 0 (by norm_num)
    ((0.5, -1), (0.5, 1)) (by simp [fieldWalls, SimEnv.field, bulletEnv, fillHoles, outline, consecutive])
    (fun z hz => by
      have := hfar z hz
      norm_num [demoState, bullet, Agent.default, Agent.zero] at this ⊢
      linarith)
  obtain ⟨A, U, hD, hU⟩ := run_drive hrun 0
  obtain ⟨⟨d, hd, hUd⟩, hp⟩ := hU 0 (by norm_num)
  have hd0 : len d ≤ 0 := by
    have := disturbs_alone ⟨fun j hj => absurd (Subsingleton.elim j 0) hj, fun w hw => ?_⟩ hd
    · simpa [demoState, bullet, Agent.default, Agent.zero] using this
    · have hw : w = ((0.5, -1), (0.5, 1)) := by
        simpa [fieldWalls, SimEnv.field, bulletEnv, fillHoles, outline, consecutive] using hw
      subst hw
      intro z hz
      have := hfar z hz
      norm_num [demoState, bullet, Agent.default, Agent.zero] at this ⊢
      linarith
  have hdz : d = 0 := by
    have h5 : len d = 0 := le_antisymm hd0 (Real.sqrt_nonneg _)
    unfold len at h5
    rw [Real.sqrt_eq_zero (by positivity)] at h5
    ext
    · simp; nlinarith [sq_nonneg d.1, sq_nonneg d.2]
    · simp; nlinarith [sq_nonneg d.1, sq_nonneg d.2]
  have hA := hD.accel (by norm_num [demoState, bullet]) (show 0 < 1 by norm_num)
  have hv := hD.first (by norm_num)
  rw [hUd, hdz] at hA
  simp only [demoState, bullet, Agent.default, Agent.zero, if_true, one_ne_zero, if_false, zero_smul,
    smul_zero, add_zero, zero_sub] at hA hv hp hdis
  have hA' : A 0 = (-200, 0) := by
    rw [hA]; ext <;> norm_num
  have hv' : (t.agents.rows 0).velocity = (99, 0) := by
    rw [hv, hA']; ext <;> norm_num
  have hp' : (t.agents.rows 0).position = (0.98, 0) := by
    rw [show (0 : ℕ) + 1 = 1 from rfl] at hp
    simp only [one_ne_zero, if_false] at hp
    rw [hp, hv', hA']; ext <;> norm_num
  rw [show (0 : ℕ) + 1 = 1 from rfl] at hdis
  simp only [one_ne_zero, if_false] at hdis
  rw [hp', Set.disjoint_left] at hdis
  refine hdis (a := (0.5, 0)) ⟨1 - 0.5 / 0.98, 0.5 / 0.98, by norm_num, by norm_num, by norm_num, ?_⟩
    ⟨1 / 2, 1 / 2, by norm_num, by norm_num, by norm_num, ?_⟩
  · ext <;> norm_num
  · ext <;> norm_num

end CrowdDynamics
