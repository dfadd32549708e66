import Verif.Proofs.BodyProgressCases
import Verif.Props.ShippedLogic

/-!
# C194: driven three-circle agents get ahead and leave the field
-/

namespace CrowdDynamics

open Spec

variable {n : ℕ}

/-- **C194** In every run of a shipped simulation (other than `TestMovement`), whatever happens in it: if
what drives a three-circle agent (the velocity it wants, plus everything that disturbs it as a
velocity) always points at least at rate `c` in the direction `u`, then after `k` updates the agent has advanced in this
direction by at least `dt * k * c`, up to a constant that does not depend on `k`. -/
theorem C194_progress {env : SimEnv n} {e : LogicExpr} {order : List Node} {s : SimState n} {N : ℕ}
    {S : ℕ → SimState n} (h : ShippedBodyRun env e order s N S) (i : Fin n)
    (hf0 : (s.agents.rows i).forcePrev = 0)
    (ht : 1 / 30 ≤ (s.agents.rows i).tauAdj) (hv : 0 ≤ (s.agents.rows i).targetVelocity)
    (hd : ∀ j < N, len ((S (j + 1)).agents.rows i).targetDirection ≤ 1) (F V : ℝ)
    (hF : ∀ j < N, ∀ d, DisturbsBody env order (S j) (S (j + 1)) i d → len d.1 ≤ F)
    (hV : V = (s.agents.rows i).targetVelocity +
      (s.agents.rows i).tauAdj * F / (s.agents.rows i).mass)
    (h0 : len (s.agents.rows i).velocity ≤ V) (u : ℝ × ℝ) (hu : len u = 1) (c : ℝ)
    (hc : ∀ j < N, ∀ d, DisturbsBody env order (S j) (S (j + 1)) i d →
      c ≤ Spec.inner ((s.agents.rows i).targetVelocity • ((S (j + 1)).agents.rows i).targetDirection +
        ((s.agents.rows i).tauAdj / (s.agents.rows i).mass) • d.1) u) :
    ∀ k ≤ N, 0.01 * k * c - 2 * V * (s.agents.rows i).tauAdj ≤
      Spec.inner (((S k).agents.rows i).position - (s.agents.rows i).position) u := by
  have hspeed := C189_speed h i hf0 ht hv hd F hF (hV ▸ h0)
  rw [← hV] at hspeed
  have htau := h.regular.tau i
  have hm := h.regular.mass i
  obtain ⟨A, U, hD, hU⟩ := body_way h i hf0
  have := drive_progress (x := fun j => ((S j).agents.rows i).position) hD (by norm_num)
    (by rw [div_le_iff₀ htau]; linarith) htau (fun j hj => (hU j hj).2) (V := V) (c := c) hu
    (fun j hj => by
      obtain ⟨⟨d, h1, h2⟩, h3⟩ := hU j hj
      rw [h2, hV]
      refine (len_add_le' _ _).trans ?_
      rw [len_smul', len_smul', abs_of_nonneg hv, abs_of_nonneg (div_pos htau hm).le]
      have a1 := mul_le_mul_of_nonneg_left (hd j hj) hv
      have a2 := mul_le_mul_of_nonneg_left (hF j hj d h1) (div_pos htau hm).le
      rw [mul_one] at a1
      rw [mul_div_right_comm]
      exact add_le_add a1 a2) hspeed
    (fun j hj => by
      obtain ⟨⟨d, h1, h2⟩, h3⟩ := hU j hj
      rw [h2]
      exact hc j hj d h1)
  intro k hk
  have := this k hk
  simp only [h.completed.first] at this
  exact this

/-- The single agent of the examples below: what disturbs it is at most the random force 24. -/
example (N : ℕ) : ∀ k ≤ N, 0.01 * k * 1.15 - 2 * 1.45 * 0.5 ≤
    Spec.inner (((bodyStrolling k).agents.rows 0).position - (0.5, 0)) (1, 0) := by
  have hF : ∀ order, ∀ j < N, ∀ d,
      DisturbsBody openEnv order (bodyStrolling j) (bodyStrolling (j + 1)) 0 d → len d.1 ≤ 24 := by
    intro order j hj d hd
    have h1 := (disturbs_body_alone (bodyStrolling_alone j) hd).1
    have hb := (completed_body (bodyStrolling_run N).order (bodyStrolling_run N).completed j hj.le).2 0
    rw [← hb.mass, ← hb.stdRandForce] at h1
    have e : 3 * (bodyStrollState.agents.rows 0).mass * (bodyStrollState.agents.rows 0).stdRandForce =
        24 := by
      change 3 * (80 : ℝ) * 0.1 = 24
      norm_num
    rwa [e] at h1
  obtain ⟨e1, e2, e3, e4, e5, e6⟩ := bodyStroll_values
  have := C194_progress (bodyStrolling_run N) 0 rfl (by rw [e1]; norm_num) (by rw [e2]; norm_num)
    (fun j _ => by rw [bodyStrolling_direction]; norm_num [len]) 24 1.45 (hF _)
    (by rw [e1, e2, e6]; norm_num) (by rw [e5]; norm_num [len]) (1, 0) (by norm_num [len]) 1.15
    (fun j hj d hd => ?_)
  · rw [e1, e4] at this
    exact this
  · have h1 := (abs_le.1 ((inner_le_len (a := d.1) (u := (1, 0)) (by norm_num [len])).trans
      (hF _ j hj d hd))).1
    rw [e1, e2, e6, bodyStrolling_direction]
    norm_num [Spec.inner] at h1 ⊢
    linarith

/-- **C194** In particular a three-circle agent who stays out of reach of others and touches no wall, and whose
direction always has a component of at least `c` along `u`, advances by at least
`dt * k * (targetVelocity * c - 3 * tauAdj * std)` up to a constant: it walks where it wants as soon as
its target velocity outweighs the random force. -/
theorem C194_alone {env : SimEnv n} {e : LogicExpr} {order : List Node} {s : SimState n} {N : ℕ}
    {S : ℕ → SimState n} (h : ShippedBodyRun env e order s N S) (i : Fin n)
    (hf0 : (s.agents.rows i).forcePrev = 0)
    (ht : 1 / 30 ≤ (s.agents.rows i).tauAdj) (hv : 0 ≤ (s.agents.rows i).targetVelocity)
    (hd : ∀ j < N, len ((S (j + 1)).agents.rows i).targetDirection ≤ 1)
    (ho : ∀ j < N, BodyOutOfReach env (S j).agents.rows i) (V : ℝ)
    (hV : V = (s.agents.rows i).targetVelocity +
      3 * (s.agents.rows i).tauAdj * (s.agents.rows i).stdRandForce)
    (h0 : len (s.agents.rows i).velocity ≤ V) (u : ℝ × ℝ) (hu : len u = 1) (c : ℝ)
    (hc : ∀ j < N, c ≤ Spec.inner ((S (j + 1)).agents.rows i).targetDirection u) :
    ∀ k ≤ N, 0.01 * k * ((s.agents.rows i).targetVelocity * c -
        3 * (s.agents.rows i).tauAdj * (s.agents.rows i).stdRandForce) -
        2 * V * (s.agents.rows i).tauAdj ≤
      Spec.inner (((S k).agents.rows i).position - (s.agents.rows i).position) u := by
  have hm := h.regular.mass i
  have htau := h.regular.tau i
  have hF : ∀ j < N, ∀ d, DisturbsBody env order (S j) (S (j + 1)) i d →
      len d.1 ≤ 3 * (s.agents.rows i).mass * (s.agents.rows i).stdRandForce := by
    intro j hj d hdj
    have := (disturbs_body_alone (ho j hj) hdj).1
    have hb := (completed_body h.order h.completed j hj.le).2 i
    rwa [← hb.mass, ← hb.stdRandForce] at this
  have he : (s.agents.rows i).tauAdj / (s.agents.rows i).mass *
      (3 * (s.agents.rows i).mass * (s.agents.rows i).stdRandForce) =
      3 * (s.agents.rows i).tauAdj * (s.agents.rows i).stdRandForce := by
    have := hm.ne'
    field_simp
  refine C194_progress h i hf0 ht hv hd _ V hF (by rw [hV, mul_div_right_comm, he]) h0 u hu _ ?_
  intro j hj d hdj
  have h1 := mul_le_mul_of_nonneg_left (hc j hj) hv
  have h2 : |Spec.inner (((s.agents.rows i).tauAdj / (s.agents.rows i).mass) • d.1) u| ≤
      3 * (s.agents.rows i).tauAdj * (s.agents.rows i).stdRandForce := by
    refine (inner_le_len hu).trans ?_
    rw [len_smul', abs_of_nonneg (div_pos htau hm).le, ← he]
    exact mul_le_mul_of_nonneg_left (hF j hj d hdj) (div_pos htau hm).le
  have h3 := (abs_le.1 h2).1
  unfold Spec.inner at *
  simp only [Prod.fst_add, Prod.snd_add, Prod.smul_fst, Prod.smul_snd, smul_eq_mul] at *
  linarith

/-- The same agent again. -/
example (N : ℕ) : ∀ k ≤ N, 0.01 * k * (1.3 * 1 - 3 * 0.5 * 0.1) - 2 * 1.45 * 0.5 ≤
    Spec.inner (((bodyStrolling k).agents.rows 0).position - (0.5, 0)) (1, 0) := by
  obtain ⟨e1, e2, e3, e4, e5, e6⟩ := bodyStroll_values
  have := C194_alone (bodyStrolling_run N) 0 rfl (by rw [e1]; norm_num) (by rw [e2]; norm_num)
    (fun j _ => by rw [bodyStrolling_direction]; norm_num [len]) (fun j _ => bodyStrolling_alone j) 1.45
    (by rw [e1, e2, e3]; norm_num) (by rw [e5]; norm_num [len]) (1, 0) (by norm_num [len]) 1
    (fun j _ => by rw [bodyStrolling_direction]; norm_num [Spec.inner])
  rw [e1, e2, e3, e4] at this
  exact this

/-- **C194** In the simulations with an `InsideDomain`, such a three-circle agent leaves every domain that is bounded
in the direction `u`, and is marked as not active from the first update after that on: at the latest after
the number of updates that the bound `D` of the domain and the rate of progress give. -/
theorem C194_leaves {env : SimEnv n} {e : LogicExpr} {order : List Node} {s : SimState n} {N : ℕ}
    {S : ℕ → SimState n} (h : ShippedBodyRun env e order s N S) (i : Fin n)
    (hf0 : (s.agents.rows i).forcePrev = 0) (ratioObs width : ℝ) (ring : List Vec) (holes : List (List Vec))
    (hdom : env.field.domain = some (ring, holes)) (hw : 1 ≤ (1 - ratioObs) * width)
    (hl : e ∈ [navigationLogic env.field, roundingLogic env.field,
      avoidObstacleLogic ratioObs width env.field, fourExitsLogic env.field])
    (ht : 1 / 30 ≤ (s.agents.rows i).tauAdj) (hv : 0 ≤ (s.agents.rows i).targetVelocity)
    (hd : ∀ j < N, len ((S (j + 1)).agents.rows i).targetDirection ≤ 1)
    (ho : ∀ j < N, BodyOutOfReach env (S j).agents.rows i) (V : ℝ)
    (hV : V = (s.agents.rows i).targetVelocity +
      3 * (s.agents.rows i).tauAdj * (s.agents.rows i).stdRandForce)
    (h0 : len (s.agents.rows i).velocity ≤ V) (u : ℝ × ℝ) (hu : len u = 1) (c : ℝ)
    (hc : ∀ j < N, c ≤ Spec.inner ((S (j + 1)).agents.rows i).targetDirection u) (D : ℝ)
    (hD : ∀ p, env.contains ring p = true → Spec.inner p u ≤ D) (k : ℕ) (hk : k < N)
    (hfar : D - Spec.inner (s.agents.rows i).position u + 2 * V * (s.agents.rows i).tauAdj <
      0.01 * k * ((s.agents.rows i).targetVelocity * c -
        3 * (s.agents.rows i).tauAdj * (s.agents.rows i).stdRandForce)) :
    ((S (k + 1)).agents.rows i).active = false := by
  rw [C96_partial env ratioObs width ring holes hdom hw e hl (S k) (S (k + 1))
    (h.completed.next k hk) i, ← Bool.not_eq_true]
  intro hin
  have h1 := hD _ hin
  have h2 := C194_alone h i hf0 ht hv hd ho V hV h0 u hu c hc k hk.le
  have h3 : Spec.inner (((S k).agents.rows i).position - (s.agents.rows i).position) u =
      Spec.inner ((S k).agents.rows i).position u - Spec.inner (s.agents.rows i).position u := by
    unfold Spec.inner
    simp only [Prod.fst_sub, Prod.snd_sub]
    ring
  rw [h3] at h2
  linarith

/-- The single agent, who is inside and active at the start, is marked as not active from the 200th
update on, however long the run is and whatever the random force does. -/
example (k : ℕ) (hk : 200 ≤ k) : ((bodyStrolling (k + 1)).agents.rows 0).active = false := by
  obtain ⟨e1, e2, e3, e4, e5, e6⟩ := bodyStroll_values
  refine C194_leaves (bodyStrolling_run (k + 1)) 0 rfl 0 1 strollRing [] rfl (by norm_num)
    (by simp [strollLogic]) (by rw [e1]; norm_num) (by rw [e2]; norm_num)
    (fun j _ => by rw [bodyStrolling_direction]; norm_num [len]) (fun j _ => bodyStrolling_alone j) 1.45
    (by rw [e1, e2, e3]; norm_num) (by rw [e5]; norm_num [len]) (1, 0) (by norm_num [len]) 1
    (fun j _ => by rw [bodyStrolling_direction]; norm_num [Spec.inner]) 1 (fun p hp => ?_) k
    (Nat.lt_succ_self k) ?_
  · have : 0 < p.1 ∧ p.1 < 1 := by simpa [openEnv, demoEnv] using hp
    norm_num [Spec.inner]
    exact this.2.le
  · have : (200 : ℝ) ≤ k := by exact_mod_cast hk
    rw [e1, e2, e3, e4]
    norm_num [Spec.inner]
    linarith

/-- It is inside and active at the start, and it is really pushed about. -/
example : ((bodyStrolling 0).agents.rows 0).active = true ∧
    openEnv.contains strollRing ((bodyStrolling 0).agents.rows 0).position = true ∧
    0 < ((bodyStrolling 0).agents.rows 0).stdRandForce := by
  refine ⟨rfl, ?_, ?_⟩
  · norm_num [openEnv, demoEnv, bodyStrolling, bodyStrollState, pacer]
  · norm_num [bodyStrolling, bodyStrollState, pacer]

end CrowdDynamics
