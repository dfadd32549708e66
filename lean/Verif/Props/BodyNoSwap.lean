import Verif.Proofs.BodyNoSwapCases
import Verif.Props.BodyStride

/-!
# Three-circle agents do not jump over each other: C201
-/

namespace CrowdDynamics

open Spec

variable {n : ℕ}

/-- **C201** (full statement): in no run of a shipped simulation with three-circle agents do circles of two
agents that do not overlap change sides in the next update. -/
def C201_statement : Prop :=
  ∀ (n : ℕ) (env : SimEnv n) (e : LogicExpr) (order : List Node) (s : SimState n) (N : ℕ)
    (S : ℕ → SimState n), ShippedBodyRun env e order s N S →
    ∀ i k, i ≠ k → (∀ m ∈ [i, k], 1 / 30 ≤ (s.agents.rows m).tauAdj ∧
      1 / 30 ≤ (s.agents.rows m).tauRot) → ∀ p q, ∀ j < N,
      (s.agents.rows i).radii p + (s.agents.rows k).radii q ≤
        Spec.dist (((S j).agents.rows i).circles p) (((S j).agents.rows k).circles q) →
      KeepSides (((S j).agents.rows i).circles p) (((S j).agents.rows k).circles q)
        (((S (j + 1)).agents.rows i).circles p) (((S (j + 1)).agents.rows k).circles q)

/-- **C201** What holds (1): with the limits `V` of the speed and `W` of the angular velocity of C189,
circle `p` of agent `i` and circle `q` of agent `k` do not change sides in an update if they do not overlap
and what they can move in it is together less than the sum of their radii. What is missing: such limits do
not follow from the code. -/
theorem C201_no_swap_partial {env : SimEnv n} {e : LogicExpr} {order : List Node} {s : SimState n}
    {N : ℕ} {S : ℕ → SimState n} (h : ShippedBodyRun env e order s N S) (i k : Fin n)
    (F M V W : Fin n → ℝ)
    (hf : ∀ m ∈ [i, k], (s.agents.rows m).forcePrev = 0 ∧ (s.agents.rows m).torquePrev = 0)
    (ht : ∀ m ∈ [i, k], 1 / 30 ≤ (s.agents.rows m).tauAdj ∧ 1 / 30 ≤ (s.agents.rows m).tauRot)
    (hv : ∀ m ∈ [i, k], 0 ≤ (s.agents.rows m).targetVelocity ∧
      0 ≤ (s.agents.rows m).targetAngularVelocity)
    (hd : ∀ m ∈ [i, k], ∀ j < N, len ((S (j + 1)).agents.rows m).targetDirection ≤ 1)
    (hF : ∀ m ∈ [i, k], ∀ j < N, ∀ d, DisturbsBody env order (S j) (S (j + 1)) m d →
      len d.1 ≤ F m ∧ |d.2| ≤ M m)
    (hV : ∀ m ∈ [i, k], V m = (s.agents.rows m).targetVelocity +
      (s.agents.rows m).tauAdj * F m / (s.agents.rows m).mass)
    (hW : ∀ m ∈ [i, k], W m = (s.agents.rows m).targetAngularVelocity +
      (s.agents.rows m).tauRot * M m / (s.agents.rows m).inertiaRot)
    (h0 : ∀ m ∈ [i, k], len (s.agents.rows m).velocity ≤ V m ∧
      |(s.agents.rows m).angularVelocity| ≤ W m)
    (p q : Fin 3) (bound : Fin n → Fin 3 → ℝ)
    (hb : ∀ m r, bound m r = 0.01 * V m * (1 + 0.01 / (s.agents.rows m).tauAdj) +
        (if r = 0 then 0 else |(s.agents.rows m).rTs| *
          (0.01 * W m * (1 + 0.01 / (s.agents.rows m).tauRot))))
    (hr : bound i p + bound k q < (s.agents.rows i).radii p + (s.agents.rows k).radii q)
    (j : ℕ) (hj : j < N) (ho : (s.agents.rows i).radii p + (s.agents.rows k).radii q ≤
      Spec.dist (((S j).agents.rows i).circles p) (((S j).agents.rows k).circles q)) :
    KeepSides (((S j).agents.rows i).circles p) (((S j).agents.rows k).circles q)
      (((S (j + 1)).agents.rows i).circles p) (((S (j + 1)).agents.rows k).circles q) := by
  have move : ∀ m ∈ [i, k], ∀ r, Spec.dist (((S (j + 1)).agents.rows m).circles r)
      (((S j).agents.rows m).circles r) ≤ bound m r := fun m hm r =>
    ((C192_no_jump_partial h m (hf m hm).1 (hf m hm).2 (ht m hm).1 (ht m hm).2 (hv m hm).1 (hv m hm).2
      (hd m hm) (F m) (M m) (V m) (W m) (hF m hm) (hV m hm) (hW m hm) (h0 m hm).1 (h0 m hm).2 j hj).2
        r _ (hb m r)).1
  exact keepSides_of_steps (move i (by simp) p) (move k (by simp) q) (hr.trans_le ho)

/-- **C201** What holds (2): for the torsos no bound on the forces has to be assumed as long as no circle of
the two agents touches anything: besides the random force at most 2000 N act on each from every other agent,
whatever the torques are. So if they do not start faster than `V`, and `V` is small enough for the size of
their torsos, these do not change sides. -/
theorem C201_untouched_partial {env : SimEnv n} {e : LogicExpr} {order : List Node} {s : SimState n}
    {N : ℕ} {S : ℕ → SimState n} (h : ShippedBodyRun env e order s N S) (i k : Fin n) (hik : i ≠ k)
    (V : Fin n → ℝ)
    (hf : ∀ m ∈ [i, k], (s.agents.rows m).forcePrev = 0)
    (ht : ∀ m ∈ [i, k], 1 / 30 ≤ (s.agents.rows m).tauAdj)
    (hv : ∀ m ∈ [i, k], 0 ≤ (s.agents.rows m).targetVelocity)
    (hd : ∀ m ∈ [i, k], ∀ j < N, len ((S (j + 1)).agents.rows m).targetDirection ≤ 1)
    (hu : ∀ m ∈ [i, k], ∀ j < N, BodyTouchesNothing env (S j).agents.rows m)
    (hV : ∀ m ∈ [i, k], V m = (s.agents.rows m).targetVelocity + (s.agents.rows m).tauAdj *
      (3 * (s.agents.rows m).stdRandForce + 2000 * (n - 1) / (s.agents.rows m).mass))
    (h0 : ∀ m ∈ [i, k], len (s.agents.rows m).velocity ≤ V m)
    (hr : 0.01 * V i * (1 + 0.01 / (s.agents.rows i).tauAdj) +
      0.01 * V k * (1 + 0.01 / (s.agents.rows k).tauAdj) <
        (s.agents.rows i).rT + (s.agents.rows k).rT) :
    ∀ j < N, KeepSides ((S j).agents.rows i).position ((S j).agents.rows k).position
      ((S (j + 1)).agents.rows i).position ((S (j + 1)).agents.rows k).position := by
  intro j hj
  have move : ∀ m ∈ [i, k], Spec.dist ((S (j + 1)).agents.rows m).position
      ((S j).agents.rows m).position ≤ 0.01 * V m * (1 + 0.01 / (s.agents.rows m).tauAdj) := by
    intro m hm
    refine body_stride h m (hf m hm) (ht m hm) (hv m hm) (hd m hm) (3 * (s.agents.rows m).mass *
      (s.agents.rows m).stdRandForce + 2000 * (n - 1)) (V m) (fun j hj d hdj => ?_) ?_ (h0 m hm) j hj
    · have := disturbs_body_untouched (hu m hm j hj) hdj
      have hb := (completed_body h.order h.completed j hj.le).2 m
      rwa [← hb.mass, ← hb.stdRandForce] at this
    · rw [hV m hm]
      have := (h.regular.mass m).ne'
      field_simp
  refine keepSides_of_steps (move i (by simp)) (move k (by simp)) (hr.trans_le ?_)
  have := (hu i (by simp) j hj).1 k hik.symm 0 0
  have hi := (completed_body h.order h.completed j hj.le).2 i
  have hk := (completed_body h.order h.completed j hj.le).2 k
  rw [hi.rT, hk.rT]
  exact this

/-- **C201** fails: nothing limits the speed of an agent. The torso of one with 100 m/s that is 0.6 m behind
a standing one is 0.3 m in front of it after one update, though the social force pushes with up to 2000 N. -/
theorem C201_fails : ¬ C201_statement := by
  intro h
  have hrun := chase_run 100 1
  have c0 : ∀ a : Agent, a.circles 0 = a.position := fun _ => rfl
  have e0 : (chase 100 0).agents.rows = chasing 100 := rfl
  have hap : ((chasingState 100).agents.rows 0).radii 0 + ((chasingState 100).agents.rows 1).radii 0 ≤
      Spec.dist (((chase 100 0).agents.rows 0).circles 0) (((chase 100 0).agents.rows 1).circles 0) := by
    rw [e0]
    exact (chasing_untouched 100 0).1 1 (by decide) 0 0
  have hk := h 2 (orderEnv (0, 1)) walkLogic _ _ 1 _ hrun 0 1 (by decide)
    (fun m _ => by norm_num [chasingState, chasing]) 0 0 0 (by norm_num) hap
  rw [c0, c0, c0, c0, e0, zero_add] at hk
  have k1 := hk 1 (by norm_num) le_rfl
  have f0 := abs_le.1 (chase_far 0)
  have f1 := abs_le.1 (chase_far 1)
  rw [one_smul, one_smul, add_sub_cancel, add_sub_cancel] at k1
  obtain ⟨x, hx⟩ : ∃ x, x = ((chase 100 1).agents.rows 0).position := ⟨_, rfl⟩
  obtain ⟨y, hy⟩ : ∃ y, y = ((chase 100 1).agents.rows 1).position := ⟨_, rfl⟩
  rw [← hx] at f0 k1
  rw [← hy] at f1 k1
  simp only [chasing, if_true, one_ne_zero, if_false] at f0 f1 k1
  unfold Spec.inner at k1
  simp only [Prod.mk_sub_mk, Prod.fst_sub, sub_zero, zero_sub, zero_mul, add_zero] at k1
  linarith

/-! ## Examples -/

/-- Two agents of 80 kg, the one behind at 5 m/s: their torsos keep their sides. -/
example : KeepSides ((chase 5 0).agents.rows 0).position ((chase 5 0).agents.rows 1).position
    ((chase 5 (0 + 1)).agents.rows 0).position ((chase 5 (0 + 1)).agents.rows 1).position := by
  have hdir : ∀ m, len ((chase 5 (0 + 1)).agents.rows m).targetDirection ≤ 1 := by
    intro m
    obtain ⟨t, ht⟩ := walk_total (orderEnv (0, 1)) (chase 5 0)
    rw [show chase 5 (0 + 1) = (walkLogic.update (orderEnv (0, 1)) (chase 5 0)).2 from
      Function.iterate_succ_apply' _ _ _, ht]
    rw [walk_direction _ _ _ ht m]
    change len (chasing 5 m).targetDirection ≤ 1
    norm_num [chasing, len, Agent.default, Agent.zero]
  exact C201_untouched_partial (chase_run 5 1) 0 1 (by decide) (fun _ => 12.5)
    (fun m _ => rfl) (fun m _ => by norm_num [chasingState, chasing])
    (fun m _ => by norm_num [chasingState, chasing])
    (fun m _ j hj => by
      obtain rfl : j = 0 := by omega
      exact hdir m)
    (fun m _ j hj => by
      obtain rfl : j = 0 := by omega
      exact chasing_untouched 5 m)
    (fun m _ => by norm_num [chasingState, chasing])
    (fun m _ => by
      fin_cases m <;> simp [chasingState, chasing, len] <;> norm_num)
    (by norm_num [chasingState, chasing]) 0 (by norm_num)

/-- The right shoulder of an agent and the left one of another, pushed by random forces and torques. -/
example : KeepSides (((pacing 0).agents.rows 0).circles 2) (((pacing 0).agents.rows 1).circles 1)
    (((pacing (0 + 1)).agents.rows 0).circles 2) (((pacing (0 + 1)).agents.rows 1).circles 1) := by
  have e0 : (pacing 0).agents.rows = fun i : Fin 2 => pacer (100 * (i : ℕ)) := rfl
  have hout : ∀ i, BodyOutOfReach (orderEnv (0, 1)) (pacing 0).agents.rows i := by
    intro i
    refine ⟨fun l hl => circles_far (pacer_within _) (pacer_within _) (Real.le_sqrt_of_sq_le ?_),
      fun w hw => by simp [fieldWalls, SimEnv.field, orderEnv] at hw⟩
    rw [e0]
    fin_cases i <;> fin_cases l <;> first | exact absurd rfl hl | norm_num [pacer]
  have hr := pacing_run 1
  refine C201_no_swap_partial hr 0 1 (fun _ => 24) (fun _ => 1.2) (fun _ => 1.45) (fun _ => 0.06)
    (fun m _ => ⟨rfl, rfl⟩) (fun m _ => by norm_num [pacersState, pacer, Agent.default])
    (fun m _ => by norm_num [pacersState, pacer, Agent.default, Agent.zero])
    (fun m _ j _ => by rw [pacing_direction]; norm_num [len])
    (fun m _ j hj d hd => ?_)
    (fun m _ => by norm_num [pacersState, pacer])
    (fun m _ => by norm_num [pacersState, pacer, Agent.default, Agent.zero])
    (fun m _ => by norm_num [pacersState, pacer, Agent.default, Agent.zero, len]) 2 1
    (fun m r => 0.01 * 1.45 * (1 + 0.01 / (pacersState.agents.rows m).tauAdj) +
      (if r = 0 then 0 else |(pacersState.agents.rows m).rTs| *
        (0.01 * 0.06 * (1 + 0.01 / (pacersState.agents.rows m).tauRot))))
    (fun m r => rfl) ?_ 0 (by norm_num) ?_
  · obtain rfl : j = 0 := by omega
    obtain ⟨h1, h2⟩ := disturbs_body_alone (hout m) hd
    rw [e0] at h1 h2
    norm_num [pacer, Agent.default] at h1 h2 ⊢
    exact ⟨h1, h2⟩
  · simp only [show (2 : Fin 3) ≠ 0 by decide, show (1 : Fin 3) ≠ 0 by decide, if_false]
    change _ < (0.1 : ℝ) + 0.1
    norm_num [pacersState, pacer, Agent.default, abs_of_pos]
  · have := (hout 0).1 1 (by decide) 2 1
    have h3 : (pacersState.agents.rows 0).radii 2 + (pacersState.agents.rows 1).radii 1 ≤
        3 + (((pacing 0).agents.rows 0).radii 2 + ((pacing 0).agents.rows 1).radii 1) := by
      rw [e0]
      norm_num [pacersState, pacer, Agent.radii]
    exact h3.trans this

end CrowdDynamics
