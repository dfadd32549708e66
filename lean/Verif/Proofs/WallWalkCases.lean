import Verif.Proofs.WallWalk
import Verif.Proofs.ContactCases

/-!
# A case for C202: a leader who walks against a wall
-/

namespace CrowdDynamics

open Spec

variable {n : ℕ}

/-- Nodes of simulations with leaders and herding keep the directions of those who do not follow. -/
lemma nodes_direction_leader (env : SimEnv n) (nodes : List Node)
    (hn : ∀ x ∈ nodes, ¬ Steers x ∨ x = .orientation ∨ ∃ a b, x = .herding a b) (k : Fin n) :
    ∀ (s t : SimState n) (r : Except PyErr Unit), updateNodes env nodes s = (r, t) →
    (s.agents.rows k).isFollower = false →
    (t.agents.rows k).targetDirection = (s.agents.rows k).targetDirection ∧
      (t.agents.rows k).isFollower = false := by
  have step : ∀ (x : Node) (s t : SimState n) (r : Except PyErr Unit),
      (¬ Steers x ∨ x = .orientation ∨ ∃ a b, x = .herding a b) → x.update env s = (r, t) →
      (s.agents.rows k).isFollower = false →
      (t.agents.rows k).targetDirection = (s.agents.rows k).targetDirection := by
    intro x s t r hx h hk
    rcases hx with hx | hx | ⟨a, b, rfl⟩
    · exact nodes_direction env [x] (by simp [hx]) s t r
        (by rw [updateNodes, h]; rcases r with e | u <;> rfl) k
    · exact nodes_direction env [x] (by simp [hx]) s t r
        (by rw [updateNodes, h]; rcases r with e | u <;> rfl) k
    · simp only [Node.update] at h
      rcases hw : obstaclesOf env with e | ws
      · rw [hw] at h
        cases h
        rfl
      · rw [hw] at h
        simp only at h
        rcases hr : leaderFollowerWithHerdingUpdate env.oob env.argsort env.cellPairs ws a b
          s.agents.rows with - | rows
        · rw [hr] at h
          cases h
          rfl
        · rw [hr] at h
          cases h
          unfold leaderFollowerWithHerdingUpdate at hr
          rcases hq : leaderFollowerWithHerdingInteraction env.oob env.argsort env.cellPairs s.agents.rows ws
            a b (0.45 * Real.pi) 0.15 0.40 0.65 with - | q
          · rw [hq] at hr
            cases hr
          · rw [hq] at hr
            cases hr
            unfold leaderFollowerWithHerdingInteraction at hq
            simp only [bind, Option.bind] at hq
            split at hq
            · cases hq
            · cases hq
              change (if (s.agents.rows k).isFollower = true then _ else _ : Agent).targetDirection = _
              rw [hk]
              rfl
  induction nodes with
  | nil => intro s t r h hk; cases h; exact ⟨rfl, hk⟩
  | cons x xs ih =>
    intro s t r h hk
    obtain ⟨q, u, hq⟩ : ∃ q u, x.update env s = (q, u) := ⟨_, _, rfl⟩
    have hs := step x s u q (hn x List.mem_cons_self) hq hk
    have hf : (u.agents.rows k).isFollower = false := by
      have := ((update_keeps env x s u q hq).2.1 k).2
      by_contra hc
      rw [this (by simpa using hc)] at hk
      cases hk
    rw [updateNodes, hq] at h
    cases q with
    | error e => cases h; exact ⟨hs, hf⟩
    | ok v =>
      obtain ⟨h1, h2⟩ := ih (fun y hy => hn y (List.mem_cons_of_mem _ hy)) u t r h hf
      exact ⟨h1.trans hs, h2⟩

/-- A room with one wall. -/
noncomputable def oneWallEnv : SimEnv 1 :=
  { demoEnv 1 with
    fields := fun _ => ⟨some ([(0, 0), (9, 0), (9, 9), (0, 9), (0, 0)], []),
      some (.lineString [(2, -1), (2, 1)]), [], []⟩ }

theorem one_wall : fieldWalls oneWallEnv.field.obstacles = [((2, -1), (2, 1))] := by
  simp [fieldWalls, SimEnv.field, oneWallEnv, fillHoles, outline, consecutive]

theorem one_wall_supported : ∀ g, oneWallEnv.field.obstacles = some g → Supported g := by
  intro g hg
  cases hg
  exact .lineString _

/-- A leader with the given body who wants to walk towards the wall. -/
noncomputable def marcher (b : BodyObj) : Crowd 1 := fun _ =>
  { Agent.default with
    radius := b.val .radius, rT := b.val .rT, rS := b.val .rS, rTs := b.val .rTs
    mass := b.val .mass, inertiaRot := b.val .inertiaRot, targetVelocity := b.val .targetVelocity
    tauAdj := 0.5, position := (0, 0), targetDirection := (1, 0), stdRandForce := 0, isLeader := true }

/-- The body is in the range of the shipped ones. -/
structure OrdinaryBody (b : BodyObj) : Prop where
  radius : 0.195 ≤ b.val .radius ∧ b.val .radius ≤ 0.29
  mass : 51.3 ≤ b.val .mass ∧ b.val .mass ≤ 88
  velocity : 0.5 ≤ b.val .targetVelocity ∧ b.val .targetVelocity ≤ 1.55

/-- The states of the run. -/
noncomputable def marching (b : BodyObj) (k : ℕ) : SimState 1 :=
  (fun s => (closedRoomLogic.update oneWallEnv s).2)^[k] (demoState (marcher b))

theorem marching_next (b : BodyObj) (k : ℕ) :
    closedRoomLogic.update oneWallEnv (marching b k) = (.ok (), marching b (k + 1)) := by
  obtain ⟨t, ht⟩ := herding_total oneWallEnv (marching b k) one_wall_supported closedRoomLogic (by simp)
  rw [show marching b (k + 1) = (closedRoomLogic.update oneWallEnv (marching b k)).2 from
    Function.iterate_succ_apply' _ _ _, ht]

theorem marching_run {b : BodyObj} (hb : OrdinaryBody b) (N : ℕ) : ShippedRun oneWallEnv closedRoomLogic closedOrder
    (demoState (marcher b)) N (marching b) := by
  refine ⟨⟨0, 1, 7, by norm_num, by norm_num, rfl⟩, order_closed, by simp [SimEnv.field, oneWallEnv],
    ?_, fun i => ⟨rfl, rfl⟩, ⟨rfl, fun k _ => marching_next b k, fun k _ h => ?_⟩,
    fun j _ => lonely_cells _ rfl _⟩
  · refine ⟨rfl, fun k => ?_, fun k => ?_, fun k => by norm_num [demoState, marcher],
      fun k => by norm_num [demoState, marcher],
      fun d k a b h => ⟨le_rfl, h⟩, one_wall_supported, fun c hc => ?_⟩
    · exact (by norm_num : (0 : ℝ) ≤ 0.195).trans hb.radius.1
    · exact (by norm_num : (0 : ℝ) < 51.3).trans_le hb.mass.1
    rw [List.mem_singleton] at hc
    cases hc
    exact ⟨by norm_num, fun i j hij => absurd (Subsingleton.elim i j) hij, lonely_cells _ rfl _⟩
  · obtain ⟨c, hc, -⟩ := h
    cases hc

theorem marching_direction (b : BodyObj) (k : ℕ) : ((marching b k).agents.rows 0).targetDirection = (1, 0) ∧
    ((marching b k).agents.rows 0).isFollower = false := by
  induction k with
  | zero => exact ⟨rfl, rfl⟩
  | succ k ih =>
    obtain ⟨u, hu, ea⟩ := update_order order_closed _ _ _ _ (marching_next b k)
    rw [ea]
    have := nodes_direction_leader oneWallEnv _ (by simp [Steers]) 0 _ _ _ hu ih.2
    exact ⟨this.1.trans ih.1, this.2⟩

/-- In front of the wall, on the first axis, nothing acts across. -/
theorem one_wall_disturbs {s t : SimState 1} {d : ℝ × ℝ} (h1 : (s.agents.rows 0).position.1 < 2)
    (h2 : (s.agents.rows 0).position.2 = 0) (h3 : (s.agents.rows 0).velocity.2 = 0)
    (e0 : (s.agents.rows 0).stdRandForce = 0) (hd : Disturbs oneWallEnv closedOrder s t 0 d) : d.2 = 0 := by
  obtain ⟨f, p, w, hf, ⟨F, -, hp0⟩, hw, rfl⟩ := hd
  have hf0 : f = 0 := by
    refine len_eq_zero' (le_antisymm (hf.trans (le_of_eq ?_)) (len_nonneg' _))
    change 3 * (s.agents.rows 0).mass * (s.agents.rows 0).stdRandForce = 0
    rw [e0, mul_zero]
  have hp1 : p = 0 := by
    rw [hp0]
    exact Finset.sum_eq_zero fun j hj => absurd (Subsingleton.elim j 0) (Finset.mem_erase.1 hj).1
  rw [if_pos (by simp [closedOrder])] at hw
  obtain ⟨G, hG, rfl⟩ := hw
  rw [hf0, hp1, zero_add, zero_add, one_wall]
  simp only [List.map_cons, List.map_nil, List.sum_cons, List.sum_nil, add_zero]
  have := wall_force_axis (a := aiming s t 0) (σ := 1)
    (x := (s.agents.rows 0).position.1) (v := (s.agents.rows 0).velocity.1)
    (Prod.ext rfl h2) (Prod.ext rfl h3) (.inl rfl) (c := 2) (y := -1) (y' := 1) (by linarith)
    ⟨1 / 2, 1 / 2, by norm_num, by norm_num, by norm_num, by ext <;> norm_num⟩ (by norm_num)
    (hG ((2, -1), (2, 1)))
  exact congrArg Prod.snd this

/-- The agent stays on the first axis as long as it is in front of the wall. -/
theorem marching_axis {b : BodyObj} (hb : OrdinaryBody b) (N : ℕ) (h : ∀ j ≤ N, ((marching b j).agents.rows 0).position.1 < 2 ∧
      ((marching b j).agents.rows 0).position.2 = 0 ∧ ((marching b j).agents.rows 0).velocity.2 = 0) :
    ((marching b (N + 1)).agents.rows 0).position.2 = 0 ∧
      ((marching b (N + 1)).agents.rows 0).velocity.2 = 0 := by
  obtain ⟨A, U, hD, hU⟩ := run_drive (marching_run hb (N + 1)) 0
  have hA : ∀ j ≤ N, (A j).2 = 0 := by
    intro j hj
    obtain ⟨h1, h2, h3⟩ := h j hj
    obtain ⟨⟨d, hd, hUd⟩, -⟩ := hU j (by omega)
    have hk := (completed_body order_closed (marching_run hb (N + 1)).completed j (by omega)).2 0
    have hd2 : d.2 = 0 := one_wall_disturbs h1 h2 h3 hk.stdRandForce.symm hd
    have := congrArg Prod.snd (hD.accel (by norm_num [demoState, marcher]) (j := j) (by omega))
    rw [this, hUd, (marching_direction b (j + 1)).1]
    simp only [Prod.smul_snd, Prod.snd_sub, Prod.snd_add, smul_eq_mul, hd2, h3]
    ring
  have hv : ((marching b (N + 1)).agents.rows 0).velocity.2 = 0 := by
    rcases Nat.eq_zero_or_pos N with rfl | h0
    · have := congrArg Prod.snd (hD.first (by norm_num))
      simp only [Prod.snd_add, Prod.smul_snd, smul_eq_mul] at this
      rw [zero_add, this, hA 0 le_rfl, (h 0 le_rfl).2.2]
      ring
    · obtain ⟨i, rfl⟩ : ∃ i, N = i + 1 := ⟨N - 1, by omega⟩
      have := congrArg Prod.snd (hD.next i (by omega))
      simp only [Prod.snd_add, Prod.smul_snd, smul_eq_mul] at this
      rw [show i + 1 + 1 = i + 2 from rfl, this, hA i (by omega), hA (i + 1) le_rfl, (h (i + 1) le_rfl).2.2]
      ring
  refine ⟨?_, hv⟩
  have := congrArg Prod.snd (hU N (by omega)).2
  simp only [Prod.snd_add, Prod.smul_snd, smul_eq_mul] at this
  rw [this, hv, hA N le_rfl, (h N le_rfl).2.1]
  ring

theorem one_wall_normal : IsNormal ((2, -1) : ℝ × ℝ) (2, 1) (-1, 0) := by
  refine ⟨?_, by norm_num [Spec.inner]⟩
  rw [len_axis]
  norm_num

theorem marching_only (b : BodyObj) (k : ℕ) : TouchesOnly oneWallEnv (marching b k).agents.rows 0 ((2, -1), (2, 1)) :=
  ⟨fun j hj => absurd (Subsingleton.elim j 0) hj, [], [], one_wall, fun _ h => by simp at h⟩

theorem marching_beside (b : BodyObj) (j : ℕ) (h : ((marching b j).agents.rows 0).position.2 = 0) :
    Beside ((2, -1) : ℝ × ℝ) (2, 1) ((marching b j).agents.rows 0).position := by
  refine ⟨?_, ?_⟩ <;> simp only [Spec.inner, Prod.fst_sub, Prod.snd_sub, h] <;> norm_num

theorem marching_drives {b : BodyObj} (hb : OrdinaryBody b) (N : ℕ) : ∀ j < N, ∀ d,
    Disturbs oneWallEnv closedOrder (marching b j) (marching b (j + 1)) 0 d →
    ∃ f, IsWallEffect .circular (aiming (marching b j) (marching b (j + 1)) 0)
      ((2, -1) : ℝ × ℝ) (2, 1) f ∧ len (d - f.1) ≤ 0 := by
  intro j hj d hdj
  obtain ⟨f, f1, f2⟩ := touches_only (by simp [closedOrder]) (marching_only b j) hdj
  have hk := (completed_body order_closed (marching_run hb N).completed j hj.le).2 0
  rw [← hk.mass, ← hk.stdRandForce] at f2
  exact ⟨f, f1, f2.trans (le_of_eq (mul_zero _))⟩

theorem marching_stops {b : BodyObj} (hb : OrdinaryBody b) :
    StopsWithin ((demoState (marcher b)).agents.rows 0) 1.75 2.7 0.15 := by
  refine shipped_stops (by norm_num [demoState, marcher]) rfl rfl ?_ ?_ ?_
  · exact (by norm_num : (0.19 : ℝ) ≤ 0.195).trans hb.radius.1
  · exact (by norm_num : (50 : ℝ) ≤ 51.3).trans hb.mass.1
  · exact hb.mass.2.trans (by norm_num)

theorem marching_pace {b : BodyObj} (hb : OrdinaryBody b) :
    0 ≤ ((demoState (marcher b)).agents.rows 0).targetVelocity ∧
    ((demoState (marcher b)).agents.rows 0).targetVelocity + ((demoState (marcher b)).agents.rows 0).tauAdj * 0 /
      ((demoState (marcher b)).agents.rows 0).mass ≤ 1.75 ∧
    len ((demoState (marcher b)).agents.rows 0).velocity ≤ 1.75 ∧
    ((demoState (marcher b)).agents.rows 0).radius ≤
      offWall (2, -1) (-1, 0) ((demoState (marcher b)).agents.rows 0).position := by
  refine ⟨(by norm_num : (0 : ℝ) ≤ 0.5).trans hb.velocity.1, ?_, ?_, ?_⟩
  · rw [mul_zero, zero_div, add_zero]
    exact hb.velocity.2.trans (by norm_num)
  · change len (0 : ℝ × ℝ) ≤ _
    norm_num [len]
  · refine hb.radius.2.trans ?_
    norm_num [demoState, marcher, offWall, Spec.inner]

/-- The agent stays on the first axis and in front of the wall. -/
theorem marching_holds {b : BodyObj} (hb : OrdinaryBody b) (N : ℕ) :
    ∀ j ≤ N, ((marching b j).agents.rows 0).position.2 = 0 ∧
    ((marching b j).agents.rows 0).velocity.2 = 0 ∧ ((marching b j).agents.rows 0).position.1 < 2 := by
  have use : ∀ N, (∀ j < N, ((marching b j).agents.rows 0).position.2 = 0) →
      ∀ j ≤ N, ((marching b j).agents.rows 0).position.1 < 2 := by
    intro N h j hj
    have h1 := (wall_walk (marching_run hb N) 0 (p := (2, -1)) (q := (2, 1)) (by norm_num) one_wall_normal
      (marching_stops hb) (marching_pace hb).1
      (fun j _ => by rw [(marching_direction b (j + 1)).1, len_axis]; norm_num)
      (marching_drives hb N) (marching_pace hb).2.1 (marching_pace hb).2.2.1 (marching_pace hb).2.2.2
      (fun j hj => marching_beside b j (h j hj)) j hj).1
    have h2 := hb.radius.1
    have h3 : ((demoState (marcher b)).agents.rows 0).radius = b.val .radius := rfl
    rw [h3] at h1
    simp only [offWall, Spec.inner, Prod.fst_sub, Prod.snd_sub] at h1
    norm_num at h1 h2
    linarith
  induction N with
  | zero =>
    intro j hj
    obtain rfl : j = 0 := by omega
    exact ⟨rfl, rfl, use 0 (by simp) 0 le_rfl⟩
  | succ N ih =>
    have h1 := marching_axis hb N (fun j hj => ⟨(ih j hj).2.2, (ih j hj).1, (ih j hj).2.1⟩)
    have h2 := use (N + 1) (fun j hj => (ih j (by omega)).1)
    intro j hj
    rcases Nat.lt_or_ge N j with hc | hc
    · obtain rfl : j = N + 1 := by omega
      exact ⟨h1.1, h1.2, h2 _ le_rfl⟩
    · exact ih j hc

end CrowdDynamics
