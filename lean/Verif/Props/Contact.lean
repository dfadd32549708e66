import Verif.Proofs.ContactCases

/-!
# What contacts do to the bodies: C198, C199 and C200
-/

namespace CrowdDynamics

open Spec

variable {n : ℕ}

/-! ## C198: contacts push bodies apart -/

/-- **C198** (full statement): overlapping agents and walls never pull an agent towards them. -/
def C198_statement : Prop :=
  (∀ (n : ℕ) (agents : Crowd n) (i j : Fin n), i ≠ j →
    ContactConstants (agents i) → ContactConstants (agents j) →
    (agents i).position ≠ (agents j).position →
    Spec.dist (agents i).position (agents j).position < (agents i).radius + (agents j).radius →
    0 ≤ Spec.inner ((interactionAgentAgentCircular i j agents i).force - (agents i).force)
      ((agents i).position - (agents j).position) ∧
    0 ≤ Spec.inner ((interactionAgentAgentCircular i j agents j).force - (agents j).force)
      ((agents j).position - (agents i).position)) ∧
  ∀ (n : ℕ) (agents : Crowd n) (w : Wall) (i : Fin n) (z : Vec), ContactConstants (agents i) →
    w.p0 ≠ w.p1 → IsNearest (agents i).position w z → (agents i).position ≠ z →
    Spec.dist (agents i).position z < (agents i).radius →
    0 ≤ Spec.inner ((agentCircularObstacle agents [w] i).force - (agents i).force)
      ((agents i).position - z)

/-- **C198** What holds (1): an overlapping agent pushes away exactly if damping times the speed of the
approach is at most `mu` times the depth of the overlap; in particular at rest and when the agents
separate. Across, the force is friction against the slip. What is missing: faster approaches. -/
theorem C198_agents_partial (agents : Crowd n) (i j : Fin n) (hij : i ≠ j)
    (hne : (agents i).position ≠ (agents j).position)
    (ho : Spec.dist (agents i).position (agents j).position < (agents i).radius + (agents j).radius)
    (k l : Fin n) (hkl : (k, l) = (i, j) ∨ (k, l) = (j, i)) (f x v : ℝ × ℝ) (depth : ℝ)
    (hf : f = (interactionAgentAgentCircular i j agents k).force - (agents k).force)
    (hx : x = (agents k).position - (agents l).position)
    (hv : v = (agents k).velocity - (agents l).velocity)
    (hd : depth = (agents k).radius + (agents l).radius - len x) :
    (0 ≤ Spec.inner f x ↔ (agents k).damping * approachSpeed x v ≤ (agents k).mu * depth) ∧
    Spec.inner f (x.2, -x.1) = -(depth * (agents k).kappa * slip x v) := by
  obtain ⟨h1, h2⟩ := interaction_adds agents hij
  have hr : 0 ≤ (agents i).radius + (agents j).radius := (len_nonneg' _).trans ho.le
  have key : f = (pairForces (agents k) (agents l)).1 ∧ (agents k).position ≠ (agents l).position ∧
      Spec.dist (agents k).position (agents l).position < (agents k).radius + (agents l).radius := by
    rcases hkl with h | h <;> cases h
    · exact ⟨hf.trans h1, hne, ho⟩
    · refine ⟨hf.trans h2, hne.symm, ?_⟩
      have e : Spec.dist (agents j).position (agents i).position =
          Spec.dist (agents i).position (agents j).position := by
        unfold Spec.dist
        rw [← len_neg', neg_sub]
      rw [e]
      linarith
  obtain ⟨k1, k2, k3⟩ := key
  have hc := overlapping_force k3 (pairForces_spec (agents k) (agents l) ((len_nonneg' _).trans k3.le))
  obtain ⟨m, m1, m2, -, m4⟩ := hc.2 k3
  have e : Spec.dist (agents k).position (agents l).position = len x := by rw [hx]; rfl
  rw [e, ← hx] at m1
  rw [e, ← hv, ← hd] at m4
  exact contact_signs (by rw [hx]; exact sub_ne_zero.2 k2) m1 (m2 k2) (k1.trans m4)

/-- **C198** What holds (2): the same for walls, where the nearest point of the wall counts. -/
theorem C198_walls_partial (agents : Crowd n) (w : Wall) (i : Fin n) (z : ℝ × ℝ) (hw : w.p0 ≠ w.p1)
    (hz : IsNearest (agents i).position w z) (hne : (agents i).position ≠ z)
    (ho : Spec.dist (agents i).position z < (agents i).radius) (f x : ℝ × ℝ) (depth : ℝ)
    (hf : f = (agentCircularObstacle agents [w] i).force - (agents i).force)
    (hx : x = (agents i).position - z) (hd : depth = (agents i).radius - len x) :
    (0 ≤ Spec.inner f x ↔
      (agents i).damping * approachSpeed x (agents i).velocity ≤ (agents i).mu * depth) ∧
    Spec.inner f (x.2, -x.1) = -(depth * (agents i).kappa * slip x (agents i).velocity) := by
  have h1 := agentCircularObstacle_apply agents [w] i
  simp only [List.map_cons, List.map_nil, List.sum_cons, List.sum_nil, add_zero] at h1
  rw [h1] at hf
  simp only [add_sub_cancel_left] at hf
  obtain ⟨d, hdm, z', hz', hmin, -, h2⟩ := (wallForce_spec (agents i) w).2 hw
  simp only [discs, List.mem_singleton] at hdm
  subst hdm
  have hzz : z' = z := by
    refine nearest_unique ⟨hz', fun y hy => ?_⟩ hz
    have := hmin ((agents i).position, (agents i).radius) (by simp [discs]) y hy
    simp only at this
    linarith
  subst hzz
  obtain ⟨m, ⟨m1, m2, -, m4⟩, -⟩ := h2 ho
  simp only at m1 m2 m4
  have e : Spec.dist (agents i).position z' = len x := by rw [hx]; rfl
  rw [e, ← hx] at m1
  rw [e, ← hd] at m4
  exact contact_signs (by rw [hx]; exact sub_ne_zero.2 hne) m1 (m2 hne) (hf.trans m4)

/-- **C198** What holds (3): the same for three-circle agents, where the circle counts that reaches
farthest into the wall. -/
theorem C198_body_walls_partial (agents : Crowd n) (w : Wall) (i : Fin n) (hw : w.p0 ≠ w.p1)
    (f : ℝ × ℝ) (hf : f = (agentThreeCircleObstacle agents [w] i).force - (agents i).force) :
    ∃ p : Fin 3, ∃ z ∈ segment ℝ w.p0 w.p1,
      (∀ q, ∀ y ∈ segment ℝ w.p0 w.p1, Spec.dist ((agents i).circles p) z - (agents i).radii p ≤
        Spec.dist ((agents i).circles q) y - (agents i).radii q) ∧
      ∀ x depth, x = (agents i).circles p - z → depth = (agents i).radii p - len x →
        (depth ≤ 0 → f = 0) ∧
        (0 < depth → x ≠ 0 →
          (0 ≤ Spec.inner f x ↔
            (agents i).damping * approachSpeed x (agents i).velocity ≤ (agents i).mu * depth) ∧
          Spec.inner f (x.2, -x.1) = -(depth * (agents i).kappa * slip x (agents i).velocity)) := by
  have h1 := agentThreeCircleObstacle_apply agents [w] i
  simp only [List.map_cons, List.map_nil, List.sum_cons, List.sum_nil, add_zero] at h1
  rw [h1] at hf
  simp only [add_sub_cancel_left] at hf
  obtain ⟨d, hdm, z, hz, hmin, h0, h2⟩ := (wallForceThree_spec (agents i) w).2 hw
  obtain ⟨p, rfl⟩ := exists_of_disc_mem hdm
  refine ⟨p, z, hz, fun q y hy => hmin _ (disc_mem (agents i) q) y hy, fun x depth hx hd => ?_⟩
  have e : Spec.dist ((agents i).circles p) z = len x := by rw [hx]; rfl
  simp only at h0 h2
  rw [e] at h0 h2
  refine ⟨fun h => ?_, fun h hx0 => ?_⟩
  · rw [hf, h0 (by linarith)]
    rfl
  · obtain ⟨m, ⟨m1, m2, -, m4⟩, -⟩ := h2 (by linarith)
    rw [e, ← hx] at m1
    rw [e, ← hd] at m4
    exact contact_signs hx0 m1 (m2 (fun h => hx0 (by rw [hx, h, sub_self]))) (hf.trans m4)

/-- **C198** fails: two agents with the constants of the code overlap by a millimetre and walk towards each
other. This overlap would only push them apart below 0.24 m/s, but they approach with 2.6 m/s, so that the
contact pulls them together. -/
theorem C198_pulled_together_fails : (bumping 0).position ≠ (bumping 1).position ∧
    Spec.dist (bumping 0).position (bumping 1).position < (bumping 0).radius + (bumping 1).radius ∧
    Spec.inner ((interactionAgentAgentCircular 0 1 bumping 0).force - (bumping 0).force)
      ((bumping 0).position - (bumping 1).position) < 0 := by
  have p0 : (bumping 0).position = (0, 0) := by simp [bumping]
  have p1 : (bumping 1).position = (0.499, 0) := by simp [bumping]
  have v0 : (bumping 0).velocity = (1.3, 0) := by simp [bumping]
  have v1 : (bumping 1).velocity = (-1.3, 0) := by simp [bumping]
  have hne : (bumping 0).position ≠ (bumping 1).position := by
    rw [p0, p1]
    intro h
    have := congrArg Prod.fst h
    norm_num at this
  have hl : len (((0, 0) : ℝ × ℝ) - (0.499, 0)) = 0.499 := by
    rw [Prod.mk_sub_mk, sub_zero, len_axis]
    norm_num
  have ho : Spec.dist (bumping 0).position (bumping 1).position <
      (bumping 0).radius + (bumping 1).radius := by
    unfold Spec.dist
    rw [p0, p1, hl]
    norm_num [bumping]
  refine ⟨hne, ho, ?_⟩
  have := (C198_agents_partial bumping 0 1 (by decide) hne ho 0 1 (.inl rfl) _ _ _ _ rfl rfl rfl rfl).1
  refine not_le.1 fun h => ?_
  have h' := this.1 h
  rw [p0, p1, v0, v1] at h'
  unfold approachSpeed at h'
  rw [hl] at h'
  norm_num [Spec.inner, bumping, Agent.default] at h'

/-- **C198** fails for these agents. -/
theorem C198_fails : ¬ C198_statement := by
  intro h
  obtain ⟨h1, h2, h3⟩ := C198_pulled_together_fails
  exact absurd (h.1 2 bumping 0 1 (by decide) (by norm_num [ContactConstants, bumping, Agent.default])
    (by norm_num [ContactConstants, bumping, Agent.default]) h1 h2).1 (not_le.2 h3)

/-- The same agents at rest are pushed apart. -/
example : 0 ≤ Spec.inner ((interactionAgentAgentCircular 0 1
      (fun k => { bumping k with velocity := 0 }) 0).force - (bumping 0).force)
      ((bumping 0).position - (bumping 1).position) := by
  refine (C198_agents_partial (fun k => { bumping k with velocity := 0 }) 0 1 (by decide)
    C198_pulled_together_fails.1 C198_pulled_together_fails.2.1 0 1 (.inl rfl) _ _ _ _ rfl rfl rfl rfl).1.2 ?_
  have ho := C198_pulled_together_fails.2.1
  simp only [sub_self]
  rw [show approachSpeed ((bumping 0).position - (bumping 1).position) 0 = 0 by
    simp [approachSpeed, Spec.inner], mul_zero]
  refine mul_nonneg (by norm_num [bumping, Agent.default]) ?_
  unfold Spec.dist at ho
  linarith

/-- A wall pulls an agent that overlaps it by a millimetre and walks towards it with 1.3 m/s. -/
example : Spec.inner ((agentCircularObstacle (fun _ : Fin 1 => touching 1.3) [gapWall] 0).force -
    (touching 1.3).force) ((touching 1.3).position - (0.3, 0)) < 0 := by
  refine not_le.1 fun h => ?_
  have h' := (C198_walls_partial (fun _ : Fin 1 => touching 1.3) gapWall 0 (0.3, 0) gapWall_ne
    (touching_nearest 1.3).1 (touching_nearest 1.3).2.1 (touching_nearest 1.3).2.2.1 _ _ _ rfl rfl rfl).1.1 h
  rw [touching_speed, (touching_nearest 1.3).2.2.2] at h'
  norm_num [touching, Agent.default] at h'

/-- The same agent is pushed away if it walks with 0.2 m/s. -/
example : 0 ≤ Spec.inner ((agentCircularObstacle (fun _ : Fin 1 => touching 0.2) [gapWall] 0).force -
    (touching 0.2).force) ((touching 0.2).position - (0.3, 0)) := by
  refine (C198_walls_partial (fun _ : Fin 1 => touching 0.2) gapWall 0 (0.3, 0) gapWall_ne
    (touching_nearest 0.2).1 (touching_nearest 0.2).2.1 (touching_nearest 0.2).2.2.1 _ _ _ rfl rfl rfl).1.2 ?_
  rw [touching_speed, (touching_nearest 0.2).2.2.2]
  norm_num [touching, Agent.default]

/-- A three-circle agent and a wall. -/
example := C198_body_walls_partial (bulletBody 1 0) gapWall 0 gapWall_ne _ rfl

/-! ## C199: walls do not speed anybody up -/

/-- **C199** (full statement): an agent who wants to stand still, without random force and out of reach of
all others, is never faster than at the start. -/
def C199_statement : Prop :=
  ∀ (n : ℕ) (env : SimEnv n) (e : LogicExpr) (order : List Node) (s : SimState n) (N : ℕ)
    (S : ℕ → SimState n), ShippedRun env e order s N S →
    ∀ i, 1 / 30 ≤ (s.agents.rows i).tauAdj → (s.agents.rows i).targetVelocity = 0 →
    (s.agents.rows i).stdRandForce = 0 → ContactConstants (s.agents.rows i) →
    (∀ j < N, ∀ k, k ≠ i → 3 + ((s.agents.rows i).radius + (s.agents.rows k).radius) ≤
      Spec.dist ((S j).agents.rows i).position ((S j).agents.rows k).position) →
    ∀ j ≤ N, len ((S j).agents.rows i).velocity ≤ len (s.agents.rows i).velocity

/-- **C199** What holds: as long as the agent touches no wall, it slows down, without changing its
direction, by a factor of at most `1 - dt / (2 tauAdj)` per update. What is missing: contacts with walls. -/
theorem C199_free_partial {env : SimEnv n} {e : LogicExpr} {order : List Node} {s : SimState n} {N : ℕ}
    {S : ℕ → SimState n} (h : ShippedRun env e order s N S) (i : Fin n)
    (ht : 1 / 30 ≤ (s.agents.rows i).tauAdj) (hv : (s.agents.rows i).targetVelocity = 0)
    (hs : (s.agents.rows i).stdRandForce = 0) (hu : ∀ j < N, OutOfReach env (S j).agents.rows i)
    (j : ℕ) (hj : j ≤ N) :
    ∃ c, 0 ≤ c ∧ c ≤ (1 - 0.01 / (2 * (s.agents.rows i).tauAdj)) ^ j ∧
      ((S j).agents.rows i).velocity = c • (s.agents.rows i).velocity :=
  (coasting h i ht hv hs hu).1 j hj

/-- **C199** fails: a pedestrian of 80 kg and 50 cm width who stumbles with 1.3 m/s in a corridor of 60 cm
width and wants to stand still is thrown to and fro by the walls, faster and faster; after 567 updates
(5.67 seconds) the speed is more than 4 m/s. -/
theorem C199_fails : ¬ C199_statement := by
  intro h
  have hk := h 1 (gapEnv ((3 / 10 : ℚ) : ℝ)) closedRoomLogic _ _ 567 _
    (squeezing_run ((3 / 10 : ℚ) : ℝ) ((13 / 10 : ℚ) : ℝ) 567) 0 (by norm_num [demoState, squeezed]) rfl rfl
    (by norm_num [ContactConstants, demoState, squeezed, Agent.default])
    (fun j _ k hk => absurd (Subsingleton.elim k 0) hk) 567 le_rfl
  have hv := (squeezing_rational (3 / 10) (13 / 10) 567 squeezing_inside 567 le_rfl).2
  rw [hv, len_axis, show ((demoState (squeezed ((13 / 10 : ℚ) : ℝ))).agents.rows 0).velocity =
    (((13 / 10 : ℚ) : ℝ), 0) from rfl, len_axis] at hk
  have h4 := squeezing_outside.2
  obtain ⟨u, hu⟩ : ∃ u, ((gapStep (3 / 10 - 1 / 4))^[567] (0, 13 / 10, 0)).2.1 = u := ⟨_, rfl⟩
  rw [hu] at hk h4
  have h4 : ((u : ℚ) : ℝ) < ((-4 : ℚ) : ℝ) := Rat.cast_lt.2 h4
  have h5 := neg_le_abs (u : ℝ)
  rw [show |((13 / 10 : ℚ) : ℝ)| = 1.3 by norm_num [abs_of_pos]] at hk
  norm_num at hk h4
  linarith

/-- The first update of this pedestrian, who does not touch the walls yet. -/
example : ∃ c, 0 ≤ c ∧ c ≤ (0.99 : ℝ) ^ 1 ∧
    ((squeezing 0.3 1.3 1).agents.rows 0).velocity = c • ((1.3, 0) : ℝ × ℝ) := by
  obtain ⟨c, h0, h1, h2⟩ := C199_free_partial (squeezing_run 0.3 1.3 1) 0
    (by norm_num [demoState, squeezed]) rfl rfl (fun j hj => by
      obtain rfl : j = 0 := by omega
      refine ⟨fun k hk => absurd (Subsingleton.elim k 0) hk, squeezed_clear 1.3⟩) 1 le_rfl
  exact ⟨c, h0, h1.trans (le_of_eq (by norm_num [demoState, squeezed])), h2⟩

/-! ## C200: walls hold those between them -/

/-- **C200** (full statement): an agent with the constants of the code, of radius at least 0.2, who starts
clear of the walls with at most 2 m/s, wants to stand still, without random force and out of reach of all
others, never passes a wall. -/
def C200_statement : Prop :=
  ∀ (n : ℕ) (env : SimEnv n) (e : LogicExpr) (order : List Node) (s : SimState n) (N : ℕ)
    (S : ℕ → SimState n), ShippedRun env e order s N S → .agentObstacle ∈ order →
    ∀ i, (s.agents.rows i).tauAdj = 0.5 → (s.agents.rows i).mu = 1.2e5 → (s.agents.rows i).kappa = 4e4 →
    (s.agents.rows i).damping = 500 → 0.2 ≤ (s.agents.rows i).radius → 50 ≤ (s.agents.rows i).mass →
    (s.agents.rows i).targetVelocity = 0 → (s.agents.rows i).stdRandForce = 0 →
    len (s.agents.rows i).velocity ≤ 2 →
    (∀ w ∈ fieldWalls env.field.obstacles, ∀ z ∈ segment ℝ w.1 w.2,
      (s.agents.rows i).radius ≤ Spec.dist (s.agents.rows i).position z) →
    (∀ j < N, ∀ k, k ≠ i → 3 + ((s.agents.rows i).radius + (s.agents.rows k).radius) ≤
      Spec.dist ((S j).agents.rows i).position ((S j).agents.rows k).position) →
    ∀ j < N, ∀ w ∈ fieldWalls env.field.obstacles,
      Disjoint (segment ℝ ((S j).agents.rows i).position ((S (j + 1)).agents.rows i).position)
        (segment ℝ w.1 w.2)

/-- **C200** What holds: it passes no wall until, and in, the first update after which it touches a wall;
any `tauAdj` of at least 1/30 will do. What is missing: what happens after the first contact. -/
theorem C200_first_contact_partial {env : SimEnv n} {e : LogicExpr} {order : List Node} {s : SimState n}
    {N : ℕ} {S : ℕ → SimState n} (h : ShippedRun env e order s N S) (i : Fin n)
    (ht : 1 / 30 ≤ (s.agents.rows i).tauAdj) (hr : 0.2 ≤ (s.agents.rows i).radius)
    (hv : (s.agents.rows i).targetVelocity = 0) (hs : (s.agents.rows i).stdRandForce = 0)
    (h0 : len (s.agents.rows i).velocity ≤ 2) (hu : ∀ j < N, OutOfReach env (S j).agents.rows i)
    (j : ℕ) (hj : j < N) (w : Vec × Vec) (hw : w ∈ fieldWalls env.field.obstacles) :
    Disjoint (segment ℝ ((S j).agents.rows i).position ((S (j + 1)).agents.rows i).position)
      (segment ℝ w.1 w.2) := by
  have h1 := (coasting h i ht hv hs hu).2 j hj
  have hb := (completed_body h.order h.completed j hj.le).2 i
  refine short_step (lt_of_le_of_lt h1 ?_) ((hu j hj).2 w hw)
  rw [← hb.radius]
  linarith

/-- **C200** fails: the pedestrian of C199 gets through the left wall of the corridor after 567 updates. -/
theorem C200_fails : ¬ C200_statement := by
  intro h
  have hrun := squeezing_run ((3 / 10 : ℚ) : ℝ) ((13 / 10 : ℚ) : ℝ) 567
  have hp := squeezing_rational (3 / 10) (13 / 10) 567 squeezing_inside
  have hk := h 1 (gapEnv ((3 / 10 : ℚ) : ℝ)) closedRoomLogic _ _ 567 _ hrun (by simp [closedOrder]) 0
    (by norm_num [demoState, squeezed]) rfl rfl rfl (by norm_num [demoState, squeezed])
    (by norm_num [demoState, squeezed]) rfl rfl
    (by
      rw [show ((demoState (squeezed ((13 / 10 : ℚ) : ℝ))).agents.rows 0).velocity =
        (((13 / 10 : ℚ) : ℝ), 0) from rfl, len_axis]
      norm_num [abs_of_pos])
    (by
      rw [show (((3 / 10 : ℚ) : ℝ)) = 0.3 by norm_num]
      exact squeezed_clear _)
    (fun j _ k hk => absurd (Subsingleton.elim k 0) hk) 566 (by norm_num)
    ((-((3 / 10 : ℚ) : ℝ), 1), (-((3 / 10 : ℚ) : ℝ), -1)) (by rw [gap_walls]; simp)
  obtain ⟨a, ha⟩ : ∃ a, ((gapStep (3 / 10 - 1 / 4))^[566] (0, 13 / 10, 0)).1 = a := ⟨_, rfl⟩
  obtain ⟨b, hb⟩ : ∃ b, ((gapStep (3 / 10 - 1 / 4))^[567] (0, 13 / 10, 0)).1 = b := ⟨_, rfl⟩
  have h1 := (hp 566 (by norm_num)).1
  have h2 := (hp 567 le_rfl).1
  have h3 := (squeezing_inside 566 (by norm_num)).1
  have h4 := squeezing_outside.1
  rw [ha] at h1 h3
  rw [hb] at h2 h4
  rw [show 566 + 1 = 567 from rfl, h1, h2] at hk
  have h3' : (((-(3 / 10) : ℚ)) : ℝ) < a := Rat.cast_lt.2 h3
  have h4' : (b : ℝ) < (((-(3 / 10) : ℚ)) : ℝ) := Rat.cast_lt.2 h4
  push_cast at h3' h4' hk
  refine (Set.disjoint_left.1 hk) (?_ : ((-(3 / 10), 0) : ℝ × ℝ) ∈ _)
    ⟨1 / 2, 1 / 2, by norm_num, by norm_num, by norm_num, by ext <;> norm_num⟩
  have hpos : (0 : ℝ) < a - b := by linarith
  refine ⟨(-(3 / 10) - b) / (a - b), (a + 3 / 10) / (a - b), div_nonneg (by linarith) hpos.le,
    div_nonneg (by linarith) hpos.le, ?_, ?_⟩
  · rw [← add_div, show -(3 / 10) - (b : ℝ) + (a + 3 / 10) = a - b by ring, div_self hpos.ne']
  · ext
    · simp only [Prod.smul_mk, smul_eq_mul, Prod.mk_add_mk]
      field_simp
      ring
    · simp

/-- In the first update this pedestrian passes no wall. -/
example : Disjoint (segment ℝ ((squeezing 0.3 1.3 0).agents.rows 0).position
    ((squeezing 0.3 1.3 (0 + 1)).agents.rows 0).position)
    (segment ℝ ((0.3, -1) : ℝ × ℝ) (0.3, 1)) :=
  C200_first_contact_partial (squeezing_run 0.3 1.3 1) 0 (by norm_num [demoState, squeezed])
    (by norm_num [demoState, squeezed]) rfl rfl
    (by
      change len ((1.3 : ℝ), (0 : ℝ)) ≤ 2
      rw [len_axis]
      norm_num [abs_of_pos])
    (fun j hj => by
      obtain rfl : j = 0 := by omega
      exact ⟨fun k hk => absurd (Subsingleton.elim k 0) hk, squeezed_clear 1.3⟩) 0 (by norm_num)
    ((0.3, -1), (0.3, 1)) (by rw [gap_walls]; simp)

end CrowdDynamics
