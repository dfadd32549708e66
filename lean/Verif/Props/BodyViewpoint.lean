import Verif.Proofs.BodyViewpointCases

/-!
# Coordinates and numbers of three-circle agents: C190
-/

namespace CrowdDynamics

open Spec

variable {n : ℕ}

/-- **C190** Neither the coordinate system nor the numbering of three-circle agents matters: if the
agents, the walls and the random directions are turned and moved together and the agents renumbered, an
update (built from the physical nodes) ends in the same way and leads to the turned, moved and renumbered
agents. -/
def C190_statement : Prop :=
  ∀ (n : ℕ) (theta : ℝ) (shift : ℝ × ℝ) (perm : Equiv.Perm (Fin n)), SameFate theta shift perm

/-- **C190** False: if two agents that rub against each other exchange their numbers, the torques change. -/
theorem C190_numbers_fails : ¬ SameFate 0 0 (Equiv.swap 0 1 : Equiv.Perm (Fin 2)) := by
  intro H
  obtain ⟨t, ht, h0, -⟩ := rub_torque rubbing rubbing_within rubbingState rfl
  obtain ⟨u, hu, -, h1⟩ := rub_torque (fun i => rubbing (Equiv.swap 0 1 i))
    (fun i => rubbing_within _) rubbingSwapped rfl
  obtain ⟨t', ht', hs⟩ := H rubEnv rubEnv rubKind (.node 0 []) rubbingState rubbingSwapped t _ rub_world
    (by simp [LTree.postorder, postorderAll, rubKind, Physical]) rfl rubbing_attached
    (fun i => by simp [rubbingState, rubbing])
    (fun c hc => by
      have : c = 3.0 + 2 * 0.3 := by simpa [LTree.postorder, postorderAll, rubKind] using hc
      subst this
      exact ⟨by norm_num, fun _ => 0.3, rubbing_within, fun i j _ => by norm_num⟩)
    rub_same ht
  rw [hu] at ht'
  cases ht'
  obtain ⟨phi, phi0, -, -, e⟩ := hs.rows 0
  have e' := congrArg Agent.torque e
  rw [Equiv.swap_apply_left, h1] at e'
  simp only [RigidMotion.agent] at e'
  rw [h0, Equiv.swap_apply_left, Equiv.swap_apply_right, rub_first, rub_second] at e'
  norm_num [rubbing, Agent.default, Agent.zero] at e'

/-- **C190** False: an agent that wants to turn round starts to turn left, but in coordinates turned by a
straight angle it starts to turn right. -/
theorem C190_turn_fails : ¬ SameFate Real.pi 0 (1 : Equiv.Perm (Fin 1)) := by
  intro H
  obtain ⟨t, ht, h0⟩ := round_left
  obtain ⟨u, hu, h1⟩ := round_right
  obtain ⟨t', ht', hs⟩ := H (demoEnv 1) roundEnv roundKind roundTree turningRoundState turnedRoundState t _
    round_world (by simp [LTree.postorder, postorderAll, roundTree, roundKind, Physical]) rfl
    (fun i => by simp [ShouldersAttached, turningRoundState, turningRound, Agent.default, Agent.zero])
    (fun i => by simp [turningRoundState, turningRound])
    (fun c hc => by simp [LTree.postorder, postorderAll, roundTree, roundKind] at hc)
    round_same ht
  rw [hu] at ht'
  cases ht'
  obtain ⟨phi, phi0, -, -, e⟩ := hs.rows 0
  have e' := congrArg Agent.torque e
  rw [Equiv.Perm.one_apply, h1] at e'
  simp only [RigidMotion.agent] at e'
  rw [h0] at e'
  norm_num at e'

/-- **C190** The statement is false. -/
theorem C190_fails : ¬ C190_statement := fun H => C190_turn_fails (H 1 Real.pi 0 1)

/-- **C190** If the scene is only moved to another place, the agents are renumbered and the cell lists find
the same pairs (with the same first agents), an update ends in the same way and leads to the moved and
renumbered agents: all other values are exactly the same. Missing: turned coordinates (see below) and pairs
whose agents change their roles. -/
theorem C190_moved_partial (shift : ℝ × ℝ) (perm : Equiv.Perm (Fin n)) (env env' : SimEnv n)
    (hw : SameBodyWorld 0 shift perm env env') (hp : SamePairs 0 shift perm env env') (kind : ℕ → Node)
    (root : LTree) (hn : ∀ x ∈ root.postorder.map kind, Physical x) (s s' : SimState n)
    (hk : s.agents.dtype.kind = .threeCircle) (hs : MovedBodies shift perm s s') (r : Except PyErr Unit)
    (t : SimState n) (h : simUpdate env kind root s = (r, t)) :
    ∃ t', simUpdate env' kind root s' = (r, t') ∧ MovedBodies shift perm t t' := by
  obtain ⟨t', h1, h2, -⟩ := turned_update env env' hw hp kind root hn s s'
    ((moved_scene _ _ _ _).2 hs) hk (Or.inl ⟨trivial, rfl⟩) t r h
  exact ⟨t', h1, (moved_scene _ _ _ _).1 h2⟩

/-- **C190** The same for runs of any length. -/
theorem C190_moved_run_partial (shift : ℝ × ℝ) (perm : Equiv.Perm (Fin n)) (env env' : SimEnv n)
    (hw : SameBodyWorld 0 shift perm env env') (hp : SamePairs 0 shift perm env env') (kind : ℕ → Node)
    (root : LTree) (hn : ∀ x ∈ root.postorder.map kind, Physical x) (s s' : SimState n)
    (hk : s.agents.dtype.kind = .threeCircle) (hs : MovedBodies shift perm s s') (N : ℕ)
    (t : SimState n) (h : AfterUpdates (simUpdate env kind root) N s t) :
    ∃ t', AfterUpdates (simUpdate env' kind root) N s' t' ∧ MovedBodies shift perm t t' := by
  obtain ⟨t', h1, h2⟩ := turned_run env env' hw hp kind root hn N s s' t
    ((moved_scene _ _ _ _).2 hs) hk (Or.inl ⟨trivial, rfl⟩) h
  exact ⟨t', h1, (moved_scene _ _ _ _).1 h2⟩

/-- **C190** If the scene is turned and moved, nobody wants to turn by themselves (all shipped bodies have
`target_angular_velocity` 0, see C188) and everybody has a direction, the agents are renumbered and the
cell lists find the same pairs (with the same first agents), an update ends in the same way and leads to
the turned, moved and renumbered agents; angles agree up to full turns. Missing: agents that want to turn,
and pairs whose agents change their roles. -/
theorem C190_turned_partial (theta : ℝ) (shift : ℝ × ℝ) (perm : Equiv.Perm (Fin n)) (env env' : SimEnv n)
    (hw : SameBodyWorld theta shift perm env env') (hp : SamePairs theta shift perm env env') (kind : ℕ → Node)
    (root : LTree) (hn : ∀ x ∈ root.postorder.map kind, Physical x) (s s' : SimState n)
    (hk : s.agents.dtype.kind = .threeCircle)
    (hz : ∀ i, (s.agents.rows i).targetAngularVelocity = 0)
    (hd : ∀ i, (s.agents.rows i).targetDirection ≠ 0) (hs : SameBodies theta shift perm s s')
    (r : Except PyErr Unit) (t : SimState n) (h : simUpdate env kind root s = (r, t)) :
    ∃ t', simUpdate env' kind root s' = (r, t') ∧ SameBodies theta shift perm t t' := by
  obtain ⟨t', h1, h2, -⟩ := turned_update env env' hw hp kind root hn s s'
    ((turned_scene _ _ _ _ _).2 hs) hk (Or.inr ⟨id, fun i => ⟨hz i, hd i⟩⟩) t r h
  exact ⟨t', h1, (turned_scene _ _ _ _ _).1 h2⟩

/-- **C190** The same for runs of any length. -/
theorem C190_turned_run_partial (theta : ℝ) (shift : ℝ × ℝ) (perm : Equiv.Perm (Fin n)) (env env' : SimEnv n)
    (hw : SameBodyWorld theta shift perm env env') (hp : SamePairs theta shift perm env env') (kind : ℕ → Node)
    (root : LTree) (hn : ∀ x ∈ root.postorder.map kind, Physical x) (s s' : SimState n)
    (hk : s.agents.dtype.kind = .threeCircle)
    (hz : ∀ i, (s.agents.rows i).targetAngularVelocity = 0)
    (hd : ∀ i, (s.agents.rows i).targetDirection ≠ 0) (hs : SameBodies theta shift perm s s') (N : ℕ)
    (t : SimState n) (h : AfterUpdates (simUpdate env kind root) N s t) :
    ∃ t', AfterUpdates (simUpdate env' kind root) N s' t' ∧ SameBodies theta shift perm t t' := by
  obtain ⟨t', h1, h2⟩ := turned_run env env' hw hp kind root hn N s s' t
    ((turned_scene _ _ _ _ _).2 hs) hk (Or.inr ⟨id, fun i => ⟨hz i, hd i⟩⟩) h
  exact ⟨t', h1, (turned_scene _ _ _ _ _).1 h2⟩

/-! ## Examples -/

/-- The hypotheses of the refuted statement are met by the two agents that rub against each other, and an
update of them ends normally. -/
example : SameBodyWorld 0 0 (Equiv.swap 0 1) rubEnv rubEnv ∧
    SameBodies 0 0 (Equiv.swap 0 1) rubbingState rubbingSwapped ∧
    (∀ i, ShouldersAttached (rubbingState.agents.rows i)) ∧
    ∃ t, simUpdate rubEnv rubKind (.node 0 []) rubbingState = (.ok (), t) ∧
      (t.agents.rows 0).torque = 3600 := by
  obtain ⟨t, ht, h0, -⟩ := rub_torque rubbing rubbing_within rubbingState rfl
  refine ⟨rub_world, rub_same, rubbing_attached, t, ht, ?_⟩
  rw [h0, rub_first]
  norm_num [rubbing, Agent.default, Agent.zero]

/-- They are also met by the agent that wants to turn round, which starts to turn left. -/
example : SameBodyWorld Real.pi 0 1 (demoEnv 1) roundEnv ∧
    SameBodies Real.pi 0 1 turningRoundState turnedRoundState ∧
    ∃ t, simUpdate (demoEnv 1) roundKind roundTree turningRoundState = (.ok (), t) ∧
      (t.agents.rows 0).torque = 20 := ⟨round_world, round_same, round_left⟩

/-- The surroundings three metres to the right and one metre up; the second agent comes first. -/
noncomputable def shiftedEnv : SimEnv 2 :=
  { facingEnv with
    fields := fun _ => ⟨none, some (.lineString [(3, 2), (12, 2)]), [], []⟩
    cellPairs := fun _ _ => [(1, 0)] }

/-- The two agents beside a wall, three metres to the right, one metre up and in the other order. -/
example : SameBodyWorld 0 (3, 1) (Equiv.swap 0 1) facingEnv shiftedEnv ∧
    SamePairs 0 (3, 1) (Equiv.swap 0 1) facingEnv shiftedEnv ∧
    (∀ x ∈ facingTree.postorder.map facingKind, Physical x) ∧
    rubbingState.agents.dtype.kind = .threeCircle ∧
    MovedBodies (3, 1) (Equiv.swap 0 1) rubbingState { rubbingState with
      agents := ⟨.const .threeCircle, fun i => movedBody (3, 1) (rubbing (Equiv.swap 0 1 i))⟩ } ∧
    ∃ t, simUpdate facingEnv facingKind facingTree rubbingState = (.ok (), t) := by
  refine ⟨⟨⟨?_, ?_, ?_, fun _ _ => rfl, fun d i => ?_, fun _ _ _ => two_cells _ _,
    fun _ _ _ => two_cells_swap _ _⟩, fun _ _ => rfl⟩, fun pos c => ?_, ?_, rfl,
    ⟨rfl, fun i => ?_, rfl, rfl⟩, _, rfl⟩
  · simp [fieldWalls, SimEnv.field, facingEnv, shiftedEnv, demoEnv, fillHoles, outline, consecutive,
      turn_zero_point]
    norm_num
  · intro o ho; cases ho; exact .lineString _
  · intro o ho; cases ho; exact .lineString _
  · rw [turn_zero_lin]; rfl
  · simp [facingEnv, shiftedEnv]
  · simp [facingTree, facingKind, LTree.postorder, Physical]
  · simp [rubbingState]

/-- The surroundings turned by a right angle. -/
noncomputable def quarterEnv : SimEnv 2 :=
  { facingEnv with
    fields := fun _ => ⟨none, some (.lineString [(-1, 0), (-1, 9)]), [], []⟩
    phi := fun _ _ => Real.pi / 2 }

/-- The two agents turned by a right angle. -/
noncomputable def quarterRubbing : SimState 2 :=
  { rubbingState with agents := ⟨.const .threeCircle, fun i =>
    { (turnMotion (Real.pi / 2) 0).agent (rubbing i) with
      positionLs := (turnMotion (Real.pi / 2) 0).point (rubbing i).positionLs
      positionRs := (turnMotion (Real.pi / 2) 0).point (rubbing i).positionRs
      orientation := Real.pi / 2
      targetOrientation := Real.pi / 2 }⟩ }

/-- The two agents beside a wall, turned by a right angle. -/
example : SameBodyWorld (Real.pi / 2) 0 1 facingEnv quarterEnv ∧
    SamePairs (Real.pi / 2) 0 1 facingEnv quarterEnv ∧
    (∀ x ∈ facingTree.postorder.map facingKind, Physical x) ∧
    rubbingState.agents.dtype.kind = .threeCircle ∧
    (∀ i, (rubbingState.agents.rows i).targetAngularVelocity = 0) ∧
    (∀ i, (rubbingState.agents.rows i).targetDirection ≠ 0) ∧
    SameBodies (Real.pi / 2) 0 1 rubbingState quarterRubbing ∧
    (quarterRubbing.agents.rows 1).position = (0, 0.3) ∧
    ∃ t, simUpdate facingEnv facingKind facingTree rubbingState = (.ok (), t) := by
  refine ⟨⟨⟨?_, ?_, ?_, fun _ _ => rfl, fun d i => ?_, fun _ _ _ => two_cells _ _,
    fun _ _ _ => two_cells _ _⟩, fun _ _ => rfl⟩, fun _ _ => .refl _, ?_, rfl, fun i => ?_, fun i => ?_,
    ⟨rfl, fun i => ⟨Real.pi / 2, Real.pi / 2, ⟨0, ?_⟩, ⟨0, ?_⟩, rfl⟩, rfl, rfl⟩, ?_, _, rfl⟩
  · simp [fieldWalls, SimEnv.field, facingEnv, quarterEnv, demoEnv, fillHoles, outline, consecutive,
      turnMotion, RigidMotion.point]
  · intro o ho; cases ho; exact .lineString _
  · intro o ho; cases ho; exact .lineString _
  · simp [quarterEnv, facingEnv, demoEnv, turnMotion]
  · simp [facingTree, facingKind, LTree.postorder, Physical]
  · simp [rubbingState, rubbing, Agent.default, Agent.zero]
  · simp [rubbingState, rubbing]
  · simp [rubbingState, rubbing, Agent.default, Agent.zero]
  · simp [rubbingState, rubbing, Agent.default, Agent.zero]
  · simp [quarterRubbing, RigidMotion.agent, RigidMotion.point, turnMotion, rubbing]

end CrowdDynamics
