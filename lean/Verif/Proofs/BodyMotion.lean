import Verif.Proofs.BodyDynamics

/-!
# Lemmas about the motion of three-circle agents
-/

namespace CrowdDynamics

open Spec

variable {n : ℕ}

/-- Same data that forces, torques and steps are made of, except forces, torques and aims. -/
structure SameTurn (a b : Agent) : Prop extends SameMotion a b where
  orientation : a.orientation = b.orientation
  angularVelocity : a.angularVelocity = b.angularVelocity
  torquePrev : a.torquePrev = b.torquePrev
  positionLs : a.positionLs = b.positionLs
  positionRs : a.positionRs = b.positionRs

lemma SameTurn.refl (a : Agent) : SameTurn a a := ⟨.refl a, rfl, rfl, rfl, rfl, rfl⟩

lemma SameTurn.trans {a b c : Agent} (h : SameTurn a b) (h' : SameTurn b c) : SameTurn a c :=
  ⟨h.toSameMotion.trans h'.toSameMotion, h.orientation.trans h'.orientation,
    h.angularVelocity.trans h'.angularVelocity, h.torquePrev.trans h'.torquePrev,
    h.positionLs.trans h'.positionLs, h.positionRs.trans h'.positionRs⟩

lemma SameMotion.symm {a b : Agent} (h : SameMotion a b) : SameMotion b a :=
  ⟨⟨h.body.1.symm, h.body.2.symm, h.body.3.symm, h.body.4.symm,
    h.body.5.symm, h.body.6.symm, h.body.7.symm, h.body.8.symm,
    h.body.9.symm, h.body.10.symm, h.body.11.symm, h.body.12.symm,
    h.body.13.symm, h.body.14.symm, h.body.15.symm, h.body.16.symm,
    h.body.17.symm, h.body.18.symm, h.body.19.symm, h.body.20.symm⟩,
    h.position.symm, h.velocity.symm, h.forcePrev.symm⟩

lemma SameTurn.symm {a b : Agent} (h : SameTurn a b) : SameTurn b a :=
  ⟨h.toSameMotion.symm, h.orientation.symm, h.angularVelocity.symm, h.torquePrev.symm,
    h.positionLs.symm, h.positionRs.symm⟩

lemma SameTurn.circles {a b : Agent} (h : SameTurn a b) : a.circles = b.circles := by
  unfold Agent.circles; rw [h.position, h.positionLs, h.positionRs]

lemma SameTurn.radii {a b : Agent} (h : SameTurn a b) : a.radii = b.radii := by
  unfold Agent.radii; rw [h.body.rT, h.body.rS]

lemma SameTurn.attached {a b : Agent} (h : SameTurn a b) (ha : ShouldersAttached a) :
    ShouldersAttached b := by
  unfold ShouldersAttached at ha ⊢
  rwa [h.positionLs, h.positionRs, h.position, h.body.rTs, h.orientation] at ha

lemma SameTurn.within {a b : Agent} (h : SameTurn a b) {r : ℝ} (ha : BodyWithin .threeCircle a r) :
    BodyWithin .threeCircle b r := by
  unfold BodyWithin discs at ha ⊢
  simp only at ha ⊢
  rwa [h.positionLs, h.positionRs, h.position, h.body.rT, h.body.rS] at ha

lemma bodyEffect_congr {a a' b b' : Agent} (ha : SameTurn a a') (hb : SameTurn b b')
    {e : Vec × ℝ} (h : IsBodyEffect (CodeArm a b) a b e) :
    IsBodyEffect (CodeArm a' b') a' b' e := by
  unfold IsBodyEffect Closest IsBodySocialForce ReactsToEarliest EarliestContact ReactsTo
    IsBodyContact CodeArm at h ⊢
  rwa [ha.circles, ha.radii, ha.position, ha.velocity, ha.body.kSoc, ha.body.tau0, ha.body.mass,
    ha.body.mu, ha.body.kappa, ha.body.damping, ha.body.rT, hb.circles, hb.radii, hb.position,
    hb.velocity, hb.body.rT] at h

lemma wallThree_congr {a a' : Agent} (ha : SameTurn a a') {p q : Vec} {e : Vec × ℝ}
    (h : IsWallEffect .threeCircle a p q e) : IsWallEffect .threeCircle a' p q e := by
  unfold IsWallEffect IsPush discs at h ⊢
  simp only at h ⊢
  rwa [ha.position, ha.positionLs, ha.positionRs, ha.velocity, ha.body.rT, ha.body.rS, ha.body.mu,
    ha.body.kappa, ha.body.damping] at h

lemma contributesBody_congr {env : SimEnv n} {A B : Crowd n} (h : ∀ k, SameTurn (A k) (B k))
    {k : Fin n} {node : Node}
    (hd : Adjusts node → (A k).targetDirection = (B k).targetDirection ∧
      (A k).targetOrientation = (B k).targetOrientation) {e : Vec × ℝ}
    (hf : ContributesBody CodeArm env A k node e) : ContributesBody CodeArm env B k node e := by
  cases node
  case fluctuation =>
    unfold ContributesBody at hf ⊢
    rwa [(h k).body.mass, (h k).body.stdRandForce, (h k).body.inertiaRot,
      (h k).body.stdRandTorque] at hf
  case adjusting =>
    obtain ⟨h1, h2⟩ := hd trivial
    unfold ContributesBody at hf ⊢
    rwa [(h k).body.mass, (h k).body.tauAdj, (h k).body.targetVelocity, (h k).velocity,
      h1, h2, (h k).orientation, (h k).body.tauRot, (h k).body.inertiaRot,
      (h k).body.targetAngularVelocity, (h k).angularVelocity] at hf
  case agentAgent =>
    obtain ⟨F, h1, h2⟩ := hf
    exact ⟨F, fun j hj => bodyEffect_congr (h k) (h j) (h1 j hj), h2⟩
  case agentObstacle =>
    obtain ⟨F, h1, h2⟩ := hf
    exact ⟨F, fun w => wallThree_congr (h k) (h1 w), h2⟩
  all_goals exact hf

/-- Every node except the integrator leaves positions, orientations and so on alone. -/
lemma node_still_body (env : SimEnv n) (node : Node) (s t : SimState n) (r : Except PyErr Unit)
    (h : node.update env s = (r, t)) (hm : ¬ Moves node) (k : Fin n) :
    SameTurn (s.agents.rows k) (t.agents.rows k) ∧
    (¬ Steers node → (t.agents.rows k).targetDirection = (s.agents.rows k).targetDirection ∧
      (t.agents.rows k).targetOrientation = (s.agents.rows k).targetOrientation) := by
  have same : SameTurn (s.agents.rows k) (s.agents.rows k) ∧
      (¬ Steers node → (s.agents.rows k).targetDirection = (s.agents.rows k).targetDirection ∧
        (s.agents.rows k).targetOrientation = (s.agents.rows k).targetOrientation) :=
    ⟨.refl _, fun _ => ⟨rfl, rfl⟩⟩
  cases node with
  | abstract => cases h; exact same
  | reset =>
    cases h
    obtain ⟨h1, h2⟩ := reset_frame s.agents
    simp only
    rw [h2 k]
    exact ⟨⟨⟨by constructor <;> rfl, rfl, rfl, rfl⟩, rfl, rfl, rfl, rfl, rfl⟩, fun _ => ⟨rfl, rfl⟩⟩
  | integrator dtMin dtMax => exact absurd trivial hm
  | fluctuation =>
    cases h
    obtain ⟨h1, h2⟩ := fluctuation_frame (env.phi s.draws) (env.z s.draws) (env.w s.draws) s.agents
    obtain ⟨f, t, e⟩ := h2 k
    simp only
    rw [e]
    exact ⟨⟨⟨by constructor <;> rfl, rfl, rfl, rfl⟩, rfl, rfl, rfl, rfl, rfl⟩, fun _ => ⟨rfl, rfl⟩⟩
  | adjusting =>
    cases h
    obtain ⟨h1, h2⟩ := adjusting_frame s.agents
    obtain ⟨f, t, e⟩ := h2 k
    simp only
    rw [e]
    exact ⟨⟨⟨by constructor <;> rfl, rfl, rfl, rfl⟩, rfl, rfl, rfl, rfl, rfl⟩, fun _ => ⟨rfl, rfl⟩⟩
  | agentAgent c =>
    simp only [Node.update] at h
    cases ha : agentAgentBlockList env.cellPairs s.agents c with
    | none => rw [ha] at h; cases h; exact same
    | some a =>
      rw [ha] at h
      cases h
      obtain ⟨h1, e, h2⟩ := agentAgent_frame ha
      simp only
      rw [h2]
      exact ⟨⟨⟨by constructor <;> rfl, rfl, rfl, rfl⟩, rfl, rfl, rfl, rfl, rfl⟩,
        fun _ => ⟨rfl, rfl⟩⟩
  | agentObstacle =>
    simp only [Node.update] at h
    cases ho : obstaclesOf env with
    | error e => rw [ho] at h; cases h; exact same
    | ok ws =>
      rw [ho] at h
      simp only at h
      cases ha : CrowdDynamics.agentObstacle s.agents ws with
      | none => rw [ha] at h; cases h; exact same
      | some a =>
        rw [ha] at h
        cases h
        obtain ⟨h1, e, h2⟩ := agentObstacle_frame ha
        simp only
        rw [h2]
        exact ⟨⟨⟨by constructor <;> rfl, rfl, rfl, rfl⟩, rfl, rfl, rfl, rfl, rfl⟩,
          fun _ => ⟨rfl, rfl⟩⟩
  | navigation step radius strength =>
    obtain ⟨h1, h2, h3⟩ := navLoop_frame env step radius strength _ s t r h
    obtain ⟨d, e⟩ := h3 k
    rw [e]
    exact ⟨⟨⟨by constructor <;> rfl, rfl, rfl, rfl⟩, rfl, rfl, rfl, rfl, rfl⟩,
      fun hs => absurd trivial hs⟩
  | leaderFollower sight =>
    simp only [Node.update] at h
    cases ho : obstaclesOf env with
    | error e => rw [ho] at h; cases h; exact same
    | ok ws =>
      rw [ho] at h
      cases h
      obtain ⟨t, l, d, e⟩ := leader_frame env.oob env.argsort ws sight s.agents.rows k
      simp only [SimState.withRows]
      rw [e]
      exact ⟨⟨⟨by constructor <;> rfl, rfl, rfl, rfl⟩, rfl, rfl, rfl, rfl, rfl⟩,
        fun hs => absurd trivial hs⟩
  | herding sight size =>
    simp only [Node.update] at h
    cases ho : obstaclesOf env with
    | error e => rw [ho] at h; cases h; exact same
    | ok ws =>
      rw [ho] at h
      simp only at h
      cases ha : leaderFollowerWithHerdingUpdate env.oob env.argsort env.cellPairs ws sight size
          s.agents.rows with
      | none => rw [ha] at h; cases h; exact same
      | some a =>
        rw [ha] at h
        cases h
        obtain ⟨t, l, d, e⟩ := herding_frame ha k
        simp only [SimState.withRows]
        rw [e]
        exact ⟨⟨⟨by constructor <;> rfl, rfl, rfl, rfl⟩, rfl, rfl, rfl, rfl, rfl⟩,
          fun hs => absurd trivial hs⟩
  | exitDetection range =>
    simp only [Node.update] at h
    cases ht : targetArrays env env.field.targets with
    | error e => rw [ht] at h; cases h; exact same
    | ok arrays =>
      rw [ht] at h
      simp only at h
      split_ifs at h with h0
      · cases h; exact same
      · cases ho : obstaclesOf env with
        | error e => rw [ho] at h; cases h; exact same
        | ok ws =>
          rw [ho] at h
          simp only at h
          cases ha : exitDetectionUpdate arrays ws range s.agents.rows with
          | none => rw [ha] at h; cases h; exact same
          | some a =>
            rw [ha] at h
            cases h
            obtain ⟨t, f, e, hf⟩ := exit_frame ha k
            simp only [SimState.withRows]
            rw [e]
            exact ⟨⟨⟨by constructor <;> rfl, rfl, rfl, rfl⟩, rfl, rfl, rfl, rfl, rfl⟩,
              fun hs => absurd trivial hs⟩
  | orientation =>
    cases h
    obtain ⟨h1, h2⟩ := orientation_frame s.agents
    obtain ⟨o, e⟩ := h2 k
    simp only
    rw [e]
    exact ⟨⟨⟨by constructor <;> rfl, rfl, rfl, rfl⟩, rfl, rfl, rfl, rfl, rfl⟩,
      fun hs => absurd trivial hs⟩
  | save outcome =>
    simp only [Node.update] at h
    cases ho : outcome s.data.iterations with
    | none => rw [ho] at h; cases h; exact same
    | some e => rw [ho] at h; cases h; exact same
  | insideDomain path =>
    obtain ⟨h1, h2, -⟩ := insideDomain_frame env path s t _ h
    rw [h2 k]
    exact ⟨⟨⟨by constructor <;> rfl, rfl, rfl, rfl⟩, rfl, rfl, rfl, rfl, rfl⟩, fun _ => ⟨rfl, rfl⟩⟩
  | targetReached paths =>
    simp only [Node.update] at h
    split_ifs at h <;> cases h <;> exact same

lemma nodes_still_body (env : SimEnv n) (nodes : List Node) : ∀ (s t : SimState n)
    (r : Except PyErr Unit), updateNodes env nodes s = (r, t) → (∀ x ∈ nodes, ¬ Moves x) →
    ∀ k, SameTurn (s.agents.rows k) (t.agents.rows k) ∧
      ((∀ x ∈ nodes, ¬ Steers x) →
        (t.agents.rows k).targetDirection = (s.agents.rows k).targetDirection ∧
        (t.agents.rows k).targetOrientation = (s.agents.rows k).targetOrientation) := by
  induction nodes with
  | nil => intro s t r h _ k; cases h; exact ⟨.refl _, fun _ => ⟨rfl, rfl⟩⟩
  | cons x xs ih =>
    intro s t r h hx k
    obtain ⟨q, u, hu⟩ : ∃ q u, x.update env s = (q, u) := ⟨_, _, rfl⟩
    obtain ⟨a1, b1⟩ := node_still_body env x s u q hu (hx x List.mem_cons_self) k
    rw [updateNodes, hu] at h
    cases q with
    | error e => cases h; exact ⟨a1, fun hs => b1 (hs x List.mem_cons_self)⟩
    | ok _ =>
      obtain ⟨a2, b2⟩ := ih u t r h (fun y hy => hx y (List.mem_cons_of_mem _ hy)) k
      refine ⟨a1.trans a2, fun hs => ?_⟩
      obtain ⟨c1, c2⟩ := b2 fun y hy => hs y (List.mem_cons_of_mem _ hy)
      obtain ⟨d1, d2⟩ := b1 (hs x List.mem_cons_self)
      exact ⟨c1.trans d1, c2.trans d2⟩

/-- One update of a node that neither moves nor clears. -/
lemma node_contributes_body (env : SimEnv n) (node : Node) (s t : SimState n)
    (hr : RegularBody env [node] s) (h : node.update env s = (.ok (), t)) (hc : ¬ Clears node)
    (hm : ¬ Moves node) :
    t.agents.dtype = s.agents.dtype ∧
    ∀ k, ∃ e, ContributesBody CodeArm env s.agents.rows k node e ∧
      (t.agents.rows k).force = (s.agents.rows k).force + e.1 ∧
      (t.agents.rows k).torque = (s.agents.rows k).torque + e.2 := by
  have none_ : ∀ a b : Agent, a.force = b.force → a.torque = b.torque →
      a.force = b.force + (0 : Vec × ℝ).1 ∧ a.torque = b.torque + (0 : Vec × ℝ).2 :=
    fun a b h1 h2 => ⟨by rw [h1]; simp, by rw [h2]; simp⟩
  cases node with
  | abstract => cases h
  | reset => exact absurd trivial hc
  | integrator dtMin dtMax => exact absurd trivial hm
  | fluctuation =>
    cases h
    refine ⟨(fluctuation_frame _ _ _ _).1, fun k => ?_⟩
    obtain ⟨h1, h2, -⟩ := C33_fluctuation_bounded (env.phi s.draws) (env.z s.draws)
      (env.w s.draws) s.agents k (hr.draws s.draws k) (hr.drawsTorque s.draws k) (hr.mass k).le
      (hr.std k) (hr.inertia k).le (hr.stdTorque k)
    refine ⟨(((fluctuation (env.phi s.draws) (env.z s.draws) (env.w s.draws) s.agents).rows k).force -
      (s.agents.rows k).force, ((fluctuation (env.phi s.draws) (env.z s.draws) (env.w s.draws)
      s.agents).rows k).torque - (s.agents.rows k).torque), ⟨h1, h2⟩, ?_, ?_⟩ <;> simp
  | adjusting =>
    cases h
    refine ⟨(adjusting_frame s.agents).1, fun k => ?_⟩
    have e : (adjusting s.agents).rows k = { s.agents.rows k with
        force := (s.agents.rows k).force + forceAdjust (s.agents.rows k).mass
          (s.agents.rows k).tauAdj (s.agents.rows k).targetVelocity
          (s.agents.rows k).targetDirection (s.agents.rows k).velocity
        torque := (s.agents.rows k).torque + torqueAdjust (s.agents.rows k).inertiaRot
          (s.agents.rows k).tauRot (s.agents.rows k).targetOrientation
          (s.agents.rows k).orientation (s.agents.rows k).targetAngularVelocity
          (s.agents.rows k).angularVelocity } := by
      unfold adjusting
      simp [isModel, hr.kind, torqueAdjustAgents, forceAdjustAgents]
    simp only
    rw [e]
    refine ⟨(_, _), ⟨?_, ?_⟩, rfl, rfl⟩
    · simp only
      rw [smul_smul, mul_div_cancel₀ _ (hr.tau k).ne']
    · obtain ⟨d, h1, -, h3⟩ := C32_torque_short_way (s.agents.rows k).inertiaRot
        (s.agents.rows k).tauRot (s.agents.rows k).targetOrientation
        (s.agents.rows k).orientation (s.agents.rows k).targetAngularVelocity
        (s.agents.rows k).angularVelocity
      refine ⟨d, h1, ?_⟩
      unfold torqueAdjust at h3
      simp only
      rw [h3, ← mul_assoc, mul_div_cancel₀ _ (hr.tauRot k).ne', mul_comm (d / Real.pi)]
  | agentAgent c =>
    obtain ⟨hc0, ⟨r, hw, hsize⟩, hcells⟩ := hr.cells c List.mem_cons_self
    obtain ⟨B, e1, e2, e3⟩ := agentAgent_effects env.cellPairs s.agents c hc0 hcells hr.kind r hw
      hsize
    simp only [Node.update, e1] at h
    cases h
    refine ⟨e2, fun k => ?_⟩
    simp only
    rw [e3 k]
    refine ⟨_, ⟨_, fun j _ => ?_, rfl⟩, rfl, rfl⟩
    unfold orientedEffect
    split_ifs
    · exact (bodyEffect_spec (hr.radii j) (hr.radii k) (hr.attached j) (hr.attached k)).2
    · exact (bodyEffect_spec (hr.radii k) (hr.radii j) (hr.attached k) (hr.attached j)).1
  | agentObstacle =>
    simp only [Node.update, obstaclesOf_walls env hr.obstacles, CrowdDynamics.agentObstacle] at h
    rw [if_neg (by simp [isModel, hr.kind]), if_pos (by simp [isModel, hr.kind])] at h
    cases h
    refine ⟨rfl, fun k => ?_⟩
    simp only
    rw [agentThreeCircleObstacle_apply]
    refine ⟨_, ⟨fun w => wallForceThree (s.agents.rows k) ⟨w.1, w.2⟩,
      fun w => wallForceThree_spec (s.agents.rows k) ⟨w.1, w.2⟩, rfl⟩, ?_, ?_⟩
    · rw [List.map_map]; rfl
    · rw [List.map_map]; rfl
  | navigation step radius strength =>
    obtain ⟨h1, h2, h3⟩ := navLoop_frame env step radius strength _ s t _ h
    refine ⟨h1, fun k => ⟨0, rfl, ?_⟩⟩
    obtain ⟨d, e⟩ := h3 k
    rw [e]
    exact none_ _ _ rfl rfl
  | leaderFollower sight =>
    simp only [Node.update, obstaclesOf_walls env hr.obstacles] at h
    cases h
    refine ⟨rfl, fun k => ⟨0, rfl, ?_⟩⟩
    obtain ⟨t, l, d, e⟩ := leader_frame env.oob env.argsort
      ((fieldWalls env.field.obstacles).map fun w => ⟨w.1, w.2⟩) sight s.agents.rows k
    simp only [SimState.withRows]
    rw [e]
    exact none_ _ _ rfl rfl
  | herding sight size =>
    simp only [Node.update, obstaclesOf_walls env hr.obstacles] at h
    cases ha : leaderFollowerWithHerdingUpdate env.oob env.argsort env.cellPairs
        ((fieldWalls env.field.obstacles).map fun w => ⟨w.1, w.2⟩) sight size s.agents.rows with
    | none => rw [ha] at h; cases h
    | some a =>
      rw [ha] at h
      cases h
      refine ⟨rfl, fun k => ⟨0, rfl, ?_⟩⟩
      obtain ⟨t, l, d, e⟩ := herding_frame ha k
      simp only [SimState.withRows]
      rw [e]
      exact none_ _ _ rfl rfl
  | exitDetection range =>
    simp only [Node.update, obstaclesOf_walls env hr.obstacles] at h
    cases ht : targetArrays env env.field.targets with
    | error e => rw [ht] at h; cases h
    | ok arrays =>
      rw [ht] at h
      simp only at h
      by_cases h0 : arrays = []
      · rw [if_pos h0] at h; cases h
      rw [if_neg h0] at h
      cases ha : exitDetectionUpdate arrays
          ((fieldWalls env.field.obstacles).map fun w => ⟨w.1, w.2⟩) range s.agents.rows with
      | none => rw [ha] at h; cases h
      | some a =>
        rw [ha] at h
        cases h
        refine ⟨rfl, fun k => ⟨0, rfl, ?_⟩⟩
        obtain ⟨t, f, e, hf⟩ := exit_frame ha k
        simp only [SimState.withRows]
        rw [e]
        exact none_ _ _ rfl rfl
  | orientation =>
    cases h
    obtain ⟨h1, h2⟩ := orientation_frame s.agents
    refine ⟨h1, fun k => ⟨0, rfl, ?_⟩⟩
    obtain ⟨o, e⟩ := h2 k
    simp only
    rw [e]
    exact none_ _ _ rfl rfl
  | save outcome =>
    simp only [Node.update] at h
    cases ho : outcome s.data.iterations with
    | none =>
      rw [ho] at h
      cases h
      exact ⟨rfl, fun k => ⟨0, rfl, none_ _ _ rfl rfl⟩⟩
    | some e => rw [ho] at h; cases h
  | insideDomain path =>
    obtain ⟨h1, h2, -⟩ := insideDomain_frame env path s t _ h
    refine ⟨h1, fun k => ⟨0, rfl, ?_⟩⟩
    rw [h2 k]
    exact none_ _ _ rfl rfl
  | targetReached paths =>
    simp only [Node.update] at h
    by_cases h0 : paths = []
    · rw [if_pos h0] at h
      cases h
      exact ⟨rfl, fun k => ⟨0, rfl, none_ _ _ rfl rfl⟩⟩
    · rw [if_neg h0] at h; cases h

lemma regularBody_step {env : SimEnv n} {node : Node} {rest : List Node} {s t : SimState n}
    (h : RegularBody env (node :: rest) s) (hd : t.agents.dtype = s.agents.dtype)
    (hm : ∀ k, SameTurn (s.agents.rows k) (t.agents.rows k)) : RegularBody env rest t := by
  have hp : (fun i => (t.agents.rows i).position) = fun i => (s.agents.rows i).position :=
    funext fun i => (hm i).position.symm
  refine ⟨by rw [hd]; exact h.kind, fun k => ?_, fun k => (hm k).attached (h.attached k),
    fun k => ?_, fun k => ?_, fun k => ?_, fun k => ?_, fun k => ?_, fun k => ?_, h.draws,
    h.drawsTorque, h.obstacles, fun c hc => ?_⟩
  · rw [← (hm k).radii]; exact h.radii k
  · rw [← (hm k).body.mass]; exact h.mass k
  · rw [← (hm k).body.inertiaRot]; exact h.inertia k
  · rw [← (hm k).body.tauAdj]; exact h.tau k
  · rw [← (hm k).body.tauRot]; exact h.tauRot k
  · rw [← (hm k).body.stdRandForce]; exact h.std k
  · rw [← (hm k).body.stdRandTorque]; exact h.stdTorque k
  · obtain ⟨h1, ⟨r, h2, h2'⟩, h3⟩ := h.cells c (List.mem_cons_of_mem _ hc)
    rw [hp]
    exact ⟨h1, ⟨r, fun k => (hm k).within (h2 k), h2'⟩, h3⟩

lemma regularBody_head {env : SimEnv n} {node : Node} {rest : List Node} {s : SimState n}
    (h : RegularBody env (node :: rest) s) : RegularBody env [node] s :=
  ⟨h.kind, h.radii, h.attached, h.mass, h.inertia, h.tau, h.tauRot, h.std, h.stdTorque, h.draws,
    h.drawsTorque, h.obstacles, fun c hc =>
    h.cells c (by rw [List.mem_singleton.1 hc]; exact List.mem_cons_self)⟩

/-- Updates of nodes that neither move nor clear add their contributions. -/
lemma nodes_contribute_body (env : SimEnv n) (nodes : List Node) : ∀ (s t : SimState n),
    RegularBody env nodes s → updateNodes env nodes s = (.ok (), t) →
    (∀ x ∈ nodes, ¬ Moves x ∧ ¬ Clears x) →
    nodes.Pairwise (fun a b => ¬ (Adjusts a ∧ Steers b)) →
    t.agents.dtype = s.agents.dtype ∧
    ∀ k, ∃ es, List.Forall₂ (ContributesBody CodeArm env t.agents.rows k) nodes es ∧
        (t.agents.rows k).force = (s.agents.rows k).force + es.sum.1 ∧
        (t.agents.rows k).torque = (s.agents.rows k).torque + es.sum.2 := by
  induction nodes with
  | nil =>
    intro s t _ h _ _
    cases h
    exact ⟨rfl, fun k => ⟨[], .nil, by simp, by simp⟩⟩
  | cons x xs ih =>
    intro s t hr h hx hp
    obtain ⟨q, u, hu⟩ : ∃ q u, x.update env s = (q, u) := ⟨_, _, rfl⟩
    rw [updateNodes, hu] at h
    cases q with
    | error e => cases h
    | ok _ =>
      simp only at h
      obtain ⟨hm, hc⟩ := hx x List.mem_cons_self
      obtain ⟨d1, a1⟩ := node_contributes_body env x s u (regularBody_head hr) hu hc hm
      have m1 := fun k => (node_still_body env x s u _ hu hm k).1
      have m2 := nodes_still_body env xs u t _ h fun y hy => (hx y (List.mem_cons_of_mem _ hy)).1
      obtain ⟨hp1, hp2⟩ := List.pairwise_cons.1 hp
      obtain ⟨d2, a2⟩ := ih u t (regularBody_step hr d1 m1) h
        (fun y hy => hx y (List.mem_cons_of_mem _ hy)) hp2
      refine ⟨d2.trans d1, fun k => ?_⟩
      obtain ⟨f, c1, e1, g1⟩ := a1 k
      obtain ⟨fs, c2, e2, g2⟩ := a2 k
      refine ⟨f :: fs, .cons ?_ c2, ?_, ?_⟩
      · refine contributesBody_congr (fun j => (m1 j).trans (m2 j).1) (fun ha => ?_) c1
        have hs : ¬ Steers x := by cases x <;> first | exact absurd ha id | exact id
        obtain ⟨p1, p2⟩ := (m2 k).2 fun y hy hy' => hp1 y hy ⟨ha, hy'⟩
        obtain ⟨q1, q2⟩ := (node_still_body env x s u _ hu hm k).2 hs
        exact ⟨(p1.trans q1).symm, (p2.trans q2).symm⟩
      · rw [e2, e1, List.sum_cons, Prod.fst_add, add_assoc]
      · rw [g2, g1, List.sum_cons, Prod.snd_add, add_assoc]

/-- The integrator makes a step and a turn. -/
lemma integrator_turn (dtMin dtMax : ℝ) (s : SimState n) (hc : s.agents.dtype.kind = .threeCircle)
    (k : Fin n) (hm : (s.agents.rows k).mass ≠ 0) (hi : (s.agents.rows k).inertiaRot ≠ 0) :
    TimeStep (s.agents.rows k) ((integratorUpdate dtMin dtMax s).agents.rows k)
      (s.agents.rows k).force (integratorUpdate dtMin dtMax s).data.dt ∧
    TurnStep (s.agents.rows k) ((integratorUpdate dtMin dtMax s).agents.rows k)
      (s.agents.rows k).torque (integratorUpdate dtMin dtMax s).data.dt ∧
    ((integratorUpdate dtMin dtMax s).agents.rows k).targetDirection =
      (s.agents.rows k).targetDirection ∧
    ((integratorUpdate dtMin dtMax s).agents.rows k).targetOrientation =
      (s.agents.rows k).targetOrientation := by
  have e : (integratorUpdate dtMin dtMax s).agents.rows k = shouldersRow (rotationalVerletRow
      (adaptiveTimestep s.agents.rows dtMin dtMax) (translationalVerletRow
      (adaptiveTimestep s.agents.rows dtMin dtMax) (s.agents.rows k))) := by
    simp [integratorUpdate, velocityVerletIntegrator, isModel, hc, translationalVerlet,
      rotationalVerlet, shoulders]
  have ed : (integratorUpdate dtMin dtMax s).data.dt =
    adaptiveTimestep s.agents.rows dtMin dtMax := rfl
  rw [e, ed]
  generalize adaptiveTimestep s.agents.rows dtMin dtMax = dt
  generalize s.agents.rows k = a at *
  refine ⟨⟨(1 / a.mass) • a.forcePrev, (1 / a.mass) • a.force, ?_, ?_, ?_, ?_, rfl⟩,
    ⟨a.torquePrev / a.inertiaRot, a.torque / a.inertiaRot, mul_div_cancel₀ _ hi,
      mul_div_cancel₀ _ hi, ?_, ?_, ?_, rfl, ?_⟩, rfl, rfl⟩
  · unfold IsAcceleration
    ext <;> simp <;> field_simp
  · unfold IsAcceleration
    ext <;> simp <;> field_simp
  · simp only [shouldersRow, rotationalVerletRow, translationalVerletRow]
    rw [smul_smul]
    congr 2
    ring
  · simp only [shouldersRow, rotationalVerletRow, translationalVerletRow]
    rw [add_assoc, smul_smul (_ ^ 2)]
    congr 3
    ring
  · simp only [shouldersRow, rotationalVerletRow, translationalVerletRow]
    ring
  · simp only [shouldersRow, rotationalVerletRow, translationalVerletRow]
    obtain ⟨j, hj⟩ := wrapToPi_congr (a.orientation +
      ((a.angularVelocity + (a.torquePrev / a.inertiaRot + a.torque / a.inertiaRot) / 2 * dt) * dt +
        a.torque / a.inertiaRot / 2 * dt ^ 2))
    refine ⟨-j, ?_⟩
    rw [hj]
    push_cast
    ring
  · simp only [shouldersRow, rotationalVerletRow, translationalVerletRow]
    exact abs_le.2 (wrapToPi_mem _)
  · constructor
    · simp [shouldersRow, rotate270, unitVector]
      ext <;> simp
    · simp [shouldersRow, rotate270, unitVector]
      ext <;> simp [sub_eq_add_neg]

/-- A whole update. -/
lemma update_turn (env : SimEnv n) (before after : List Node) (dtMin dtMax : ℝ)
    (hb : ∀ x ∈ before, ¬ Moves x ∧ ¬ Clears x)
    (hs : before.Pairwise (fun a b => ¬ (Adjusts a ∧ Steers b)))
    (ha : ∀ x ∈ after, ¬ Moves x ∧ ¬ Steers x) (s t : SimState n)
    (hr : RegularBody env before s)
    (h : updateNodes env (before ++ .integrator dtMin dtMax :: after) s = (.ok (), t)) :
    ∃ u, updateNodes env after u = (.ok (), t) ∧ u.agents.dtype = s.agents.dtype ∧ (∀ k,
      ∃ es, List.Forall₂ (ContributesBody CodeArm env (aimingBody s t) k) before es ∧
        TimeStep (s.agents.rows k) (t.agents.rows k) ((s.agents.rows k).force + es.sum.1)
          u.data.dt ∧
        TurnStep (s.agents.rows k) (t.agents.rows k) ((s.agents.rows k).torque + es.sum.2)
          u.data.dt) := by
  rw [updateNodes_append] at h
  obtain ⟨q, v, hv⟩ : ∃ q v, updateNodes env before s = (q, v) := ⟨_, _, rfl⟩
  rw [hv] at h
  cases q with
  | error e => cases h
  | ok _ =>
    simp only [updateNodes, Node.update] at h
    obtain ⟨d1, a1⟩ := nodes_contribute_body env before s v hr hv hb hs
    refine ⟨_, h, (verlet_frame v.agents dtMin dtMax).1.trans d1, fun k => ?_⟩
    have m := fun j => (nodes_still_body env before s v _ hv (fun x hx => (hb x hx).1) j).1
    obtain ⟨es, c1, e1, g1⟩ := a1 k
    have hmass : ∀ j, (v.agents.rows j).mass ≠ 0 := fun j => by
      rw [← (m j).body.mass]; exact (hr.mass j).ne'
    have hin : ∀ j, (v.agents.rows j).inertiaRot ≠ 0 := fun j => by
      rw [← (m j).body.inertiaRot]; exact (hr.inertia j).ne'
    have hk : v.agents.dtype.kind = .threeCircle := by rw [d1]; exact hr.kind
    obtain ⟨⟨p, q, h1, h2, h3, h4, h5⟩, ⟨p', q', i1, i2, i3, ⟨z, i4⟩, i5, i6, i7⟩, -, -⟩ :=
      integrator_turn dtMin dtMax v hk k (hmass k) (hin k)
    have a2 := nodes_still_body env after _ t _ h fun x hx => (ha x hx).1
    have htd : ∀ j, (t.agents.rows j).targetDirection = (v.agents.rows j).targetDirection ∧
        (t.agents.rows j).targetOrientation = (v.agents.rows j).targetOrientation := by
      intro j
      obtain ⟨x1, x2⟩ := (a2 j).2 fun x hx => (ha x hx).2
      obtain ⟨-, -, y1, y2⟩ := integrator_turn dtMin dtMax v hk j (hmass j) (hin j)
      exact ⟨x1.trans y1, x2.trans y2⟩
    refine ⟨es, ?_, ⟨p, q, ?_, ?_, ?_, ?_, ?_⟩, ⟨p', q', ?_, ?_, ?_, ⟨z, ?_⟩, ?_, ?_, ?_⟩⟩
    · refine c1.imp fun x f hf => contributesBody_congr (fun j => ?_) (fun _ => ?_) hf
      · obtain ⟨⟨hb, b1, b2, b3⟩, b4, b5, b6, b7, b8⟩ := (m j).symm
        exact ⟨⟨⟨hb.1, hb.2, hb.3, hb.4, hb.5, hb.6, hb.7, hb.8, hb.9, hb.10, hb.11, hb.12, hb.13,
          hb.14, hb.15, hb.16, hb.17, hb.18, hb.19, hb.20⟩, b1, b2, b3⟩, b4, b5, b6, b7, b8⟩
      · exact ⟨(htd k).1.symm, (htd k).2.symm⟩
    · rwa [(m k).body.mass, (m k).forcePrev]
    · rwa [(m k).body.mass, ← e1]
    · rw [← (a2 k).1.velocity, h3, (m k).velocity]
    · rw [← (a2 k).1.position, ← (a2 k).1.velocity, h4, (m k).position]
    · rw [← (a2 k).1.forcePrev, h5, e1]
    · rwa [(m k).body.inertiaRot, (m k).torquePrev]
    · rwa [(m k).body.inertiaRot, ← g1]
    · rw [← (a2 k).1.angularVelocity, i3, (m k).angularVelocity]
    · rw [← (a2 k).1.orientation, ← (a2 k).1.angularVelocity, i4, (m k).orientation]
    · rw [← (a2 k).1.orientation]; exact i5
    · rw [← (a2 k).1.torquePrev, i6, g1]
    · exact (a2 k).1.attached i7

/-- The same with the size of the step and the forces afterwards. -/
lemma turn_list (env : SimEnv n) (before after : List Node) (dtMin dtMax : ℝ)
    (hb : ∀ x ∈ before, ¬ Moves x ∧ ¬ Clears x) (hs : AllBefore Steers Adjusts before)
    (ha : ∀ x ∈ after, ¬ Moves x ∧ ¬ Steers x) (hd : dtMin ≤ dtMax) (s t : SimState n)
    (hr : RegularBody env before s)
    (h0 : ∀ k, (s.agents.rows k).force = 0 ∧ (s.agents.rows k).torque = 0)
    (h : updateNodes env (before ++ .integrator dtMin dtMax :: after) s = (.ok (), t)) :
    (dtMin ≤ t.data.dt ∧ t.data.dt ≤ dtMax ∧ t.data.timeTot = s.data.timeTot + t.data.dt) ∧
    (∀ k, ∃ es, List.Forall₂ (ContributesBody CodeArm env (aimingBody s t) k) before es ∧
      TimeStep (s.agents.rows k) (t.agents.rows k) es.sum.1 t.data.dt ∧
      TurnStep (s.agents.rows k) (t.agents.rows k) es.sum.2 t.data.dt) ∧
    ((∃ l l', after = l ++ .reset :: l' ∧ ∀ x ∈ l', LeavesForces x) →
      ∀ k, (t.agents.rows k).force = 0 ∧ (t.agents.rows k).torque = 0) := by
  have hmi : ∀ x : Node, ¬ Moves x → ¬ IsIntegrator x := by
    intro x hx; cases x <;> first | exact id | exact absurd trivial hx
  obtain ⟨u, hu, hk', hk⟩ := update_turn env before after dtMin dtMax hb
    ((allBefore_iff _ _ _).1 hs).2 ha s t hr h
  have hdt := ((nodes_keep env after u t _ hu).2.2.2 fun x hx => hmi x (ha x hx).1).2
  rw [hdt]
  refine ⟨?_, fun k => ?_, ?_⟩
  · rcases nodes_time env ⟨before, after, rfl, fun x hx => hmi x (hb x hx).1,
      fun x hx => hmi x (ha x hx).1⟩ hd s t _ h with ⟨h1, h2, h3⟩ | ⟨h1, -⟩
    · rw [← hdt]; exact ⟨h2, h3, h1⟩
    · exact absurd rfl h1
  · obtain ⟨es, h1, h2, h3⟩ := hk k
    rw [(h0 k).1, zero_add] at h2
    rw [(h0 k).2, zero_add] at h3
    exact ⟨es, h1, h2, h3⟩
  · rintro ⟨l, l', rfl, hl⟩ k
    rw [updateNodes_append] at hu
    obtain ⟨q, v, hq⟩ : ∃ q v, updateNodes env l u = (q, v) := ⟨_, _, rfl⟩
    have hkv := (nodes_keep env l u v _ hq).1
    rw [hq] at hu
    cases q with
    | error e => simp at hu
    | ok x =>
      simp only [updateNodes] at hu
      obtain ⟨q', w, hw⟩ : ∃ q w, Node.reset.update env v = (q, w) := ⟨_, _, rfl⟩
      obtain ⟨hr', hrest⟩ := reset_atRest env v w q' hw
      rw [hw, hr'] at hu
      obtain ⟨z1, z2⟩ := nodes_forces env l' hl w t _ hu hrest k
      refine ⟨z1, z2 ?_⟩
      have d3 := (nodes_keep env _ s t _ h).1
      rw [d3]
      exact hr.kind

/-- Only the nodes that produce forces matter. -/
lemma contributesBody_filter {env : SimEnv n} {A : Crowd n} {k : Fin n} {nodes : List Node}
    {fs : List (Vec × ℝ)} (h : List.Forall₂ (ContributesBody CodeArm env A k) nodes fs) :
    ∃ gs, List.Forall₂ (ContributesBody CodeArm env A k) (nodes.filter addsForces) gs ∧
      gs.sum = fs.sum := by
  induction h with
  | nil => exact ⟨[], .nil, rfl⟩
  | @cons x f xs fs hx _ ih =>
    obtain ⟨gs, h1, h2⟩ := ih
    by_cases hf : addsForces x = true
    · rw [List.filter_cons_of_pos hf]
      exact ⟨f :: gs, .cons hx h1, by rw [List.sum_cons, List.sum_cons, h2]⟩
    · rw [List.filter_cons_of_neg hf]
      have : f = 0 := by cases x <;> first | exact hx | exact absurd rfl hf
      exact ⟨gs, h1, by rw [List.sum_cons, this, zero_add, h2]⟩

open Classical in
/-- Newton's law for an order as in the shipped simulations. -/
lemma shipped_turn (env : SimEnv n) (e : LogicExpr) (s t : SimState n)
    (hr : RegularBody env [.agentAgent (3.0 + 2 * 0.3)] s)
    (h0 : ∀ i, (s.agents.rows i).force = 0 ∧ (s.agents.rows i).torque = 0)
    (h : e.update env s = (.ok (), t)) (before : List Node) (walls : Bool)
    (ho : e.order = .ok (before ++ .integrator 0.01 0.01 :: [.reset]))
    (hso : SensibleOrder (before ++ .integrator 0.01 0.01 :: [.reset]))
    (hb : ∀ x ∈ before, ¬ Moves x ∧ ¬ Clears x)
    (hc : ∀ c, .agentAgent c ∈ before → c = 3.0 + 2 * 0.3)
    (hwm : Node.agentObstacle ∈ before ↔ walls = true)
    (hfil : before.filter addsForces = [.fluctuation, .adjusting, .agentAgent (3.0 + 2 * 0.3)] ++
        (if walls then [.agentObstacle] else [])) :
    ∃ order, e.order = .ok order ∧ TurnsByNewton CodeArm env order s t := by
  refine ⟨_, ho, ?_⟩
  intro i
  obtain ⟨u, hu, ea⟩ := update_order ho env s t _ h
  have hr' : RegularBody env before s :=
    ⟨hr.kind, hr.radii, hr.attached, hr.mass, hr.inertia, hr.tau, hr.tauRot, hr.std, hr.stdTorque,
      hr.draws, hr.drawsTorque, hr.obstacles, fun c h => by
      rw [hc c h]; exact hr.cells _ List.mem_cons_self⟩
  have hsb : AllBefore Steers Adjusts before := by
    rw [allBefore_iff]
    obtain ⟨h1, h2⟩ := (allBefore_iff _ _ _).1 hso.steer
    exact ⟨fun x hx => h1 x (by simp [hx]), (List.pairwise_append.1 h2).1⟩
  obtain ⟨⟨d1, d2, -⟩, hn, hz⟩ := turn_list env before [.reset] 0.01 0.01 hb hsb
    (by simp [Moves, Steers]) le_rfl s u hr' h0 hu
  have hdt : u.data.dt = 0.01 := le_antisymm d2 d1
  have haim : aimingBody s t = aimingBody s u := by unfold aimingBody; rw [ea]
  rw [haim, ea]
  obtain ⟨z1, z2⟩ := hz ⟨[], [], rfl, by simp⟩ i
  refine ⟨z1, z2, ?_⟩
  obtain ⟨fs, h1, h2, h3⟩ := hn i
  obtain ⟨gs, g1, g2⟩ := contributesBody_filter h1
  rw [hfil] at g1
  rw [hdt, ← g2] at h2 h3
  cases walls with
  | false =>
    obtain ⟨f, _, c1, r1, rfl⟩ := List.forall₂_cons_left_iff.1 g1
    obtain ⟨a, _, c2, r2, rfl⟩ := List.forall₂_cons_left_iff.1 r1
    obtain ⟨p, _, c3, r3, rfl⟩ := List.forall₂_cons_left_iff.1 r2
    cases List.forall₂_nil_left_iff.1 r3
    refine ⟨f, a, p, 0, c1, c2, c3, ?_, ?_, ?_⟩
    · rw [if_neg (by simpa using hwm)]
    · convert h2 using 1
      simp [add_assoc]
    · convert h3 using 1
      simp [add_assoc]
  | true =>
    obtain ⟨f, _, c1, r1, rfl⟩ := List.forall₂_cons_left_iff.1 g1
    obtain ⟨a, _, c2, r2, rfl⟩ := List.forall₂_cons_left_iff.1 r1
    obtain ⟨p, _, c3, r3, rfl⟩ := List.forall₂_cons_left_iff.1 r2
    obtain ⟨w, _, c4, r4, rfl⟩ := List.forall₂_cons_left_iff.1 r3
    cases List.forall₂_nil_left_iff.1 r4
    refine ⟨f, a, p, w, c1, c2, c3, ?_, ?_, ?_⟩
    · rw [if_pos (by simpa using hwm)]; exact c4
    · convert h2 using 1
      simp [add_assoc]
    · convert h3 using 1
      simp [add_assoc]

end CrowdDynamics
