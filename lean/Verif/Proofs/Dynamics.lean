import Verif.Spec.Dynamics
import Verif.Props.PowerLaw
import Verif.Props.Interactions
import Verif.Props.Motion
import Verif.Proofs.Geometry
import Verif.Proofs.ShippedLogic
import Verif.Proofs.Simulation
import Verif.Proofs.ShippedRun

/-!
# Lemmas about the equations of motion
-/

namespace CrowdDynamics

open Spec

variable {n : ℕ}

/-! ## Forces of other agents -/

lemma social_spec (a b : Agent) (hr : 0 ≤ a.radius + b.radius) :
    IsSocialForce a b (forceSocialCircular a b).1 := by
  constructor
  · rintro t ⟨h0, h30, h1, h2⟩
    obtain ⟨ha, hD, hpos⟩ := root_of_overlap (apart_of_firstTouch h0 h1) hr h2
    have hd := Real.sqrt_pos.2 hD
    have hd2 := Real.sq_sqrt hD.le
    have htt := firstTouch_unique (firstTouch_of_root hr ha hd hd2 rfl hpos).1 h1
    refine ⟨_, energy_gradient_fst a.kSoc a.tau0 hr ha hd hd2 hpos, ?_⟩
    rw [forceSocialCircular_eq, timeToCollision_of_root hd ha hd2 hpos]
    simp only
    rw [if_neg (by rw [htt]; exact not_lt.2 h30)]
    refine cappedTo_smul ?_
    rw [smul_smul]; congr 1; ring
  · intro h
    rw [C25_zero_without_collision a b hr]
    · rintro ⟨h1, t, h2, h3, h4⟩
      exact h t ⟨h2, h3, h4, h1⟩

lemma pairForces_spec (a b : Agent) (hr : 0 ≤ a.radius + b.radius) :
    IsNeighbourForce a b (pairForces a b).1 := by
  have hh : (distanceCircles a.position a.radius b.position b.radius).1 =
      Spec.dist a.position b.position - (a.radius + b.radius) := distanceCircles_fst _ _ _ _
  constructor
  · intro h
    unfold pairForces
    simp only
    rw [if_neg (by rw [hh]; unfold sigthSoc; linarith)]
  · intro h
    have hs : (distanceCircles a.position a.radius b.position b.radius).1 < sigthSoc := by
      rw [hh]; unfold sigthSoc; linarith
    by_cases hc : Spec.dist a.position b.position < a.radius + b.radius
    · have h0 : (distanceCircles a.position a.radius b.position b.radius).1 < 0 := by
        rw [hh]; linarith
      refine ⟨_, forceContact (distanceCircles a.position a.radius b.position b.radius).1
        (distanceCircles a.position a.radius b.position b.radius).2
        (a.velocity - b.velocity) (rotate270 (distanceCircles a.position a.radius b.position
          b.radius).2) a.mu a.kappa a.damping, social_spec a b hr, ⟨fun h => absurd hc (not_lt.2 h),
          fun _ => ⟨(distanceCircles a.position a.radius b.position b.radius).2, ?_, ?_, ?_, ?_⟩⟩, ?_⟩
      rotate_left 4
      · unfold pairForces
        simp only
        rw [if_pos hs, if_pos h0]
      · by_cases he : a.position = b.position
        · rw [he, distanceCircles_normal_self, sub_self]
          simp
        · exact (distanceCircles_normal _ _ _ _ he).2
      · exact fun he => (distanceCircles_normal _ _ _ _ he).1
      · intro he
        rw [he]
        exact distanceCircles_normal_self _ _ _
      · rw [hh]
        unfold forceContact
        rw [neg_sub]
        rfl
    · refine ⟨_, 0, social_spec a b hr, ⟨fun _ => rfl, fun h => absurd h hc⟩, ?_⟩
      unfold pairForces
      simp only
      rw [if_pos hs, if_neg (by rw [hh]; linarith), add_zero]

lemma effect_list_apply {β : Type} (l : List β) (E : β → Effect n) (k : Fin n) :
    (l.map E).sum k = (l.map fun b => E b k).sum := by
  induction l with
  | nil => rfl
  | cons b l ih => simp [ih]

lemma effectCirc_at (i j k : Fin n) (hij : i ≠ j) (A : Crowd n) :
    effectCirc (i, j) A k = (if i = k then ((pairForces (A k) (A j)).1, (0 : ℝ)) else 0) +
      if j = k then ((pairForces (A k) (A i)).1, (0 : ℝ)) else 0 := by
  unfold effectCirc
  simp only [Pi.add_apply, Pi.single_apply]
  by_cases h1 : i = k
  · subst h1
    simp [hij, hij.symm]
  · by_cases h2 : j = k
    · subst h2
      simp [h1, Ne.symm h1, pairForces_swap (A i) (A j)]
    · simp [h1, h2, Ne.symm h1, Ne.symm h2]

lemma sum_allPairs (A : Crowd n) (k : Fin n) :
    ((allPairs n).map fun p => effectCirc p A).sum k =
      (∑ j ∈ Finset.univ.erase k, (pairForces (A k) (A j)).1, (0 : ℝ)) := by
  classical
  have hall := enumeratesAll_allPairs (n := n)
  have hnd : (allPairs n).Nodup := nodup_of_sym hall.once
  rw [effect_list_apply, ← List.sum_toFinset _ hnd]
  have hset : (allPairs n).toFinset = Finset.univ.filter fun p : Fin n × Fin n => p.1 < p.2 := by
    ext ⟨i, j⟩
    simp [mem_allPairs]
  rw [hset, Finset.sum_filter, Fintype.sum_prod_type]
  have e : ∀ i j : Fin n, (if i < j then effectCirc (i, j) A k else 0) =
      (if i = k then (if k < j then ((pairForces (A k) (A j)).1, (0 : ℝ)) else 0) else 0) +
      if j = k then (if i < k then ((pairForces (A k) (A i)).1, (0 : ℝ)) else 0) else 0 := by
    intro i j
    by_cases hij : i < j
    · rw [if_pos hij, effectCirc_at i j k hij.ne A]
      by_cases h1 : i = k
      · subst h1
        simp [hij, hij.ne']
      · by_cases h2 : j = k
        · subst h2
          simp [hij, h1]
        · simp [h1, h2]
    · rw [if_neg hij]
      by_cases h1 : i = k
      · subst h1
        by_cases h2 : j = i
        · subst h2; simp
        · simp [hij, h2]
      · by_cases h2 : j = k
        · subst h2
          simp [hij, h1]
        · simp [h1, h2]
  simp only [e, Finset.sum_add_distrib]
  have e1 : ∑ i : Fin n, ∑ j : Fin n, (if i = k then
      (if k < j then ((pairForces (A k) (A j)).1, (0 : ℝ)) else 0) else 0) =
      ∑ j : Fin n, if k < j then ((pairForces (A k) (A j)).1, (0 : ℝ)) else 0 := by
    rw [Finset.sum_comm]
    refine Finset.sum_congr rfl fun j _ => ?_
    rw [Finset.sum_ite_eq']
    simp
  have e2 : ∑ i : Fin n, ∑ j : Fin n, (if j = k then
      (if i < k then ((pairForces (A k) (A i)).1, (0 : ℝ)) else 0) else 0) =
      ∑ i : Fin n, if i < k then ((pairForces (A k) (A i)).1, (0 : ℝ)) else 0 := by
    refine Finset.sum_congr rfl fun i _ => ?_
    rw [Finset.sum_ite_eq']
    simp
  rw [e1, e2, ← Finset.sum_add_distrib]
  have e3 : ∀ j : Fin n, ((if k < j then ((pairForces (A k) (A j)).1, (0 : ℝ)) else 0) +
      if j < k then ((pairForces (A k) (A j)).1, (0 : ℝ)) else 0) =
      if j ≠ k then ((pairForces (A k) (A j)).1, (0 : ℝ)) else 0 := by
    intro j
    rcases lt_trichotomy j k with h | h | h
    · simp [h, h.ne, not_lt.2 h.le]
    · subst h; simp
    · simp [h, h.ne', not_lt.2 h.le]
  simp only [e3]
  rw [← Finset.sum_filter, show (Finset.univ.filter fun j => j ≠ k) = Finset.univ.erase k from by
    ext j; simp]
  ext
  · rw [Prod.fst_sum]
  · rw [Prod.fst_sum]
  · rw [Prod.snd_sum]; simp

/-- The forces of the node `AgentAgentInteractions` on circular agents. -/
lemma agentAgent_forces (cellPairs : (Fin n → Vec) → ℝ → List (Fin n × Fin n))
    (A : AgentArray n) (c : ℝ) (hc : 0 < c)
    (hcells : EnumeratesNeighbours (fun i => (A.rows i).position) c
      (cellPairs (fun i => (A.rows i).position) c))
    (hA : A.dtype.kind = .circular)
    (hsize : ∀ i j, i ≠ j → 3 + ((A.rows i).radius + (A.rows j).radius) ≤ c) :
    ∃ B, agentAgentBlockList cellPairs A c = some B ∧ B.dtype = A.dtype ∧
      ∀ k, B.rows k = { A.rows k with force := (A.rows k).force +
        (∑ j ∈ Finset.univ.erase k, (pairForces (A.rows k) (A.rows j)).1) } := by
  refine ⟨_, C30_circular_cells cellPairs A c hc hcells (by simp [isModel, hA]) hsize, rfl,
    fun k => ?_⟩
  simp only
  rw [agentAgentCircular_eq]
  unfold applyEffect
  rw [sum_allPairs]
  simp

/-! ## Walls -/

lemma obstaclesOf_walls (env : SimEnv n)
    (h : ∀ g, env.field.obstacles = some g → Supported g) :
    obstaclesOf env = .ok ((fieldWalls env.field.obstacles).map fun w => ⟨w.1, w.2⟩) := by
  unfold obstaclesOf fieldWalls
  cases hg : env.field.obstacles with
  | none => rfl
  | some g =>
    simp only [geomToLinearObstacles, geomToLinesegment_shells (h g hg)]
    rfl

/-! ## What a node does to the data that matter -/

/-- Same data that forces and time steps are made of, except forces and aims. -/
structure SameMotion (a b : Agent) : Prop where
  body : SameBody a b
  position : a.position = b.position
  velocity : a.velocity = b.velocity
  forcePrev : a.forcePrev = b.forcePrev

lemma SameMotion.refl (a : Agent) : SameMotion a a := ⟨sameBody_refl a, rfl, rfl, rfl⟩

lemma SameMotion.trans {a b c : Agent} (h : SameMotion a b) (h' : SameMotion b c) :
    SameMotion a c :=
  ⟨h.body.trans h'.body, h.position.trans h'.position, h.velocity.trans h'.velocity,
    h.forcePrev.trans h'.forcePrev⟩

lemma neighbour_congr {a a' b b' : Agent} (ha : SameMotion a a') (hb : SameMotion b b')
    {f : Vec} (h : IsNeighbourForce a b f) : IsNeighbourForce a' b' f := by
  unfold IsNeighbourForce IsSocialForce IsContactForce CollideAt at h ⊢
  rwa [ha.position, ha.velocity, ha.body.radius, ha.body.kSoc, ha.body.tau0, ha.body.mass,
    ha.body.mu, ha.body.kappa, ha.body.damping, hb.position, hb.velocity, hb.body.radius] at h

lemma wall_congr {a a' : Agent} (ha : SameMotion a a') {p q : Vec} {e : Vec × ℝ}
    (h : IsWallEffect .circular a p q e) : IsWallEffect .circular a' p q e := by
  unfold IsWallEffect IsPush discs at h ⊢
  simp only at h ⊢
  rwa [ha.position, ha.velocity, ha.body.radius, ha.body.mu, ha.body.kappa, ha.body.damping] at h

lemma contributes_congr {env : SimEnv n} {A B : Crowd n} (h : ∀ k, SameMotion (A k) (B k))
    {k : Fin n} {node : Node}
    (hd : Adjusts node → (A k).targetDirection = (B k).targetDirection) {f : Vec}
    (hf : Contributes env A k node f) : Contributes env B k node f := by
  cases node
  case fluctuation =>
    unfold Contributes at hf ⊢
    rwa [(h k).body.mass, (h k).body.stdRandForce] at hf
  case adjusting =>
    unfold Contributes at hf ⊢
    rwa [(h k).body.mass, (h k).body.tauAdj, (h k).body.targetVelocity, (h k).velocity,
      hd trivial] at hf
  case agentAgent =>
    obtain ⟨F, h1, h2⟩ := hf
    exact ⟨F, fun j hj => neighbour_congr (h k) (h j) (h1 j hj), h2⟩
  case agentObstacle =>
    obtain ⟨F, h1, h2⟩ := hf
    exact ⟨F, fun w => wall_congr (h k) (h1 w), h2⟩
  all_goals exact hf

/-- One update of a node that neither moves nor clears. -/
lemma node_contributes (env : SimEnv n) (node : Node) (s t : SimState n)
    (hr : Regular env [node] s) (h : node.update env s = (.ok (), t)) (hm : ¬ Moves node)
    (hc : ¬ Clears node) :
    t.agents.dtype = s.agents.dtype ∧
    ∀ k, SameMotion (s.agents.rows k) (t.agents.rows k) ∧
      (¬ Steers node → (t.agents.rows k).targetDirection = (s.agents.rows k).targetDirection) ∧
      ∃ f, Contributes env s.agents.rows k node f ∧
        (t.agents.rows k).force = (s.agents.rows k).force + f := by
  have same : ∀ k, SameMotion (s.agents.rows k) (s.agents.rows k) ∧
      (¬ Steers node → (s.agents.rows k).targetDirection = (s.agents.rows k).targetDirection) ∧
      (s.agents.rows k).force = (s.agents.rows k).force + 0 :=
    fun k => ⟨.refl _, fun _ => rfl, (add_zero _).symm⟩
  cases node with
  | abstract => cases h
  | reset => exact absurd trivial hc
  | integrator dtMin dtMax => exact absurd trivial hm
  | fluctuation =>
    cases h
    obtain ⟨h1, -⟩ := fluctuation_frame (env.phi s.draws) (env.z s.draws) (env.w s.draws) s.agents
    refine ⟨h1, fun k => ?_⟩
    have e : (fluctuation (env.phi s.draws) (env.z s.draws) (env.w s.draws) s.agents).rows k =
        { s.agents.rows k with force := (s.agents.rows k).force +
          (forceFluctuation (s.agents.rows k).mass (s.agents.rows k).stdRandForce
            (env.phi s.draws k) (env.z s.draws k)) } := by
      unfold fluctuation
      simp [isModel, hr.circular]
    simp only
    rw [e]
    refine ⟨⟨by constructor <;> rfl, rfl, rfl, rfl⟩, fun _ => rfl, _, ?_, rfl⟩
    show len _ ≤ _
    obtain ⟨hz0, hz3⟩ := hr.draws s.draws k 0 3 (by norm_num)
    have hms := mul_nonneg (hr.mass k).le (hr.std k)
    have hl : len (forceFluctuation (s.agents.rows k).mass (s.agents.rows k).stdRandForce
        (env.phi s.draws k) (env.z s.draws k)) =
        |(s.agents.rows k).mass * ((s.agents.rows k).stdRandForce * env.z s.draws k 0 3)| := by
      unfold forceFluctuation truncnorm
      simp only [zero_add]
      rw [← length_eq, length_smul, length_eq]
      simp [len]
    rw [hl, abs_of_nonneg (mul_nonneg (hr.mass k).le (mul_nonneg (hr.std k) hz0))]
    nlinarith
  | adjusting =>
    cases h
    obtain ⟨h1, -⟩ := adjusting_frame s.agents
    refine ⟨h1, fun k => ?_⟩
    obtain ⟨-, e⟩ := C32_adjusting_rows s.agents k
    simp only
    rw [e]
    refine ⟨⟨by constructor <;> rfl, rfl, rfl, rfl⟩, fun _ => rfl, _, ?_, rfl⟩
    show _ • _ = _ • _
    unfold forceAdjust
    rw [smul_smul, mul_div_cancel₀ _ (hr.tau k).ne']
  | agentAgent c =>
    obtain ⟨hc0, hsize, hcells⟩ := hr.cells c List.mem_cons_self
    obtain ⟨B, e1, e2, e3⟩ := agentAgent_forces env.cellPairs s.agents c hc0 hcells hr.circular hsize
    simp only [Node.update, e1] at h
    cases h
    refine ⟨e2, fun k => ?_⟩
    simp only
    rw [e3 k]
    exact ⟨⟨by constructor <;> rfl, rfl, rfl, rfl⟩, fun _ => rfl, _,
      ⟨_, fun j _ => pairForces_spec _ _ (add_nonneg (hr.radius k) (hr.radius j)), rfl⟩, rfl⟩
  | agentObstacle =>
    simp only [Node.update, obstaclesOf_walls env hr.obstacles, CrowdDynamics.agentObstacle] at h
    rw [if_pos (by simp [isModel, hr.circular])] at h
    cases h
    refine ⟨rfl, fun k => ?_⟩
    simp only
    rw [agentCircularObstacle_apply]
    refine ⟨⟨by constructor <;> rfl, rfl, rfl, rfl⟩, fun _ => rfl, _,
      ⟨fun w => wallForce (s.agents.rows k) ⟨w.1, w.2⟩, fun w => wallForce_spec (s.agents.rows k) ⟨w.1, w.2⟩, rfl⟩, ?_⟩
    rw [List.map_map]
    rfl
  | navigation step radius strength =>
    obtain ⟨h1, h2, h3⟩ := navLoop_frame env step radius strength _ s t _ h
    refine ⟨h1, fun k => ?_⟩
    obtain ⟨d, e⟩ := h3 k
    rw [e]
    exact ⟨⟨by constructor <;> rfl, rfl, rfl, rfl⟩, fun hs => absurd trivial hs, 0, rfl,
      (add_zero _).symm⟩
  | leaderFollower sight =>
    simp only [Node.update, obstaclesOf_walls env hr.obstacles] at h
    cases h
    refine ⟨rfl, fun k => ?_⟩
    obtain ⟨t, l, d, e⟩ := leader_frame env.oob env.argsort
      ((fieldWalls env.field.obstacles).map fun w => ⟨w.1, w.2⟩) sight s.agents.rows k
    simp only [SimState.withRows]
    rw [e]
    exact ⟨⟨by constructor <;> rfl, rfl, rfl, rfl⟩, fun hs => absurd trivial hs, 0, rfl,
      (add_zero _).symm⟩
  | herding sight size =>
    simp only [Node.update, obstaclesOf_walls env hr.obstacles] at h
    cases ha : leaderFollowerWithHerdingUpdate env.oob env.argsort env.cellPairs
        ((fieldWalls env.field.obstacles).map fun w => ⟨w.1, w.2⟩) sight size s.agents.rows with
    | none => rw [ha] at h; cases h
    | some a =>
      rw [ha] at h
      cases h
      refine ⟨rfl, fun k => ?_⟩
      obtain ⟨t, l, d, e⟩ := herding_frame ha k
      simp only [SimState.withRows]
      rw [e]
      exact ⟨⟨by constructor <;> rfl, rfl, rfl, rfl⟩, fun hs => absurd trivial hs, 0, rfl,
        (add_zero _).symm⟩
  | exitDetection range =>
    simp only [Node.update, obstaclesOf_walls env hr.obstacles] at h
    cases ht : targetArrays env env.field.targets with
    | error e => rw [ht] at h; cases h
    | ok arrays =>
      rw [ht] at h
      simp only at h
      by_cases h0 : arrays = []
      · rw [if_pos h0] at h; cases h
      rw [if_neg h0] at h
      cases ha : exitDetectionUpdate arrays
          ((fieldWalls env.field.obstacles).map fun w => ⟨w.1, w.2⟩) range s.agents.rows with
      | none => rw [ha] at h; cases h
      | some a =>
        rw [ha] at h
        cases h
        refine ⟨rfl, fun k => ?_⟩
        obtain ⟨t, f, e, hf⟩ := exit_frame ha k
        simp only [SimState.withRows]
        rw [e]
        exact ⟨⟨by constructor <;> rfl, rfl, rfl, rfl⟩, fun hs => absurd trivial hs, 0, rfl,
          (add_zero _).symm⟩
  | orientation =>
    cases h
    obtain ⟨h1, h2⟩ := orientation_frame s.agents
    refine ⟨h1, fun k => ?_⟩
    obtain ⟨o, e⟩ := h2 k
    simp only
    rw [e]
    exact ⟨⟨by constructor <;> rfl, rfl, rfl, rfl⟩, fun hs => absurd trivial hs, 0, rfl,
      (add_zero _).symm⟩
  | save outcome =>
    simp only [Node.update] at h
    cases ho : outcome s.data.iterations with
    | none =>
      rw [ho] at h
      cases h
      exact ⟨rfl, fun k => ⟨(same k).1, (same k).2.1, 0, rfl, (same k).2.2⟩⟩
    | some e => rw [ho] at h; cases h
  | insideDomain path =>
    obtain ⟨h1, h2, -⟩ := insideDomain_frame env path s t _ h
    refine ⟨h1, fun k => ?_⟩
    rw [h2 k]
    exact ⟨⟨by constructor <;> rfl, rfl, rfl, rfl⟩, fun _ => rfl, 0, rfl, (add_zero _).symm⟩
  | targetReached paths =>
    simp only [Node.update] at h
    by_cases h0 : paths = []
    · rw [if_pos h0] at h
      cases h
      exact ⟨rfl, fun k => ⟨(same k).1, (same k).2.1, 0, rfl, (same k).2.2⟩⟩
    · rw [if_neg h0] at h; cases h

lemma Regular_step {env : SimEnv n} {node : Node} {rest : List Node} {s t : SimState n}
    (h : Regular env (node :: rest) s) (hd : t.agents.dtype = s.agents.dtype)
    (hm : ∀ k, SameMotion (s.agents.rows k) (t.agents.rows k)) : Regular env rest t := by
  have hp : (fun i => (t.agents.rows i).position) = fun i => (s.agents.rows i).position :=
    funext fun i => (hm i).position.symm
  refine ⟨by rw [hd]; exact h.circular, fun k => ?_, fun k => ?_, fun k => ?_, fun k => ?_, h.draws,
    h.obstacles, fun c hc => ?_⟩
  · rw [← (hm k).body.radius]; exact h.radius k
  · rw [← (hm k).body.mass]; exact h.mass k
  · rw [← (hm k).body.tauAdj]; exact h.tau k
  · rw [← (hm k).body.stdRandForce]; exact h.std k
  · obtain ⟨h1, h2, h3⟩ := h.cells c (List.mem_cons_of_mem _ hc)
    rw [hp]
    refine ⟨h1, fun i j hij => ?_, h3⟩
    rw [← (hm i).body.radius, ← (hm j).body.radius]
    exact h2 i j hij

lemma Regular_head {env : SimEnv n} {node : Node} {rest : List Node} {s : SimState n}
    (h : Regular env (node :: rest) s) : Regular env [node] s :=
  ⟨h.circular, h.radius, h.mass, h.tau, h.std, h.draws, h.obstacles, fun c hc =>
    h.cells c (by rw [List.mem_singleton.1 hc]; exact List.mem_cons_self)⟩

/-- Updates of nodes that neither move nor clear add their contributions. -/
lemma nodes_contribute (env : SimEnv n) (nodes : List Node) : ∀ (s t : SimState n),
    Regular env nodes s → updateNodes env nodes s = (.ok (), t) →
    (∀ x ∈ nodes, ¬ Moves x ∧ ¬ Clears x) →
    nodes.Pairwise (fun a b => ¬ (Adjusts a ∧ Steers b)) →
    t.agents.dtype = s.agents.dtype ∧
    ∀ k, SameMotion (s.agents.rows k) (t.agents.rows k) ∧
      ((∀ x ∈ nodes, ¬ Steers x) →
        (t.agents.rows k).targetDirection = (s.agents.rows k).targetDirection) ∧
      ∃ fs, List.Forall₂ (Contributes env t.agents.rows k) nodes fs ∧
        (t.agents.rows k).force = (s.agents.rows k).force + fs.sum := by
  induction nodes with
  | nil =>
    intro s t _ h _ _
    cases h
    exact ⟨rfl, fun k => ⟨.refl _, fun _ => rfl, [], .nil, by simp⟩⟩
  | cons x xs ih =>
    intro s t hr h hx hp
    obtain ⟨q, u, hu⟩ : ∃ q u, x.update env s = (q, u) := ⟨_, _, rfl⟩
    rw [updateNodes, hu] at h
    cases q with
    | error e => cases h
    | ok _ =>
      simp only at h
      obtain ⟨hm, hc⟩ := hx x List.mem_cons_self
      obtain ⟨d1, a1⟩ := node_contributes env x s u (Regular_head hr) hu hm hc
      have hru := Regular_step hr d1 fun k => (a1 k).1
      obtain ⟨hp1, hp2⟩ := List.pairwise_cons.1 hp
      obtain ⟨d2, a2⟩ := ih u t hru h (fun y hy => hx y (List.mem_cons_of_mem _ hy)) hp2
      refine ⟨d2.trans d1, fun k => ?_⟩
      obtain ⟨m1, t1, f, c1, e1⟩ := a1 k
      obtain ⟨m2, t2, fs, c2, e2⟩ := a2 k
      refine ⟨m1.trans m2, fun hn => (t2 fun y hy => hn y (List.mem_cons_of_mem _ hy)).trans
        (t1 (hn x List.mem_cons_self)), f :: fs, .cons ?_ c2, ?_⟩
      · refine contributes_congr (fun j => (a1 j).1.trans (a2 j).1) (fun ha => ?_) c1
        have hs : ¬ Steers x := by cases x <;> first | exact absurd ha id | exact id
        exact ((t2 fun y hy hy' => hp1 y hy ⟨ha, hy'⟩).trans (t1 hs)).symm
      · rw [e2, e1, List.sum_cons, add_assoc]

/-- Every node except the integrator leaves positions, velocities and old forces alone. -/
lemma node_still (env : SimEnv n) (node : Node) (s t : SimState n) (r : Except PyErr Unit)
    (h : node.update env s = (r, t)) (hm : ¬ Moves node) (k : Fin n) :
    SameMotion (s.agents.rows k) (t.agents.rows k) ∧
    (¬ Steers node → (t.agents.rows k).targetDirection = (s.agents.rows k).targetDirection) := by
  have same : SameMotion (s.agents.rows k) (s.agents.rows k) ∧
      (¬ Steers node → (s.agents.rows k).targetDirection = (s.agents.rows k).targetDirection) :=
    ⟨.refl _, fun _ => rfl⟩
  cases node with
  | abstract => cases h; exact same
  | reset =>
    cases h
    obtain ⟨h1, h2⟩ := reset_frame s.agents
    simp only
    rw [h2 k]
    exact ⟨⟨by constructor <;> rfl, rfl, rfl, rfl⟩, fun _ => rfl⟩
  | integrator dtMin dtMax => exact absurd trivial hm
  | fluctuation =>
    cases h
    obtain ⟨h1, h2⟩ := fluctuation_frame (env.phi s.draws) (env.z s.draws) (env.w s.draws) s.agents
    obtain ⟨f, t, e⟩ := h2 k
    simp only
    rw [e]
    exact ⟨⟨by constructor <;> rfl, rfl, rfl, rfl⟩, fun _ => rfl⟩
  | adjusting =>
    cases h
    obtain ⟨h1, h2⟩ := adjusting_frame s.agents
    obtain ⟨f, t, e⟩ := h2 k
    simp only
    rw [e]
    exact ⟨⟨by constructor <;> rfl, rfl, rfl, rfl⟩, fun _ => rfl⟩
  | agentAgent c =>
    simp only [Node.update] at h
    cases ha : agentAgentBlockList env.cellPairs s.agents c with
    | none => rw [ha] at h; cases h; exact same
    | some a =>
      rw [ha] at h
      cases h
      obtain ⟨h1, e, h2⟩ := agentAgent_frame ha
      simp only
      rw [h2]
      exact ⟨⟨by constructor <;> rfl, rfl, rfl, rfl⟩, fun _ => rfl⟩
  | agentObstacle =>
    simp only [Node.update] at h
    cases ho : obstaclesOf env with
    | error e => rw [ho] at h; cases h; exact same
    | ok ws =>
      rw [ho] at h
      simp only at h
      cases ha : CrowdDynamics.agentObstacle s.agents ws with
      | none => rw [ha] at h; cases h; exact same
      | some a =>
        rw [ha] at h
        cases h
        obtain ⟨h1, e, h2⟩ := agentObstacle_frame ha
        simp only
        rw [h2]
        exact ⟨⟨by constructor <;> rfl, rfl, rfl, rfl⟩, fun _ => rfl⟩
  | navigation step radius strength =>
    obtain ⟨h1, h2, h3⟩ := navLoop_frame env step radius strength _ s t r h
    obtain ⟨d, e⟩ := h3 k
    rw [e]
    exact ⟨⟨by constructor <;> rfl, rfl, rfl, rfl⟩, fun hs => absurd trivial hs⟩
  | leaderFollower sight =>
    simp only [Node.update] at h
    cases ho : obstaclesOf env with
    | error e => rw [ho] at h; cases h; exact same
    | ok ws =>
      rw [ho] at h
      cases h
      obtain ⟨t, l, d, e⟩ := leader_frame env.oob env.argsort ws sight s.agents.rows k
      simp only [SimState.withRows]
      rw [e]
      exact ⟨⟨by constructor <;> rfl, rfl, rfl, rfl⟩, fun hs => absurd trivial hs⟩
  | herding sight size =>
    simp only [Node.update] at h
    cases ho : obstaclesOf env with
    | error e => rw [ho] at h; cases h; exact same
    | ok ws =>
      rw [ho] at h
      simp only at h
      cases ha : leaderFollowerWithHerdingUpdate env.oob env.argsort env.cellPairs ws sight size
          s.agents.rows with
      | none => rw [ha] at h; cases h; exact same
      | some a =>
        rw [ha] at h
        cases h
        obtain ⟨t, l, d, e⟩ := herding_frame ha k
        simp only [SimState.withRows]
        rw [e]
        exact ⟨⟨by constructor <;> rfl, rfl, rfl, rfl⟩, fun hs => absurd trivial hs⟩
  | exitDetection range =>
    simp only [Node.update] at h
    cases ht : targetArrays env env.field.targets with
    | error e => rw [ht] at h; cases h; exact same
    | ok arrays =>
      rw [ht] at h
      simp only at h
      split_ifs at h with h0
      · cases h; exact same
      · cases ho : obstaclesOf env with
        | error e => rw [ho] at h; cases h; exact same
        | ok ws =>
          rw [ho] at h
          simp only at h
          cases ha : exitDetectionUpdate arrays ws range s.agents.rows with
          | none => rw [ha] at h; cases h; exact same
          | some a =>
            rw [ha] at h
            cases h
            obtain ⟨t, f, e, hf⟩ := exit_frame ha k
            simp only [SimState.withRows]
            rw [e]
            exact ⟨⟨by constructor <;> rfl, rfl, rfl, rfl⟩, fun hs => absurd trivial hs⟩
  | orientation =>
    cases h
    obtain ⟨h1, h2⟩ := orientation_frame s.agents
    obtain ⟨o, e⟩ := h2 k
    simp only
    rw [e]
    exact ⟨⟨by constructor <;> rfl, rfl, rfl, rfl⟩, fun hs => absurd trivial hs⟩
  | save outcome =>
    simp only [Node.update] at h
    cases ho : outcome s.data.iterations with
    | none => rw [ho] at h; cases h; exact same
    | some e => rw [ho] at h; cases h; exact same
  | insideDomain path =>
    obtain ⟨h1, h2, -⟩ := insideDomain_frame env path s t _ h
    rw [h2 k]
    exact ⟨⟨by constructor <;> rfl, rfl, rfl, rfl⟩, fun _ => rfl⟩
  | targetReached paths =>
    simp only [Node.update] at h
    split_ifs at h <;> cases h <;> exact same

lemma nodes_still (env : SimEnv n) (nodes : List Node) : ∀ (s t : SimState n)
    (r : Except PyErr Unit), updateNodes env nodes s = (r, t) → (∀ x ∈ nodes, ¬ Moves x) →
    ∀ k, SameMotion (s.agents.rows k) (t.agents.rows k) ∧
      ((∀ x ∈ nodes, ¬ Steers x) →
        (t.agents.rows k).targetDirection = (s.agents.rows k).targetDirection) := by
  induction nodes with
  | nil => intro s t r h _ k; cases h; exact ⟨.refl _, fun _ => rfl⟩
  | cons x xs ih =>
    intro s t r h hx k
    obtain ⟨q, u, hu⟩ : ∃ q u, x.update env s = (q, u) := ⟨_, _, rfl⟩
    obtain ⟨a1, b1⟩ := node_still env x s u q hu (hx x List.mem_cons_self) k
    rw [updateNodes, hu] at h
    cases q with
    | error e => cases h; exact ⟨a1, fun hs => b1 (hs x List.mem_cons_self)⟩
    | ok _ =>
      obtain ⟨a2, b2⟩ := ih u t r h (fun y hy => hx y (List.mem_cons_of_mem _ hy)) k
      exact ⟨a1.trans a2, fun hs => (b2 fun y hy => hs y (List.mem_cons_of_mem _ hy)).trans
        (b1 (hs x List.mem_cons_self))⟩

/-- The integrator makes a time step. -/
lemma integrator_step (dtMin dtMax : ℝ) (s : SimState n) (hc : s.agents.dtype.kind = .circular)
    (k : Fin n) (hm : (s.agents.rows k).mass ≠ 0) :
    TimeStep (s.agents.rows k) ((integratorUpdate dtMin dtMax s).agents.rows k)
      (s.agents.rows k).force (integratorUpdate dtMin dtMax s).data.dt ∧
    SameBody (s.agents.rows k) ((integratorUpdate dtMin dtMax s).agents.rows k) ∧
    ((integratorUpdate dtMin dtMax s).agents.rows k).targetDirection =
      (s.agents.rows k).targetDirection := by
  have e : (integratorUpdate dtMin dtMax s).agents.rows k = translationalVerletRow
      (adaptiveTimestep s.agents.rows dtMin dtMax) (s.agents.rows k) := by
    simp [integratorUpdate, velocityVerletIntegrator, isModel, hc, translationalVerlet]
  have ed : (integratorUpdate dtMin dtMax s).data.dt =
    adaptiveTimestep s.agents.rows dtMin dtMax := rfl
  rw [e, ed]
  refine ⟨⟨(1 / (s.agents.rows k).mass) • (s.agents.rows k).forcePrev,
    (1 / (s.agents.rows k).mass) • (s.agents.rows k).force, ?_, ?_, ?_, ?_, rfl⟩,
    by constructor <;> rfl, rfl⟩
  · unfold IsAcceleration
    ext <;> simp <;> field_simp
  · unfold IsAcceleration
    ext <;> simp <;> field_simp
  · simp only [translationalVerletRow]
    rw [smul_smul]
    congr 2
    ring
  · simp only [translationalVerletRow]
    rw [add_assoc, smul_smul (_ ^ 2)]
    congr 3
    ring

/-- A whole update. -/
lemma update_newton (env : SimEnv n) (before after : List Node) (dtMin dtMax : ℝ)
    (hb : ∀ x ∈ before, ¬ Moves x ∧ ¬ Clears x)
    (hs : before.Pairwise (fun a b => ¬ (Adjusts a ∧ Steers b)))
    (ha : ∀ x ∈ after, ¬ Moves x ∧ ¬ Steers x) (s t : SimState n)
    (hr : Regular env before s)
    (h : updateNodes env (before ++ .integrator dtMin dtMax :: after) s = (.ok (), t)) :
    ∃ u, updateNodes env after u = (.ok (), t) ∧ (∀ k, u.agents.dtype = s.agents.dtype ∧
      ∃ fs, List.Forall₂ (Contributes env (aiming s t) k) before fs ∧
        TimeStep (s.agents.rows k) (t.agents.rows k) ((s.agents.rows k).force + fs.sum) u.data.dt ∧
        SameBody (s.agents.rows k) (t.agents.rows k)) := by
  rw [updateNodes_append] at h
  obtain ⟨q, v, hv⟩ : ∃ q v, updateNodes env before s = (q, v) := ⟨_, _, rfl⟩
  rw [hv] at h
  cases q with
  | error e => cases h
  | ok _ =>
    simp only [updateNodes, Node.update] at h
    refine ⟨_, h, fun k => ?_⟩
    obtain ⟨d1, a1⟩ := nodes_contribute env before s v hr hv hb hs
    obtain ⟨m1, -, fs, c1, e1⟩ := a1 k
    have hmass : (v.agents.rows k).mass ≠ 0 := by
      rw [← m1.body.mass]; exact (hr.mass k).ne'
    obtain ⟨⟨p, q, h1, h2, h3, h4, h5⟩, sb, td⟩ := integrator_step dtMin dtMax v
      (by rw [d1]; exact hr.circular) k hmass
    have a2 := nodes_still env after _ t _ h fun x hx => (ha x hx).1
    have htd : ∀ j, (t.agents.rows j).targetDirection = (v.agents.rows j).targetDirection := by
      intro j
      rw [(a2 j).2 fun x hx => (ha x hx).2]
      have hmj : (v.agents.rows j).mass ≠ 0 := by
        rw [← (a1 j).1.body.mass]; exact (hr.mass j).ne'
      exact (integrator_step dtMin dtMax v (by rw [d1]; exact hr.circular) j hmj).2.2
    refine ⟨(verlet_frame v.agents dtMin dtMax).1.trans d1, fs, ?_, ⟨p, q, ?_, ?_, ?_, ?_, ?_⟩,
      (m1.body.trans sb).trans (a2 k).1.body⟩
    · refine c1.imp fun x f hf => contributes_congr (fun j => ?_) (fun _ => ?_) hf
      · have := (a1 j).1
        exact ⟨⟨this.body.1.symm, this.body.2.symm, this.body.3.symm, this.body.4.symm,
          this.body.5.symm, this.body.6.symm, this.body.7.symm, this.body.8.symm,
          this.body.9.symm, this.body.10.symm, this.body.11.symm, this.body.12.symm,
          this.body.13.symm, this.body.14.symm, this.body.15.symm, this.body.16.symm,
          this.body.17.symm, this.body.18.symm, this.body.19.symm, this.body.20.symm⟩,
          this.position.symm, this.velocity.symm, this.forcePrev.symm⟩
      · exact (htd k).symm
    · rwa [m1.body.mass, m1.forcePrev]
    · rwa [m1.body.mass, ← e1]
    · rw [← (a2 k).1.velocity, h3, m1.velocity]
    · rw [← (a2 k).1.position, ← (a2 k).1.velocity, h4, m1.position]
    · rw [← (a2 k).1.forcePrev, h5, e1]

/-- The same with the size of the step and the forces afterwards. -/
lemma newton_list (env : SimEnv n) (before after : List Node) (dtMin dtMax : ℝ)
    (hb : ∀ x ∈ before, ¬ Moves x ∧ ¬ Clears x) (hs : AllBefore Steers Adjusts before)
    (ha : ∀ x ∈ after, ¬ Moves x ∧ ¬ Steers x) (hd : dtMin ≤ dtMax) (s t : SimState n)
    (hr : Regular env before s) (h0 : ∀ k, (s.agents.rows k).force = 0)
    (h : updateNodes env (before ++ .integrator dtMin dtMax :: after) s = (.ok (), t)) :
    (dtMin ≤ t.data.dt ∧ t.data.dt ≤ dtMax ∧ t.data.timeTot = s.data.timeTot + t.data.dt) ∧
    (∀ k, ∃ fs, List.Forall₂ (Contributes env (aiming s t) k) before fs ∧
      TimeStep (s.agents.rows k) (t.agents.rows k) fs.sum t.data.dt) ∧
    ((∃ l l', after = l ++ .reset :: l' ∧ ∀ x ∈ l', LeavesForces x) →
      ∀ k, (t.agents.rows k).force = 0) := by
  have hmi : ∀ x : Node, ¬ Moves x → ¬ IsIntegrator x := by
    intro x hx; cases x <;> first | exact id | exact absurd trivial hx
  obtain ⟨u, hu, hk⟩ := update_newton env before after dtMin dtMax hb ((allBefore_iff _ _ _).1 hs).2
    ha s t hr h
  have hdt := ((nodes_keep env after u t _ hu).2.2.2 fun x hx => hmi x (ha x hx).1).2
  rw [hdt]
  refine ⟨?_, fun k => ?_, ?_⟩
  · rcases nodes_time env ⟨before, after, rfl, fun x hx => hmi x (hb x hx).1,
      fun x hx => hmi x (ha x hx).1⟩ hd s t _ h with ⟨h1, h2, h3⟩ | ⟨h1, -⟩
    · rw [← hdt]; exact ⟨h2, h3, h1⟩
    · exact absurd rfl h1
  · obtain ⟨-, fs, h1, h2, -⟩ := hk k
    rw [h0 k, zero_add] at h2
    exact ⟨fs, h1, h2⟩
  · rintro ⟨l, l', rfl, hl⟩ k
    rw [updateNodes_append] at hu
    obtain ⟨q, v, hq⟩ : ∃ q v, updateNodes env l u = (q, v) := ⟨_, _, rfl⟩
    rw [hq] at hu
    cases q with
    | error e => simp at hu
    | ok x =>
      simp only [updateNodes] at hu
      obtain ⟨q', w, hw⟩ : ∃ q w, Node.reset.update env v = (q, w) := ⟨_, _, rfl⟩
      obtain ⟨hr', hrest⟩ := reset_atRest env v w q' hw
      rw [hw, hr'] at hu
      exact (nodes_forces env l' hl w t _ hu hrest k).1

/-- Whether a node adds forces, as a truth value. -/
def addsForces : Node → Bool
  | .fluctuation | .adjusting | .agentAgent _ | .agentObstacle => true
  | _ => false

/-- Only the nodes that produce forces matter. -/
lemma contributes_filter {env : SimEnv n} {A : Crowd n} {k : Fin n} {nodes : List Node}
    {fs : List Vec} (h : List.Forall₂ (Contributes env A k) nodes fs) :
    ∃ gs, List.Forall₂ (Contributes env A k) (nodes.filter addsForces) gs ∧ gs.sum = fs.sum := by
  induction h with
  | nil => exact ⟨[], .nil, rfl⟩
  | @cons x f xs fs hx _ ih =>
    obtain ⟨gs, h1, h2⟩ := ih
    by_cases hf : addsForces x = true
    · rw [List.filter_cons_of_pos hf]
      exact ⟨f :: gs, .cons hx h1, by rw [List.sum_cons, List.sum_cons, h2]⟩
    · rw [List.filter_cons_of_neg hf]
      have : f = 0 := by cases x <;> first | exact hx | exact absurd rfl hf
      exact ⟨gs, h1, by rw [List.sum_cons, this, zero_add, h2]⟩

lemma fst_sum_list {β : Type} (l : List β) (F : β → Vec × ℝ) :
    (l.map F).sum.1 = (l.map fun b => (F b).1).sum ∧ (l.map F).sum.2 = (l.map fun b => (F b).2).sum := by
  induction l with
  | nil => exact ⟨rfl, rfl⟩
  | cons b l ih => simp [ih]

open Classical in
/-- Newton's law for an order as in the shipped simulations. -/
lemma shipped_newton (env : SimEnv n) (e : LogicExpr) (s t : SimState n)
    (hr : Regular env [.agentAgent (3.0 + 2 * 0.3)] s) (h0 : ∀ i, (s.agents.rows i).force = 0)
    (h : e.update env s = (.ok (), t)) (before : List Node) (walls : Bool)
    (ho : e.order = .ok (before ++ .integrator 0.01 0.01 :: [.reset]))
    (hso : SensibleOrder (before ++ .integrator 0.01 0.01 :: [.reset]))
    (hb : ∀ x ∈ before, ¬ Moves x ∧ ¬ Clears x)
    (hc : ∀ c, .agentAgent c ∈ before → c = 3.0 + 2 * 0.3)
    (hwm : Node.agentObstacle ∈ before ↔ walls = true)
    (hfil : before.filter addsForces = [.fluctuation, .adjusting, .agentAgent (3.0 + 2 * 0.3)] ++
        (if walls then [.agentObstacle] else [])) :
    ∃ order, e.order = .ok order ∧ MovesByNewton env order s t := by
  refine ⟨_, ho, ?_⟩
  intro i
  obtain ⟨u, hu, ea⟩ := update_order ho env s t _ h
  have hr' : Regular env before s :=
    ⟨hr.circular, hr.radius, hr.mass, hr.tau, hr.std, hr.draws, hr.obstacles, fun c h => by
      rw [hc c h]; exact hr.cells _ List.mem_cons_self⟩
  have hsb : AllBefore Steers Adjusts before := by
    rw [allBefore_iff]
    obtain ⟨h1, h2⟩ := (allBefore_iff _ _ _).1 hso.steer
    exact ⟨fun x hx => h1 x (by simp [hx]), (List.pairwise_append.1 h2).1⟩
  obtain ⟨⟨d1, d2, -⟩, hn, hz⟩ := newton_list env before [.reset] 0.01 0.01 hb hsb
    (by simp [Moves, Steers]) le_rfl s u hr' h0 hu
  have hdt : u.data.dt = 0.01 := le_antisymm d2 d1
  have haim : aiming s t = aiming s u := by unfold aiming; rw [ea]
  rw [haim, ea]
  refine ⟨hz ⟨[], [], rfl, by simp⟩ i, ?_⟩
  obtain ⟨fs, h1, h2⟩ := hn i
  obtain ⟨gs, g1, g2⟩ := contributes_filter h1
  rw [hfil] at g1
  rw [hdt, ← g2] at h2
  cases walls with
  | false =>
    obtain ⟨f, _, c1, r1, rfl⟩ := List.forall₂_cons_left_iff.1 g1
    obtain ⟨a, _, c2, r2, rfl⟩ := List.forall₂_cons_left_iff.1 r1
    obtain ⟨p, _, c3, r3, rfl⟩ := List.forall₂_cons_left_iff.1 r2
    cases List.forall₂_nil_left_iff.1 r3
    refine ⟨f, a, p, 0, c1, c2, c3, ?_, ?_⟩
    · rw [if_neg (by simpa using hwm)]
    · convert h2 using 1
      simp [add_assoc]
  | true =>
    obtain ⟨f, _, c1, r1, rfl⟩ := List.forall₂_cons_left_iff.1 g1
    obtain ⟨a, _, c2, r2, rfl⟩ := List.forall₂_cons_left_iff.1 r1
    obtain ⟨p, _, c3, r3, rfl⟩ := List.forall₂_cons_left_iff.1 r2
    obtain ⟨w, _, c4, r4, rfl⟩ := List.forall₂_cons_left_iff.1 r3
    cases List.forall₂_nil_left_iff.1 r4
    refine ⟨f, a, p, w, c1, c2, c3, ?_, ?_⟩
    · rw [if_pos (by simpa using hwm)]; exact c4
    · convert h2 using 1
      simp [add_assoc]

end CrowdDynamics
