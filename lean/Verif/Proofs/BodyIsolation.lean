import Verif.Spec.BodyIsolation
import Verif.Proofs.Isolation
import Verif.Proofs.TurningRun

/-!
# Lemmas about groups of three-circle agents in two crowds
-/

namespace CrowdDynamics

open Spec

variable {κ : Type} {n m : ℕ} {ι : κ → Fin n} {ι' : κ → Fin m}

/-- Distant three-circle agents exert neither forces nor torques. -/
lemma pairForcesThree_far (a b : Agent)
    (h : ∀ p q, 3 + (a.radii p + b.radii q) ≤ Spec.dist (a.circles p) (b.circles q)) :
    pairForcesThree a b = ((0, 0), (0, 0)) := by
  obtain ⟨p, q, m, h1, -⟩ := distanceThreeCircles_spec a.circles a.radii b.circles b.radii
  unfold pairForcesThree
  simp only
  rw [if_neg]
  rw [h1]
  have := h p q
  unfold sigthSoc
  change ¬ Spec.dist (a.circles p) (b.circles q) - (a.radii p + b.radii q) < 3
  linarith

/-- Only the group counts for the effects on its members. -/
lemma sum_bodies [Fintype κ] [DecidableEq κ] (hι : Function.Injective ι) (s : SimState n)
    (ha : BodiesApart ι s) (l : List (Fin n × Fin n)) (i : κ) :
    ∑ k ∈ Finset.univ.erase (ι i), orientedEffect s.agents.rows l (ι i) k =
      ∑ j ∈ Finset.univ.erase i, orientedEffect s.agents.rows l (ι i) (ι j) := by
  classical
  have hsub : (Finset.univ.erase i).map ⟨ι, hι⟩ ⊆ Finset.univ.erase (ι i) := by
    intro k hk
    simp only [Finset.mem_map, Finset.mem_erase, Finset.mem_univ, and_true,
      Function.Embedding.coeFn_mk] at hk ⊢
    obtain ⟨j, hj, rfl⟩ := hk
    exact fun h => hj (hι h)
  rw [← Finset.sum_subset hsub, Finset.sum_map]
  · rfl
  · intro k hk hk'
    have h0 := ha i k (by
      rintro ⟨j, rfl⟩
      simp only [Finset.mem_map, Finset.mem_erase, Finset.mem_univ, and_true,
        Function.Embedding.coeFn_mk] at hk hk'
      exact hk' ⟨j, fun h => hk (by rw [h]), rfl⟩)
    unfold orientedEffect
    split_ifs
    · rw [pairForcesThree_far]
      · rfl
      · intro p q
        have := h0 q p
        rw [show Spec.dist ((s.agents.rows k).circles p) ((s.agents.rows (ι i)).circles q) =
          Spec.dist ((s.agents.rows (ι i)).circles q) ((s.agents.rows k).circles p) from
          length_sub_comm _ _]
        linarith
    · rw [pairForcesThree_far _ _ h0]
      rfl

lemma node_bodies [Fintype κ] [Nonempty κ] (hι : Function.Injective ι) (hι' : Function.Injective ι')
    {env : SimEnv n} {env' : SimEnv m} (hw : SameBodySurroundings ι ι' env env') (x : Node)
    (hx : OwnNode x) {s t : SimState n} {s' t' : SimState m} (hs : SameMembers ι ι' s s')
    (hc : s.agents.dtype.kind = .threeCircle) (hc' : s'.agents.dtype.kind = .threeCircle)
    (hp : ∀ c, x = .agentAgent c → c = 3.0 + 2 * 0.3 ∧
      RegularBody env [x] s ∧ RegularBody env' [x] s' ∧ BodiesApart ι s ∧ BodiesApart ι' s' ∧
      SameRoles ι ι' env env' s s')
    (h : x.update env s = (.ok (), t)) (h' : x.update env' s' = (.ok (), t')) :
    SameMembers ι ι' t t' := by
  classical
  have hf : env'.field = env.field := by
    unfold SimEnv.field
    rw [hw.surroundings.fields, hw.surroundings.self]
  cases x with
  | reset =>
    cases h; cases h'
    refine ⟨fun i => ?_, hs.draws, hs.caches⟩
    simp [resetUpdate, isModel, hc, hc', hs.rows]
  | integrator a b =>
    cases h; cases h'
    cases (show a = b from hx)
    refine ⟨fun i => ?_, hs.draws, hs.caches⟩
    simp [integratorUpdate, velocityVerletIntegrator, isModel, hc, hc', translationalVerlet,
      rotationalVerlet, shoulders, timestep_const, hs.rows]
  | fluctuation =>
    cases h; cases h'
    refine ⟨fun i => ?_, by simp [hs.draws], hs.caches⟩
    simp [fluctuation, isModel, hc, hc', hs.rows, hs.draws, hw.surroundings.angles,
      hw.surroundings.magnitudes, hw.torques]
  | adjusting =>
    cases h; cases h'
    refine ⟨fun i => ?_, hs.draws, hs.caches⟩
    simp [adjusting, isModel, hc, hc', forceAdjustAgents, torqueAdjustAgents, hs.rows]
  | orientation =>
    cases h; cases h'
    refine ⟨fun i => ?_, hs.draws, hs.caches⟩
    simp [orientationUpdate, isModel, hc, hc', orientTowardsTargetDirection, hs.rows]
  | insideDomain path =>
    simp only [Node.update, insideDomainUpdate] at h h'
    cases hd : s.data.inactive with
    | none => rw [hd] at h; cases h
    | some k =>
      cases hd' : s'.data.inactive with
      | none => rw [hd'] at h'; cases h'
      | some k' =>
        rw [hd] at h
        rw [hd'] at h'
        cases h; cases h'
        refine ⟨fun i => ?_, hs.draws, hs.caches⟩
        simp [SimState.withRows, hs.rows, hw.surroundings.contains]
  | navigation a b c =>
    obtain ⟨i⟩ := ‹Nonempty κ›
    have hn : n ≠ 0 := by have := (ι i).isLt; omega
    have hm : m ≠ 0 := by have := (ι' i).isLt; omega
    simp only [Node.update] at h h'
    rw [hf] at h'
    exact navigation_members env env' hw.surroundings.fields hw.surroundings.self hw.surroundings.lib
      hw.surroundings.nan hn hm a b c _ s t s' t' hs h h'
  | agentObstacle =>
    simp only [Node.update] at h h'
    have ho : obstaclesOf env' = obstaclesOf env := by
      unfold obstaclesOf
      rw [hf]
    rw [ho] at h'
    cases hob : obstaclesOf env with
    | error e => rw [hob] at h; cases h
    | ok ws =>
      rw [hob] at h h'
      simp only [CrowdDynamics.agentObstacle, isModel, hc, hc'] at h h'
      cases h; cases h'
      refine ⟨fun i => ?_, hs.draws, hs.caches⟩
      simp only
      rw [agentThreeCircleObstacle_apply, agentThreeCircleObstacle_apply, hs.rows]
  | agentAgent c =>
    obtain ⟨rfl, r, r', ka, ka', kr⟩ := hp c rfl
    obtain ⟨c0, ⟨R, c1, c1'⟩, c2⟩ := r.cells _ List.mem_cons_self
    obtain ⟨d0, ⟨R', d1, d1'⟩, d2⟩ := r'.cells _ List.mem_cons_self
    obtain ⟨B, e1, e2, e3⟩ := agentAgent_effects env.cellPairs s.agents _ c0 c2 hc R c1 c1'
    obtain ⟨B', e1', e2', e3'⟩ := agentAgent_effects env'.cellPairs s'.agents _ d0 d2 hc' R' d1 d1'
    simp only [Node.update, e1] at h
    simp only [Node.update, e1'] at h'
    cases h; cases h'
    refine ⟨fun i => ?_, hs.draws, hs.caches⟩
    have hsum : ∑ k ∈ Finset.univ.erase (ι' i), orientedEffect s'.agents.rows
          (env'.cellPairs (fun l => (s'.agents.rows l).position) (3.0 + 2 * 0.3)) (ι' i) k =
        ∑ k ∈ Finset.univ.erase (ι i), orientedEffect s.agents.rows
          (env.cellPairs (fun l => (s.agents.rows l).position) (3.0 + 2 * 0.3)) (ι i) k := by
      rw [sum_bodies hι s ka, sum_bodies hι' s' ka']
      refine Finset.sum_congr rfl fun j _ => ?_
      unfold orientedEffect
      simp only [← kr j i, hs.rows]
    simp only
    rw [e3, e3', hsum]
    simp only [hs.rows]
  | abstract => exact absurd hx id
  | leaderFollower => exact absurd hx id
  | herding => exact absurd hx id
  | exitDetection => exact absurd hx id
  | save => exact absurd hx id
  | targetReached => exact absurd hx id

/-- Nodes that do not move keep bodies apart. -/
lemma bodies_apart_still {s t : SimState n} (h : ∀ k, SameTurn (s.agents.rows k) (t.agents.rows k))
    (ha : BodiesApart ι s) : BodiesApart ι t := by
  intro i k hk p q
  rw [← (h k).circles, ← (h (ι i)).circles, ← (h k).radii, ← (h (ι i)).radii]
  exact ha i k hk p q

/-- Nodes that do not move keep the roles in pairs. -/
lemma roles_still {env : SimEnv n} {env' : SimEnv m} {s t : SimState n} {s' t' : SimState m}
    (h : ∀ k, SameTurn (s.agents.rows k) (t.agents.rows k))
    (h' : ∀ k, SameTurn (s'.agents.rows k) (t'.agents.rows k)) (hr : SameRoles ι ι' env env' s s') :
    SameRoles ι ι' env env' t t' := by
  intro i k
  have e := hr i k
  rw [show (fun l => (s.agents.rows l).position) = fun l => (t.agents.rows l).position from
    funext fun l => (h l).position, show (fun l => (s'.agents.rows l).position) =
    fun l => (t'.agents.rows l).position from funext fun l => (h' l).position] at e
  exact e

/-- Updates before the agents are moved. -/
lemma before_bodies [Fintype κ] [Nonempty κ] (hι : Function.Injective ι) (hι' : Function.Injective ι')
    {env : SimEnv n} {env' : SimEnv m} (hw : SameBodySurroundings ι ι' env env') (nodes : List Node)
    (hcs : ∀ c, .agentAgent c ∈ nodes → c = 3.0 + 2 * 0.3) :
    ∀ (s t : SimState n) (s' t' : SimState m), (∀ x ∈ nodes, OwnNode x ∧ ¬ Moves x) →
    RegularBody env nodes s → RegularBody env' nodes s' → BodiesApart ι s → BodiesApart ι' s' →
    SameRoles ι ι' env env' s s' →
    SameMembers ι ι' s s' → updateNodes env nodes s = (.ok (), t) →
    updateNodes env' nodes s' = (.ok (), t') → SameMembers ι ι' t t' := by
  induction nodes with
  | nil =>
    intro s t s' t' _ _ _ _ _ _ hs h h'
    cases h; cases h'
    exact hs
  | cons x xs ih =>
    intro s t s' t' hx r r' ka ka' kr hs h h'
    obtain ⟨q, u, hu⟩ : ∃ q u, x.update env s = (q, u) := ⟨_, _, rfl⟩
    obtain ⟨q', u', hu'⟩ : ∃ q u, x.update env' s' = (q, u) := ⟨_, _, rfl⟩
    rw [updateNodes, hu] at h
    rw [updateNodes, hu'] at h'
    cases q with
    | error e => cases h
    | ok _ =>
      cases q' with
      | error e => cases h'
      | ok _ =>
        simp only at h h'
        obtain ⟨x1, x2⟩ := hx x List.mem_cons_self
        have k1 := update_keeps env x s u _ hu
        have k2 := update_keeps env' x s' u' _ hu'
        have m1 := fun k => (node_still_body env x s u _ hu x2 k).1
        have m2 := fun k => (node_still_body env' x s' u' _ hu' x2 k).1
        exact ih (fun c hc => hcs c (List.mem_cons_of_mem _ hc)) u t u' t'
          (fun y hy => hx y (List.mem_cons_of_mem _ hy)) (regularBody_step r k1.1 m1)
          (regularBody_step r' k2.1 m2) (bodies_apart_still m1 ka) (bodies_apart_still m2 ka')
          (roles_still m1 m2 kr)
          (node_bodies hι hι' hw x x1 hs r.kind r'.kind
            (fun c hc => ⟨hcs c (by rw [hc]; exact List.mem_cons_self), regularBody_head r,
              regularBody_head r', ka, ka', kr⟩) hu hu') h h'

/-- Updates after the forces between agents are known. -/
lemma after_bodies [Fintype κ] [Nonempty κ] (hι : Function.Injective ι) (hι' : Function.Injective ι')
    {env : SimEnv n} {env' : SimEnv m} (hw : SameBodySurroundings ι ι' env env') (nodes : List Node) :
    ∀ (s t : SimState n) (s' t' : SimState m), (∀ x ∈ nodes, OwnNode x ∧ ∀ c, x ≠ .agentAgent c) →
    s.agents.dtype.kind = .threeCircle → s'.agents.dtype.kind = .threeCircle →
    SameMembers ι ι' s s' → updateNodes env nodes s = (.ok (), t) →
    updateNodes env' nodes s' = (.ok (), t') → SameMembers ι ι' t t' := by
  induction nodes with
  | nil =>
    intro s t s' t' _ _ _ hs h h'
    cases h; cases h'
    exact hs
  | cons x xs ih =>
    intro s t s' t' hx r r' hs h h'
    obtain ⟨q, u, hu⟩ : ∃ q u, x.update env s = (q, u) := ⟨_, _, rfl⟩
    obtain ⟨q', u', hu'⟩ : ∃ q u, x.update env' s' = (q, u) := ⟨_, _, rfl⟩
    rw [updateNodes, hu] at h
    rw [updateNodes, hu'] at h'
    cases q with
    | error e => cases h
    | ok _ =>
      cases q' with
      | error e => cases h'
      | ok _ =>
        simp only at h h'
        obtain ⟨x1, x2⟩ := hx x List.mem_cons_self
        have k1 := update_keeps env x s u _ hu
        have k2 := update_keeps env' x s' u' _ hu'
        exact ih u t u' t' (fun y hy => hx y (List.mem_cons_of_mem _ hy)) (by rw [k1.1]; exact r)
          (by rw [k2.1]; exact r')
          (node_bodies hι hι' hw x x1 hs r r' (fun c hc => absurd hc (x2 c)) hu hu') h h'

/-- One update. -/
lemma update_bodies [Fintype κ] [Nonempty κ] (hι : Function.Injective ι) (hι' : Function.Injective ι')
    {env : SimEnv n} {env' : SimEnv m} (hw : SameBodySurroundings ι ι' env env') {e : LogicExpr}
    (he : OwnWay env.field e) (hd : env.field.domain ≠ none) {order : List Node}
    (ho : e.order = .ok order) {s t : SimState n} {s' t' : SimState m}
    (r : RegularBody env [.agentAgent (3.0 + 2 * 0.3)] s)
    (r' : RegularBody env' [.agentAgent (3.0 + 2 * 0.3)] s') (ka : BodiesApart ι s)
    (ka' : BodiesApart ι' s') (kr : SameRoles ι ι' env env' s s')
    (hs : SameMembers ι ι' s s') (h : e.update env s = (.ok (), t))
    (h' : e.update env' s' = (.ok (), t')) : SameMembers ι ι' t t' := by
  obtain ⟨before, rfl, hb, hc⟩ := own_order he hd ho
  rw [update_of_order ho] at h h'
  obtain ⟨q, u, hu⟩ : ∃ q u, updateNodes env (before ++ [.integrator 0.01 0.01, .reset]) s = (q, u) :=
    ⟨_, _, rfl⟩
  obtain ⟨q', u', hu'⟩ : ∃ q u, updateNodes env' (before ++ [.integrator 0.01 0.01, .reset]) s' = (q, u) :=
    ⟨_, _, rfl⟩
  rw [hu] at h
  rw [hu'] at h'
  cases q with
  | error e => cases h
  | ok _ =>
    cases q' with
    | error e => cases h'
    | ok _ =>
      suffices H : SameMembers ι ι' u u' by
        cases h; cases h'
        exact ⟨H.rows, H.draws, H.caches⟩
      rw [updateNodes_append] at hu hu'
      obtain ⟨p, v, hv⟩ : ∃ p v, updateNodes env before s = (p, v) := ⟨_, _, rfl⟩
      obtain ⟨p', v', hv'⟩ : ∃ p v, updateNodes env' before s' = (p, v) := ⟨_, _, rfl⟩
      rw [hv] at hu
      rw [hv'] at hu'
      cases p with
      | error e => cases hu
      | ok _ =>
        cases p' with
        | error e => cases hu'
        | ok _ =>
          have R : RegularBody env before s := ⟨r.kind, r.radii, r.attached, r.mass, r.inertia, r.tau,
            r.tauRot, r.std, r.stdTorque, r.draws, r.drawsTorque,
            r.obstacles, fun c h => by rw [hc c h]; exact r.cells _ List.mem_cons_self⟩
          have R' : RegularBody env' before s' := ⟨r'.kind, r'.radii, r'.attached, r'.mass, r'.inertia,
            r'.tau, r'.tauRot, r'.std, r'.stdTorque, r'.draws, r'.drawsTorque,
            r'.obstacles, fun c h => by rw [hc c h]; exact r'.cells _ List.mem_cons_self⟩
          exact after_bodies hι hι' hw _ v u v' u' (by simp [OwnNode])
            (by rw [(nodes_keep env _ _ _ _ hv).1]; exact r.kind)
            (by rw [(nodes_keep env' _ _ _ _ hv').1]; exact r'.kind)
            (before_bodies hι hι' hw before hc s v s' v' hb R R' ka ka' kr hs hv hv') hu hu'

/-- In a run the shoulders stay attached. -/
lemma run_attached {env : SimEnv n} {e : LogicExpr} {order : List Node} {s : SimState n} {N : ℕ}
    {S : ℕ → SimState n} (h : ShippedBodyRun env e order s N S) {j : ℕ} (hj : j ≤ N) (i : Fin n) :
    ShouldersAttached ((S j).agents.rows i) := by
  cases j with
  | zero => rw [h.completed.first]; exact h.regular.attached i
  | succ j =>
    obtain ⟨-, -, _, _, _, _, -, -, -, -, -, _, _, -, -, -, -, -, -, ha⟩ := body_newton h j (by omega) i
    exact ha

/-- Bodies within discs around their positions are apart if the discs are. -/
lemma circles_far {a b : Agent} {ra rb x : ℝ} (ha : BodyWithin .threeCircle a ra)
    (hb : BodyWithin .threeCircle b rb) (h : x + (ra + rb) ≤ Spec.dist a.position b.position)
    (p q : Fin 3) : x + (a.radii p + b.radii q) ≤ Spec.dist (a.circles p) (b.circles q) := by
  have h1 : Spec.dist a.position (a.circles p) + a.radii p ≤ ra := by
    apply ha (a.circles p, a.radii p)
    fin_cases p <;> simp [discs, Agent.circles, Agent.radii]
  have h2 : Spec.dist b.position (b.circles q) + b.radii q ≤ rb := by
    apply hb (b.circles q, b.radii q)
    fin_cases q <;> simp [discs, Agent.circles, Agent.radii]
  have h3 := dist_le_drifts a.position b.position (a.circles p) (b.circles q)
  have h4 : Spec.dist (a.circles p) a.position = Spec.dist a.position (a.circles p) :=
    length_sub_comm _ _
  have h5 : Spec.dist (b.circles q) b.position = Spec.dist b.position (b.circles q) :=
    length_sub_comm _ _
  linarith

/-- Distant three-circle agents need time to come near. -/
lemma bodies_horizon {env : SimEnv n} {e : LogicExpr} {order : List Node} {s : SimState n} {N : ℕ}
    {S : ℕ → SimState n} (h : ShippedBodyRun env e order s N S) (c : ℝ)
    (hc : ∀ j < N, ∀ i, Spec.dist ((S (j + 1)).agents.rows i).position ((S j).agents.rows i).position ≤ c)
    (r : Fin n → ℝ) (hr : ∀ k, BodyWithin .threeCircle (s.agents.rows k) (r k))
    (ha : ∀ i, ∀ k ∉ Set.range ι, 3 + 2 * c * N + (r (ι i) + r k) ≤
      Spec.dist (s.agents.rows (ι i)).position (s.agents.rows k).position) :
    ∀ j < N, BodiesApart ι (S j) := by
  intro j hj i k hk
  have hb := (completed_body h.order h.completed j hj.le).2
  have hw : ∀ k, BodyWithin .threeCircle ((S j).agents.rows k) (r k) := fun k =>
    within_of_attached (h.regular.attached k) (run_attached h hj.le k) (hb k).rT (hb k).rS (hb k).rTs
      (hr k)
  refine circles_far (hw (ι i)) (hw k) ?_
  have h1 := drift_le (ι i) (fun j hj => hc j hj _) j hj.le
  have h2 := drift_le k (fun j hj => hc j hj _) j hj.le
  rw [h.completed.first] at h1 h2
  have h3 := dist_le_drifts (s.agents.rows (ι i)).position (s.agents.rows k).position
    ((S j).agents.rows (ι i)).position ((S j).agents.rows k).position
  have h4 := ha i k hk
  have h5 : 0 ≤ c := (Real.sqrt_nonneg _).trans (hc j hj k)
  have h6 : c * (j : ℝ) ≤ c * N := mul_le_mul_of_nonneg_left (by exact_mod_cast hj.le) h5
  linarith

end CrowdDynamics
