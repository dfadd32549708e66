import Verif.Spec.Isolation
import Verif.Proofs.LongRun

/-!
# Lemmas about groups of agents in two crowds
-/

namespace CrowdDynamics

open Spec

variable {κ : Type} {n m : ℕ} {ι : κ → Fin n} {ι' : κ → Fin m}

/-- Distant agents exert no force. -/
lemma pairForces_far (a b : Agent) (hr : 0 ≤ a.radius + b.radius)
    (h : 3 + (a.radius + b.radius) ≤ Spec.dist a.position b.position) : (pairForces a b).1 = 0 :=
  (pairForces_spec a b hr).1 h

/-- Only the group counts for the forces on its members. -/
lemma sum_members [Fintype κ] [DecidableEq κ] (hι : Function.Injective ι) (s : SimState n)
    (hr : ∀ k, 0 ≤ (s.agents.rows k).radius) (ha : KeptApart ι s) (i : κ) :
    ∑ k ∈ Finset.univ.erase (ι i), (pairForces (s.agents.rows (ι i)) (s.agents.rows k)).1 =
      ∑ j ∈ Finset.univ.erase i, (pairForces (s.agents.rows (ι i)) (s.agents.rows (ι j))).1 := by
  classical
  have hsub : (Finset.univ.erase i).map ⟨ι, hι⟩ ⊆ Finset.univ.erase (ι i) := by
    intro k hk
    simp only [Finset.mem_map, Finset.mem_erase, Finset.mem_univ, and_true,
      Function.Embedding.coeFn_mk] at hk ⊢
    obtain ⟨j, hj, rfl⟩ := hk
    exact fun h => hj (hι h)
  rw [← Finset.sum_subset hsub, Finset.sum_map]
  · rfl
  · intro k hk hk'
    refine pairForces_far _ _ (add_nonneg (hr _) (hr _)) (ha i k ?_)
    rintro ⟨j, rfl⟩
    simp only [Finset.mem_map, Finset.mem_erase, Finset.mem_univ, and_true,
      Function.Embedding.coeFn_mk] at hk hk'
    exact hk' ⟨j, fun h => hk (by rw [h]), rfl⟩

/-- The nodes of these simulations. -/
def OwnNode : Node → Prop
  | .reset | .fluctuation | .adjusting | .agentAgent _ | .agentObstacle | .navigation _ _ _
  | .orientation | .insideDomain _ => True
  | .integrator a b => a = b
  | _ => False

lemma navigation_members (env : SimEnv n) (env' : SimEnv m)
    (h1 : env'.fields = env.fields) (h2 : env'.self = env.self) (h3 : env'.lib = env.lib)
    (h4 : env'.nan = env.nan) (hn : n ≠ 0) (hm : m ≠ 0) (a b c : ℝ) (l : List ℕ) :
    ∀ (s t : SimState n) (s' t' : SimState m), SameMembers ι ι' s s' →
      navigationLoop env a b c l s = (.ok (), t) → navigationLoop env' a b c l s' = (.ok (), t') →
      SameMembers ι ι' t t' := by
  induction l with
  | nil =>
    intro s t s' t' hs h h'
    cases h
    cases h'
    exact hs
  | cons x l ih =>
    intro s t s' t' hs h h'
    rw [navigationLoop, if_neg hn] at h
    rw [navigationLoop, if_neg hm, h1, h2, h3, hs.caches, h4] at h'
    obtain ⟨q, k, hq⟩ : ∃ q k, Field.navigationToTarget env.lib env.fields env.self (.int x) a b c
      s.caches = (q, k) := ⟨_, _, rfl⟩
    rw [hq] at h h'
    cases q with
    | error e => cases h
    | ok r =>
      refine ih _ t _ t' ?_ h h'
      refine ⟨fun i => ?_, hs.draws, rfl⟩
      simp only [SimState.withRows, hs.rows]

lemma node_members [Fintype κ] [Nonempty κ] (hι : Function.Injective ι) (hι' : Function.Injective ι')
    {env : SimEnv n} {env' : SimEnv m} (hw : SameSurroundings ι ι' env env') (x : Node)
    (hx : OwnNode x) {s t : SimState n} {s' t' : SimState m} (hs : SameMembers ι ι' s s')
    (hc : s.agents.dtype.kind = .circular) (hc' : s'.agents.dtype.kind = .circular)
    (hp : ∀ c, x = .agentAgent c →
      Regular env [x] s ∧ Regular env' [x] s' ∧ KeptApart ι s ∧ KeptApart ι' s')
    (h : x.update env s = (.ok (), t)) (h' : x.update env' s' = (.ok (), t')) :
    SameMembers ι ι' t t' := by
  classical
  have hf : env'.field = env.field := by
    unfold SimEnv.field
    rw [hw.fields, hw.self]
  cases x with
  | reset =>
    cases h; cases h'
    refine ⟨fun i => ?_, hs.draws, hs.caches⟩
    simp [resetUpdate, isModel, hc, hc', hs.rows]
  | integrator a b =>
    cases h; cases h'
    cases (show a = b from hx)
    refine ⟨fun i => ?_, hs.draws, hs.caches⟩
    simp [integratorUpdate, velocityVerletIntegrator, isModel, hc, hc', translationalVerlet,
      timestep_const, hs.rows]
  | fluctuation =>
    cases h; cases h'
    refine ⟨fun i => ?_, by simp [hs.draws], hs.caches⟩
    simp [fluctuation, isModel, hc, hc', hs.rows, hs.draws, hw.angles, hw.magnitudes]
  | adjusting =>
    cases h; cases h'
    refine ⟨fun i => ?_, hs.draws, hs.caches⟩
    simp [adjusting, isModel, hc, hc', forceAdjustAgents, hs.rows]
  | orientation =>
    cases h; cases h'
    refine ⟨fun i => ?_, hs.draws, hs.caches⟩
    simp [orientationUpdate, isModel, hc, hc', hs.rows]
  | insideDomain path =>
    simp only [Node.update, insideDomainUpdate] at h h'
    cases hd : s.data.inactive with
    | none => rw [hd] at h; cases h
    | some k =>
      cases hd' : s'.data.inactive with
      | none => rw [hd'] at h'; cases h'
      | some k' =>
        rw [hd] at h
        rw [hd'] at h'
        cases h; cases h'
        refine ⟨fun i => ?_, hs.draws, hs.caches⟩
        simp [SimState.withRows, hs.rows, hw.contains]
  | navigation a b c =>
    obtain ⟨i⟩ := ‹Nonempty κ›
    have hn : n ≠ 0 := by have := (ι i).isLt; omega
    have hm : m ≠ 0 := by have := (ι' i).isLt; omega
    simp only [Node.update] at h h'
    rw [hf] at h'
    exact navigation_members env env' hw.fields hw.self hw.lib hw.nan hn hm a b c _ s t s' t' hs h h'
  | agentObstacle =>
    simp only [Node.update] at h h'
    have ho : obstaclesOf env' = obstaclesOf env := by
      unfold obstaclesOf
      rw [hf]
    rw [ho] at h'
    cases hob : obstaclesOf env with
    | error e => rw [hob] at h; cases h
    | ok ws =>
      rw [hob] at h h'
      simp only [CrowdDynamics.agentObstacle, isModel, hc, hc'] at h h'
      cases h; cases h'
      refine ⟨fun i => ?_, hs.draws, hs.caches⟩
      simp only
      rw [agentCircularObstacle_apply, agentCircularObstacle_apply, hs.rows]
  | agentAgent c =>
    obtain ⟨r, r', ka, ka'⟩ := hp c rfl
    obtain ⟨c0, c1, c2⟩ := r.cells c List.mem_cons_self
    obtain ⟨d0, d1, d2⟩ := r'.cells c List.mem_cons_self
    obtain ⟨B, e1, e2, e3⟩ := agentAgent_forces env.cellPairs s.agents c c0 c2 hc c1
    obtain ⟨B', e1', e2', e3'⟩ := agentAgent_forces env'.cellPairs s'.agents c d0 d2 hc' d1
    simp only [Node.update, e1] at h
    simp only [Node.update, e1'] at h'
    cases h; cases h'
    refine ⟨fun i => ?_, hs.draws, hs.caches⟩
    simp only
    rw [e3, e3', sum_members hι s r.radius ka, sum_members hι' s' r'.radius ka']
    simp only [hs.rows]
  | abstract => exact absurd hx id
  | leaderFollower => exact absurd hx id
  | herding => exact absurd hx id
  | exitDetection => exact absurd hx id
  | save => exact absurd hx id
  | targetReached => exact absurd hx id

/-- Nodes that do not move keep agents apart. -/
lemma apart_still {s t : SimState n} (h : ∀ k, SameMotion (s.agents.rows k) (t.agents.rows k))
    (ha : KeptApart ι s) : KeptApart ι t := by
  intro i k hk
  rw [← (h k).position, ← (h (ι i)).position, ← (h k).body.radius, ← (h (ι i)).body.radius]
  exact ha i k hk

/-- Updates before the agents are moved. -/
lemma before_members [Fintype κ] [Nonempty κ] (hι : Function.Injective ι) (hι' : Function.Injective ι')
    {env : SimEnv n} {env' : SimEnv m} (hw : SameSurroundings ι ι' env env') (nodes : List Node) :
    ∀ (s t : SimState n) (s' t' : SimState m), (∀ x ∈ nodes, OwnNode x ∧ ¬ Moves x) →
    Regular env nodes s → Regular env' nodes s' → KeptApart ι s → KeptApart ι' s' →
    SameMembers ι ι' s s' → updateNodes env nodes s = (.ok (), t) →
    updateNodes env' nodes s' = (.ok (), t') → SameMembers ι ι' t t' := by
  induction nodes with
  | nil =>
    intro s t s' t' _ _ _ _ _ hs h h'
    cases h; cases h'
    exact hs
  | cons x xs ih =>
    intro s t s' t' hx r r' ka ka' hs h h'
    obtain ⟨q, u, hu⟩ : ∃ q u, x.update env s = (q, u) := ⟨_, _, rfl⟩
    obtain ⟨q', u', hu'⟩ : ∃ q u, x.update env' s' = (q, u) := ⟨_, _, rfl⟩
    rw [updateNodes, hu] at h
    rw [updateNodes, hu'] at h'
    cases q with
    | error e => cases h
    | ok _ =>
      cases q' with
      | error e => cases h'
      | ok _ =>
        simp only at h h'
        obtain ⟨x1, x2⟩ := hx x List.mem_cons_self
        have k1 := update_keeps env x s u _ hu
        have k2 := update_keeps env' x s' u' _ hu'
        have m1 := fun k => (node_still env x s u _ hu x2 k).1
        have m2 := fun k => (node_still env' x s' u' _ hu' x2 k).1
        exact ih u t u' t' (fun y hy => hx y (List.mem_cons_of_mem _ hy)) (Regular_step r k1.1 m1)
          (Regular_step r' k2.1 m2) (apart_still m1 ka) (apart_still m2 ka')
          (node_members hι hι' hw x x1 hs r.circular r'.circular
            (fun c hc => ⟨Regular_head r, Regular_head r', ka, ka'⟩) hu hu') h h'

/-- Updates after the forces between agents are known. -/
lemma after_members [Fintype κ] [Nonempty κ] (hι : Function.Injective ι) (hι' : Function.Injective ι')
    {env : SimEnv n} {env' : SimEnv m} (hw : SameSurroundings ι ι' env env') (nodes : List Node) :
    ∀ (s t : SimState n) (s' t' : SimState m), (∀ x ∈ nodes, OwnNode x ∧ ∀ c, x ≠ .agentAgent c) →
    s.agents.dtype.kind = .circular → s'.agents.dtype.kind = .circular →
    SameMembers ι ι' s s' → updateNodes env nodes s = (.ok (), t) →
    updateNodes env' nodes s' = (.ok (), t') → SameMembers ι ι' t t' := by
  induction nodes with
  | nil =>
    intro s t s' t' _ _ _ hs h h'
    cases h; cases h'
    exact hs
  | cons x xs ih =>
    intro s t s' t' hx r r' hs h h'
    obtain ⟨q, u, hu⟩ : ∃ q u, x.update env s = (q, u) := ⟨_, _, rfl⟩
    obtain ⟨q', u', hu'⟩ : ∃ q u, x.update env' s' = (q, u) := ⟨_, _, rfl⟩
    rw [updateNodes, hu] at h
    rw [updateNodes, hu'] at h'
    cases q with
    | error e => cases h
    | ok _ =>
      cases q' with
      | error e => cases h'
      | ok _ =>
        simp only at h h'
        obtain ⟨x1, x2⟩ := hx x List.mem_cons_self
        have k1 := update_keeps env x s u _ hu
        have k2 := update_keeps env' x s' u' _ hu'
        exact ih u t u' t' (fun y hy => hx y (List.mem_cons_of_mem _ hy)) (by rw [k1.1]; exact r)
          (by rw [k2.1]; exact r')
          (node_members hι hι' hw x x1 hs r r' (fun c hc => absurd hc (x2 c)) hu hu') h h'

/-- The order of updates in these simulations. -/
lemma own_order {f : Field} {e : LogicExpr} (he : OwnWay f e) (hd : f.domain ≠ none)
    {order : List Node} (ho : e.order = .ok order) : ∃ before : List Node,
      order = before ++ [.integrator 0.01 0.01, .reset] ∧ (∀ x ∈ before, OwnNode x ∧ ¬ Moves x) ∧
      ∀ c, .agentAgent c ∈ before → c = 3.0 + 2 * 0.3 := by
  obtain ⟨⟨ring, holes⟩, hd⟩ := Option.ne_none_iff_exists'.1 hd
  rcases he with rfl | rfl
  · rw [order_walk] at ho
    cases ho
    exact ⟨[.fluctuation, .orientation, .adjusting, .agentAgent (3.0 + 2 * 0.3)], rfl,
      by simp [OwnNode, Moves], by simp⟩
  · rw [order_navigation hd] at ho
    cases ho
    exact ⟨[.insideDomain ring, .fluctuation, .navigation 0.1 0.5 0.3,
      .orientation, .adjusting, .agentAgent (3.0 + 2 * 0.3), .agentObstacle], rfl,
      by simp [OwnNode, Moves], by simp⟩

/-- One update. -/
lemma update_members [Fintype κ] [Nonempty κ] (hι : Function.Injective ι) (hι' : Function.Injective ι')
    {env : SimEnv n} {env' : SimEnv m} (hw : SameSurroundings ι ι' env env') {e : LogicExpr}
    (he : OwnWay env.field e) (hd : env.field.domain ≠ none) {order : List Node}
    (ho : e.order = .ok order) {s t : SimState n} {s' t' : SimState m}
    (r : Regular env [.agentAgent (3.0 + 2 * 0.3)] s)
    (r' : Regular env' [.agentAgent (3.0 + 2 * 0.3)] s') (ka : KeptApart ι s) (ka' : KeptApart ι' s')
    (hs : SameMembers ι ι' s s') (h : e.update env s = (.ok (), t))
    (h' : e.update env' s' = (.ok (), t')) : SameMembers ι ι' t t' := by
  obtain ⟨before, rfl, hb, hc⟩ := own_order he hd ho
  rw [update_of_order ho] at h h'
  obtain ⟨q, u, hu⟩ : ∃ q u, updateNodes env (before ++ [.integrator 0.01 0.01, .reset]) s = (q, u) :=
    ⟨_, _, rfl⟩
  obtain ⟨q', u', hu'⟩ : ∃ q u, updateNodes env' (before ++ [.integrator 0.01 0.01, .reset]) s' = (q, u) :=
    ⟨_, _, rfl⟩
  rw [hu] at h
  rw [hu'] at h'
  cases q with
  | error e => cases h
  | ok _ =>
    cases q' with
    | error e => cases h'
    | ok _ =>
      suffices H : SameMembers ι ι' u u' by
        cases h; cases h'
        exact ⟨H.rows, H.draws, H.caches⟩
      rw [updateNodes_append] at hu hu'
      obtain ⟨p, v, hv⟩ : ∃ p v, updateNodes env before s = (p, v) := ⟨_, _, rfl⟩
      obtain ⟨p', v', hv'⟩ : ∃ p v, updateNodes env' before s' = (p, v) := ⟨_, _, rfl⟩
      rw [hv] at hu
      rw [hv'] at hu'
      cases p with
      | error e => cases hu
      | ok _ =>
        cases p' with
        | error e => cases hu'
        | ok _ =>
          have R : Regular env before s := ⟨r.circular, r.radius, r.mass, r.tau, r.std, r.draws,
            r.obstacles, fun c h => by rw [hc c h]; exact r.cells _ List.mem_cons_self⟩
          have R' : Regular env' before s' := ⟨r'.circular, r'.radius, r'.mass, r'.tau, r'.std, r'.draws,
            r'.obstacles, fun c h => by rw [hc c h]; exact r'.cells _ List.mem_cons_self⟩
          exact after_members hι hι' hw _ v u v' u' (by simp [OwnNode])
            (by rw [(nodes_keep env _ _ _ _ hv).1]; exact r.circular)
            (by rw [(nodes_keep env' _ _ _ _ hv').1]; exact r'.circular)
            (before_members hι hι' hw before s v s' v' hb R R' ka ka' hs hv hv') hu hu'

/-- Nobody gets further than the sum of the steps. -/
lemma drift_le {S : ℕ → SimState n} {N : ℕ} {c : ℝ} (i : Fin n)
    (hc : ∀ j < N, Spec.dist ((S (j + 1)).agents.rows i).position ((S j).agents.rows i).position ≤ c) :
    ∀ j ≤ N, Spec.dist ((S j).agents.rows i).position ((S 0).agents.rows i).position ≤ c * j := by
  intro j
  induction j with
  | zero => intro _; simp [Spec.dist, len]
  | succ j ih =>
    intro hj
    have h1 := ih (by omega)
    have h2 := hc j (by omega)
    unfold Spec.dist at *
    have h3 := len_add_le' (((S (j + 1)).agents.rows i).position - ((S j).agents.rows i).position)
      (((S j).agents.rows i).position - ((S 0).agents.rows i).position)
    rw [sub_add_sub_cancel] at h3
    push_cast
    linarith

lemma dist_le_drifts (p q p' q' : Vec) :
    Spec.dist p q ≤ Spec.dist p' p + Spec.dist p' q' + Spec.dist q' q := by
  unfold Spec.dist
  have h1 := len_add_le' (p - p') ((p' - q') + (q' - q))
  have h2 := len_add_le' (p' - q') (q' - q)
  have h3 : len (p - p') = len (p' - p) := by
    unfold len
    congr 1
    simp only [Prod.fst_sub, Prod.snd_sub]
    ring
  rw [show p - p' + (p' - q' + (q' - q)) = p - q by abel] at h1
  linarith

/-- Distant agents need time to come near. -/
lemma apart_horizon {env : SimEnv n} {e : LogicExpr} {order : List Node} {s : SimState n} {N : ℕ}
    {S : ℕ → SimState n} (h : ShippedRun env e order s N S) (c : ℝ)
    (hc : ∀ j < N, ∀ i, Spec.dist ((S (j + 1)).agents.rows i).position ((S j).agents.rows i).position ≤ c)
    (ha : ∀ i, ∀ k ∉ Set.range ι, 3 + 2 * c * N + ((s.agents.rows (ι i)).radius + (s.agents.rows k).radius) ≤
      Spec.dist (s.agents.rows (ι i)).position (s.agents.rows k).position) :
    ∀ j < N, KeptApart ι (S j) := by
  intro j hj i k hk
  have hb := (completed_body h.order h.completed j hj.le).2
  rw [← (hb (ι i)).radius, ← (hb k).radius]
  have h1 := drift_le (ι i) (fun j hj => hc j hj _) j hj.le
  have h2 := drift_le k (fun j hj => hc j hj _) j hj.le
  rw [h.completed.first] at h1 h2
  have h3 := dist_le_drifts (s.agents.rows (ι i)).position (s.agents.rows k).position
    ((S j).agents.rows (ι i)).position ((S j).agents.rows k).position
  have h4 := ha i k hk
  have h5 : 0 ≤ c := (Real.sqrt_nonneg _).trans (hc j hj k)
  have h6 : c * (j : ℝ) ≤ c * N := mul_le_mul_of_nonneg_left (by exact_mod_cast hj.le) h5
  linarith

end CrowdDynamics
