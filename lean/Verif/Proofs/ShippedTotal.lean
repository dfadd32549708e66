import Verif.Spec.ShippedTotal
import Verif.Proofs.Dynamics
import Verif.Proofs.NavigationNode
import Verif.Proofs.CollectiveMotion

/-!
# Lemmas: updates of the shipped simulations raise nothing
-/

namespace CrowdDynamics

open Spec

variable {n : ℕ}

lemma setNeighbor_total (j : Fin n) (l : ℝ) (row : NeighborRow n) (h : row.slots ≠ []) :
    ∃ r, setNeighbor j l row = some r ∧ r.slots ≠ [] := by
  obtain ⟨i, hi, -⟩ := npArgmax_spec (row.slots.map Prod.snd) (by simpa using h)
  have h2 : row.slots.set i (some j, l) ≠ [] := by simpa using h
  obtain ⟨m, hm, -⟩ := npMax_list_spec ((row.slots.set i (some j, l)).map Prod.snd)
    (by simpa using h2)
  refine ⟨⟨row.slots.set i (some j, l), m⟩, ?_, h2⟩
  simp only [setNeighbor, hi, hm, Option.bind_eq_bind, Option.bind_some]

lemma offerNeighbor_total (i j : Fin n) (l : ℝ) (rows : Fin n → NeighborRow n)
    (h : ∀ i, (rows i).slots ≠ []) :
    ∃ r, offerNeighbor i j l rows = some r ∧ ∀ i, (r i).slots ≠ [] := by
  unfold offerNeighbor
  split_ifs
  · obtain ⟨r, hr, hs⟩ := setNeighbor_total j l (rows i) (h i)
    refine ⟨Function.update rows i r, by simp [hr], fun k => ?_⟩
    by_cases hk : k = i
    · subst hk
      simpa using hs
    · rw [Function.update_of_ne hk]
      exact h k
  · exact ⟨rows, rfl, h⟩

lemma neighborStep_total (pos : Fin n → Vec) (ws : List Wall) (rows : Fin n → NeighborRow n)
    (p : Fin n × Fin n) (h : ∀ i, (rows i).slots ≠ []) :
    ∃ r, neighborStep pos ws rows p = some r ∧ ∀ i, (r i).slots ≠ [] := by
  unfold neighborStep
  split_ifs
  · exact ⟨rows, rfl, h⟩
  · obtain ⟨r, hr, hs⟩ := offerNeighbor_total p.1 p.2 (length (pos p.1 - pos p.2)) rows h
    obtain ⟨r', hr', hs'⟩ := offerNeighbor_total p.2 p.1 (length (pos p.1 - pos p.2)) r hs
    exact ⟨r', by simp [hr, hr'], hs'⟩

/-- Only a request for no neighbours at all raises. -/
lemma findNearest_total (pos : Fin n → Vec) (sight : ℝ) (k : ℕ) (hk : k ≠ 0)
    (pairs : List (Fin n × Fin n)) (ws : List Wall) :
    ∃ T, findNearestNeighbors pos sight k pairs ws = some T := by
  have key : ∀ (pairs : List (Fin n × Fin n)) (rows : Fin n → NeighborRow n),
      (∀ i, (rows i).slots ≠ []) → ∃ r, pairs.foldlM (neighborStep pos ws) rows = some r := by
    intro pairs
    induction pairs with
    | nil => exact fun rows _ => ⟨rows, rfl⟩
    | cons p ps ih =>
      intro rows h
      obtain ⟨r, hr, hs⟩ := neighborStep_total pos ws rows p h
      obtain ⟨r', hr'⟩ := ih r hs
      exact ⟨r', by simp [List.foldlM_cons, hr, hr']⟩
  obtain ⟨r, hr⟩ := key pairs (fun _ => ⟨List.replicate k (none, sight), sight⟩)
    (fun _ => by simpa using hk)
  exact ⟨fun i => (r i).slots.map Prod.fst, by simp [findNearestNeighbors, hr]⟩

lemma herdingUpdate_total (oob : ℤ → ℤ) (argsort : List ℝ → List ℕ)
    (cellPairs : (Fin n → Vec) → ℝ → List (Fin n × Fin n)) (ws : List Wall) (sight : ℝ) (k : ℕ)
    (hk : k ≠ 0) (a : Crowd n) :
    ∃ b, leaderFollowerWithHerdingUpdate oob argsort cellPairs ws sight k a = some b := by
  obtain ⟨T, hT⟩ := findNearest_total (fun i => (a i).position) sight k hk
    (cellPairs (fun i => (a i).position) sight) ws
  unfold leaderFollowerWithHerdingUpdate leaderFollowerWithHerdingInteraction
  simp [hT]

lemma targetArrays_total (env : SimEnv n) : ∀ l : List Geom,
    (∀ g ∈ l, ∃ a, env.asarray g = .ok a) →
    ∃ as, targetArrays env l = .ok as ∧ as.length = l.length
  | [], _ => ⟨[], rfl, rfl⟩
  | g :: gs, h => by
    obtain ⟨a, ha⟩ := h g List.mem_cons_self
    obtain ⟨as, e, hl⟩ := targetArrays_total env gs fun g hg => h g (List.mem_cons_of_mem _ hg)
    exact ⟨a :: as, by simp only [targetArrays, ha, e]; rfl, by simp [hl]⟩

/-- What the shipped nodes keep. -/
def Runs (env : SimEnv n) (s : SimState n) : Prop :=
  s.data.inactive ≠ none ∧ SoundCaches env.lib env.fields {env.self} s.caches

/-- A node that runs in every state that is fit to run, and leaves it so. -/
def Passes (env : SimEnv n) (x : Node) : Prop :=
  ∀ s, Runs env s → ∃ t, x.update env s = (.ok (), t) ∧ Runs env t ∧
    t.data.iterations = s.data.iterations

lemma passes_nodes (env : SimEnv n) : ∀ nodes : List Node, (∀ x ∈ nodes, Passes env x) →
    ∀ s, Runs env s → ∃ t, updateNodes env nodes s = (.ok (), t) ∧ Runs env t ∧
      t.data.iterations = s.data.iterations
  | [], _, s, hs => ⟨s, rfl, hs, rfl⟩
  | x :: xs, h, s, hs => by
    obtain ⟨t, e, ht, hi⟩ := h x List.mem_cons_self s hs
    obtain ⟨u, e', hu, hi'⟩ := passes_nodes env xs (fun y hy => h y (List.mem_cons_of_mem _ hy)) t ht
    exact ⟨u, by rw [updateNodes, e]; exact e', hu, hi'.trans hi⟩

lemma passes_reset (env : SimEnv n) : Passes env .reset := fun _ h => ⟨_, rfl, h, rfl⟩

lemma passes_integrator (env : SimEnv n) (a b : ℝ) : Passes env (.integrator a b) :=
  fun _ h => ⟨_, rfl, h, rfl⟩

lemma passes_fluctuation (env : SimEnv n) : Passes env .fluctuation := fun _ h => ⟨_, rfl, h, rfl⟩

lemma passes_adjusting (env : SimEnv n) : Passes env .adjusting := fun _ h => ⟨_, rfl, h, rfl⟩

lemma passes_orientation (env : SimEnv n) : Passes env .orientation := fun _ h => ⟨_, rfl, h, rfl⟩

lemma passes_agentAgent (env : SimEnv n) (c : ℝ) : Passes env (.agentAgent c) := by
  intro s h
  obtain ⟨a, ha⟩ : ∃ a, agentAgentBlockList env.cellPairs s.agents c = some a := by
    simp only [agentAgentBlockList, isModel]
    rcases kind_cases s.agents.dtype with h | h <;> simp [h]
  exact ⟨{ s with agents := a }, by simp only [Node.update, ha], h, rfl⟩

lemma passes_agentObstacle (env : SimEnv n)
    (ho : ∀ g, env.field.obstacles = some g → Supported g) : Passes env .agentObstacle := by
  intro s h
  obtain ⟨ws, hw⟩ : ∃ ws, obstaclesOf env = .ok ws := ⟨_, obstaclesOf_walls env ho⟩
  obtain ⟨a, ha⟩ : ∃ a, CrowdDynamics.agentObstacle s.agents ws = some a := by
    simp only [CrowdDynamics.agentObstacle, isModel]
    rcases kind_cases s.agents.dtype with h | h <;> simp [h]
  exact ⟨{ s with agents := a }, by simp only [Node.update, hw, ha], h, rfl⟩

lemma passes_leaderFollower (env : SimEnv n)
    (ho : ∀ g, env.field.obstacles = some g → Supported g) (r : ℝ) :
    Passes env (.leaderFollower r) := by
  intro s h
  obtain ⟨ws, hw⟩ : ∃ ws, obstaclesOf env = .ok ws := ⟨_, obstaclesOf_walls env ho⟩
  exact ⟨s.withRows (leaderFollowerUpdate env.oob env.argsort ws r s.agents.rows),
    by simp only [Node.update, hw], h, rfl⟩

lemma passes_herding (env : SimEnv n)
    (ho : ∀ g, env.field.obstacles = some g → Supported g) (r : ℝ) (k : ℕ) (hk : k ≠ 0) :
    Passes env (.herding r k) := by
  intro s h
  obtain ⟨ws, hw⟩ : ∃ ws, obstaclesOf env = .ok ws := ⟨_, obstaclesOf_walls env ho⟩
  obtain ⟨b, hb⟩ := herdingUpdate_total env.oob env.argsort env.cellPairs ws r k hk s.agents.rows
  exact ⟨s.withRows b, by simp only [Node.update, hw, hb], h, rfl⟩

lemma passes_exitDetection (env : SimEnv n)
    (ho : ∀ g, env.field.obstacles = some g → Supported g) (ht : env.field.targets ≠ [])
    (ha : ∀ g ∈ env.field.targets, ∃ a, env.asarray g = .ok a) (r : ℝ) :
    Passes env (.exitDetection r) := by
  intro s h
  obtain ⟨ws, hw⟩ : ∃ ws, obstaclesOf env = .ok ws := ⟨_, obstaclesOf_walls env ho⟩
  obtain ⟨as, e, hl⟩ := targetArrays_total env env.field.targets ha
  have hne : as ≠ [] := by
    rintro rfl
    exact ht (List.length_eq_zero_iff.1 hl.symm)
  obtain ⟨b, hb⟩ : ∃ b, exitDetectionUpdate as ws r s.agents.rows = some b := by
    unfold exitDetectionUpdate
    rw [if_neg hne]
    exact ⟨_, rfl⟩
  exact ⟨s.withRows b, by simp only [Node.update, e, if_neg hne, hw, hb], h, rfl⟩

lemma passes_insideDomain (env : SimEnv n) (ring : List Vec) : Passes env (.insideDomain ring) := by
  intro s h
  cases hk : s.data.inactive with
  | none => exact absurd hk h.1
  | some k =>
    simp only [Node.update, insideDomainUpdate, hk]
    exact ⟨_, rfl, ⟨by simp, h.2⟩, rfl⟩

lemma passes_navigation (env : SimEnv n) (step radius strength : ℝ)
    (hn : ∀ t < env.field.targets.length,
      ∃ r, freshNav env.lib env.field (.int t) step radius strength = .ok r) :
    Passes env (.navigation step radius strength) := by
  intro s h
  have : Nonempty (MeshGrid × Grid (Option ℝ) × Grid (Option Vec)) :=
    ⟨meshgrid 1 0 0 1 1, ⟨0, 0, fun _ _ => none⟩, ⟨0, 0, fun _ _ => none⟩⟩
  choose! res hres using hn
  obtain ⟨b, hb, -⟩ := navLoop env.nan (fun t =>
    freshNav env.lib env.field (.int t) step radius strength) res
    (List.range env.field.targets.length) List.nodup_range
    (fun u hu => hres u (List.mem_range.1 hu)) s.agents.rows
  obtain ⟨c, hc, h1, -⟩ := navigationLoop_fresh env {env.self} rfl step radius strength
    (List.range env.field.targets.length) s h.2
  exact ⟨_, h1 b hb, ⟨h.1, hc⟩, rfl⟩

/-- A shipped simulation whose nodes pass can be updated any number of times. -/
lemma runs_updates (env : SimEnv n) (e : LogicExpr) (nodes : List Node) (ho : e.order = .ok nodes)
    (hp : ∀ x ∈ nodes, Passes env x) (s : SimState n) (hs : Runs env s) (k : ℕ) :
    ∃ t, AfterUpdates (e.update env) k s t ∧ t.data.iterations = s.data.iterations + k ∧
      Runs env t := by
  induction k with
  | zero => exact ⟨s, .zero s, rfl, hs⟩
  | succ k ih =>
    obtain ⟨t, h, hi, ht⟩ := ih
    obtain ⟨u, e', hu, hi'⟩ := passes_nodes env nodes hp t ht
    refine ⟨{ u with data := { u.data with iterations := u.data.iterations + 1 } },
      .succ h (by rw [update_of_order ho, e']), ?_, hu⟩
    show u.data.iterations + 1 = _
    rw [hi', hi]
    rfl

lemma shipped_passes (env : SimEnv n) (ratioObs width : ℝ) (s : SimState n)
    (hr : ReadyToRun env s) (hw : 1 ≤ (1 - ratioObs) * width) :
    ∀ e ∈ shippedLogic ratioObs width env.field,
      ∃ nodes, e.order = .ok nodes ∧ ∀ x ∈ nodes, Passes env x := by
  obtain ⟨⟨ring, holes⟩, hd⟩ := Option.ne_none_iff_exists'.1 hr.domain
  have hn : Passes env (.navigation 0.1 0.5 0.3) := by
    refine passes_navigation env _ _ _ fun t ht => ?_
    obtain ⟨r, h⟩ := hr.directions t ht
    refine ⟨r, ?_⟩
    rw [← h]
    exact (nav_sound (asked := {env.self}) soundCaches_empty rfl (.int t) 0.1 0.5 0.3).1.symm
  have hx := passes_exitDetection env hr.obstacles hr.targets hr.arrays
  have hh := passes_herding env hr.obstacles 10.0 5 (by norm_num)
  have hl := passes_leaderFollower env hr.obstacles 20.0
  have hi := passes_insideDomain env ring
  have ha := passes_agentObstacle env hr.obstacles
  intro e he
  simp only [shippedLogic, List.mem_cons, List.not_mem_nil, or_false] at he
  have walk : ∃ nodes, walkLogic.order = .ok nodes ∧ ∀ x ∈ nodes, Passes env x := by
    refine ⟨_, order_walk, ?_⟩
    simp [passes_fluctuation, passes_orientation, passes_adjusting, passes_agentAgent,
      passes_integrator, passes_reset]
  have nav : ∃ nodes, (navigationLogic env.field).order = .ok nodes ∧
      ∀ x ∈ nodes, Passes env x := by
    refine ⟨_, order_navigation hd, ?_⟩
    simp [passes_fluctuation, passes_orientation, passes_adjusting, passes_agentAgent,
      passes_integrator, passes_reset, hn, hi, ha]
  have four : ∃ nodes, (fourExitsLogic env.field).order = .ok nodes ∧
      ∀ x ∈ nodes, Passes env x := by
    refine ⟨_, order_fourExits hd, ?_⟩
    simp [passes_fluctuation, passes_orientation, passes_adjusting, passes_agentAgent,
      passes_integrator, passes_reset, hn, hi, ha, hx, hl]
  have closed : ∃ nodes, closedRoomLogic.order = .ok nodes ∧ ∀ x ∈ nodes, Passes env x := by
    refine ⟨_, order_closed, ?_⟩
    simp [passes_fluctuation, passes_orientation, passes_adjusting, passes_agentAgent,
      passes_integrator, passes_reset, ha, hh]
  rcases he with rfl | rfl | rfl | rfl | rfl | rfl | rfl | rfl | rfl | rfl | rfl | rfl | rfl
  · exact walk
  · exact nav
  · exact nav
  · exact nav
  · refine ⟨_, order_herding, ?_⟩
    simp [passes_fluctuation, passes_orientation, passes_adjusting, passes_agentAgent,
      passes_integrator, passes_reset, hh]
  · refine ⟨_, order_rounding hd, ?_⟩
    simp [passes_fluctuation, passes_orientation, passes_adjusting, passes_agentAgent,
      passes_integrator, passes_reset, hn, hi, ha, hh]
  · refine ⟨_, order_avoid hd hw, ?_⟩
    simp [passes_fluctuation, passes_orientation, passes_adjusting, passes_agentAgent,
      passes_integrator, passes_reset, hn, hi, ha, hh, hx]
  · exact closed
  · exact closed
  · exact four
  · exact four
  · refine ⟨_, order_testMovement, ?_⟩
    simp [passes_orientation, passes_adjusting, passes_integrator, passes_reset]
  · exact walk

lemma herding_total (env : SimEnv n) (s : SimState n)
    (ho : ∀ g, env.field.obstacles = some g → Supported g) (e : LogicExpr)
    (he : e ∈ [herdingLogic, closedRoomLogic]) : ∃ t, e.update env s = (.ok (), t) := by
  obtain ⟨ws, hw⟩ : ∃ ws, obstaclesOf env = .ok ws := ⟨_, obstaclesOf_walls env ho⟩
  have key : ∀ s : SimState n, ∃ t, (Node.herding 10.0 5).update env s = (.ok (), t) := by
    intro s
    obtain ⟨b, hb⟩ := herdingUpdate_total env.oob env.argsort env.cellPairs ws 10.0 5
      (by norm_num) s.agents.rows
    exact ⟨s.withRows b, by simp only [Node.update, hw, hb]⟩
  have kobs : ∀ s : SimState n, ∃ t, Node.agentObstacle.update env s = (.ok (), t) := by
    intro s
    obtain ⟨a, ha⟩ : ∃ a, CrowdDynamics.agentObstacle s.agents ws = some a := by
      simp only [CrowdDynamics.agentObstacle, isModel]
      rcases kind_cases s.agents.dtype with h | h <;> simp [h]
    exact ⟨{ s with agents := a }, by simp only [Node.update, hw, ha]⟩
  have kall : ∀ nodes : List Node, (∀ x ∈ nodes, ∀ s : SimState n, ∃ t,
      x.update env s = (.ok (), t)) → ∀ s : SimState n, ∃ t, updateNodes env nodes s = (.ok (), t) := by
    intro nodes
    induction nodes with
    | nil => exact fun _ s => ⟨s, rfl⟩
    | cons x xs ih =>
      intro h s
      obtain ⟨t, ht⟩ := h x List.mem_cons_self s
      obtain ⟨u, hu⟩ := ih (fun y hy => h y (List.mem_cons_of_mem _ hy)) t
      exact ⟨u, by rw [updateNodes, ht]; exact hu⟩
  have e1 : ∀ s : SimState n, ∃ t, Node.fluctuation.update env s = (.ok (), t) := fun _ => ⟨_, rfl⟩
  have e2 : ∀ s : SimState n, ∃ t, Node.orientation.update env s = (.ok (), t) := fun _ => ⟨_, rfl⟩
  have e3 : ∀ s : SimState n, ∃ t, Node.adjusting.update env s = (.ok (), t) := fun _ => ⟨_, rfl⟩
  have e5 : ∀ s : SimState n, ∃ t, (Node.integrator 0.01 0.01).update env s = (.ok (), t) :=
    fun _ => ⟨_, rfl⟩
  have e6 : ∀ s : SimState n, ∃ t, Node.reset.update env s = (.ok (), t) := fun _ => ⟨_, rfl⟩
  have e7 := agentAgent_total env (3.0 + 2 * 0.3)
  simp only [List.mem_cons, List.not_mem_nil, or_false] at he
  rcases he with rfl | rfl
  · obtain ⟨u, hu⟩ := kall [.fluctuation, .herding 10.0 5, .orientation,
      .adjusting, .agentAgent (3.0 + 2 * 0.3), .integrator 0.01 0.01, .reset] (by
      intro x hx
      simp only [List.mem_cons, List.not_mem_nil, or_false] at hx
      rcases hx with rfl | rfl | rfl | rfl | rfl | rfl | rfl <;> assumption) s
    exact ⟨{ u with data := { u.data with iterations := u.data.iterations + 1 } },
      by rw [update_of_order order_herding, hu]⟩
  · obtain ⟨u, hu⟩ := kall [.fluctuation, .herding 10.0 5, .orientation,
      .adjusting, .agentAgent (3.0 + 2 * 0.3), .agentObstacle, .integrator 0.01 0.01, .reset] (by
      intro x hx
      simp only [List.mem_cons, List.not_mem_nil, or_false] at hx
      rcases hx with rfl | rfl | rfl | rfl | rfl | rfl | rfl | rfl <;> assumption) s
    exact ⟨{ u with data := { u.data with iterations := u.data.iterations + 1 } },
      by rw [update_of_order order_closed, hu]⟩

end CrowdDynamics
