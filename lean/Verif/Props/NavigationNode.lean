import Verif.Props.Navigation
import Verif.Props.Guidance
import Verif.Proofs.NavigationNode
import Verif.Proofs.Guidance
import Verif.Props.Simulation

/-!
# The node `Navigation` in a simulation: C119
-/

namespace CrowdDynamics

open Classical Spec

/-! ## C119 -/

/-- **C119** The node `Navigation` in a simulation whose field has a domain, with caches that hold
only right answers and a solver that keeps the shape of the grid. Let `minx`, … be the bounds of
the domain. If the navigation to every target can be computed (with directions `dirs t` for target
`t`), the node raises nothing, changes nothing but directions of agents, and gives every agent
inside of the bounds whose target is one of the field's targets the direction that the map of *its*
target has at the cell in which the agent is: row of the second coordinate, column of the first.
Agents without such a target and agents outside of the grid keep their direction. -/
theorem C119_node {n : ℕ} (env : SimEnv n) (s : SimState n) (asked : Set ℕ)
    (hid : env.self ∈ asked) (hc : SoundCaches env.lib env.fields asked s.caches)
    (hf : SolverTotal env.lib.fmm) (ext : List Vec) (ints : List (List Vec))
    (hd : env.field.domain = some (ext, ints)) (minx miny maxx maxy : ℝ)
    (hminx : IsLeast {x | ∃ p ∈ ext, p.1 = x} minx) (hminy : IsLeast {y | ∃ p ∈ ext, p.2 = y} miny)
    (hmaxx : IsGreatest {x | ∃ p ∈ ext, p.1 = x} maxx)
    (hmaxy : IsGreatest {y | ∃ p ∈ ext, p.2 = y} maxy)
    (step radius strength : ℝ) (hs : 0 < step) (m : ℕ → MeshGrid) (dmap : ℕ → Grid (Option ℝ))
    (dirs : ℕ → Grid (Option Vec))
    (hnav : ∀ t < env.field.targets.length,
      freshNav env.lib env.field (.int t) step radius strength = .ok (m t, dmap t, dirs t)) :
    ∃ c b, Node.update env (.navigation step radius strength) s =
        (.ok (), ({ s with caches := c } : SimState n).withRows b) ∧
      SoundCaches env.lib env.fields asked c ∧ ∀ k,
      b k = { s.agents.rows k with targetDirection := (b k).targetDirection } ∧
      ((∀ t < env.field.targets.length, (s.agents.rows k).target ≠ (t : ℤ)) →
        b k = s.agents.rows k) ∧
      ∀ t < env.field.targets.length, (s.agents.rows k).target = (t : ℤ) →
        (minx ≤ (s.agents.rows k).position.1 → (s.agents.rows k).position.1 ≤ maxx →
          miny ≤ (s.agents.rows k).position.2 → (s.agents.rows k).position.2 ≤ maxy →
          ∃ i j : ℕ, (minx + j * step ≤ (s.agents.rows k).position.1 ∧
              (s.agents.rows k).position.1 < minx + j * step + step) ∧
            (miny + i * step ≤ (s.agents.rows k).position.2 ∧
              (s.agents.rows k).position.2 < miny + i * step + step) ∧
            (b k).targetDirection = ((dirs t).val i j).getD env.nan) ∧
        (¬ ((minx - step < (s.agents.rows k).position.1 ∧
              (s.agents.rows k).position.1 < minx + (⌈(maxx - minx) / step⌉ + 1) * step) ∧
            (miny - step < (s.agents.rows k).position.2 ∧
              (s.agents.rows k).position.2 < miny + (⌈(maxy - miny) / step⌉ + 1) * step)) →
          b k = s.agents.rows k) := by
  have hbox : polygonBounds ext = (minx, miny, maxx, maxy) :=
    polygonBounds_eq hminx hminy hmaxx hmaxy
  have hx : minx ≤ maxx := hminx.2 hmaxx.1
  have hy : miny ≤ maxy := hminy.2 hmaxy.1
  have hnav' : ∀ t < env.field.targets.length,
      freshNav env.lib env.field (.int t) step radius strength =
        .ok (meshgrid step minx miny maxx maxy, dmap t,
          ⟨(meshgrid step minx miny maxx maxy).shape.1,
            (meshgrid step minx miny maxx maxy).shape.2, (dirs t).val⟩) := by
    intro t ht
    have h := hnav t ht
    have hne : env.field.targets ≠ [] := by
      intro h
      rw [h] at ht
      exact absurd ht (Nat.not_lt_zero t)
    have hsel : selectTargets env.lib env.field (.int t) = .ok env.field.targets[t] :=
      pyListGet_place (i := t) ⟨ht, .inl rfl⟩ (List.getElem?_eq_getElem ht)
    rw [freshNav_static hd hne hsel, hbox] at h
    have := staticPotential_shape hf h
    simp only at this
    rw [hnav t ht, this]
  obtain ⟨b, e, hb⟩ := C56_navigation env.nan step minx miny maxx maxy hs hx hy
    env.field.targets.length (fun t => freshNav env.lib env.field (.int t) step radius strength)
    dmap (fun t => (dirs t).val) hnav' s.agents.rows
  obtain ⟨c, hc', h1, -⟩ := navigationLoop_fresh env asked hid step radius strength
    (List.range env.field.targets.length) s hc
  exact ⟨c, b, h1 b e, hc', hb⟩

/-- A square of side 3 with a wall and an exit, for which the navigation can be computed. -/
example : ∃ (env : SimEnv 2) (ext : List Vec) (m : ℕ → MeshGrid) (dmap : ℕ → Grid (Option ℝ))
    (dirs : ℕ → Grid (Option Vec)), SolverTotal env.lib.fmm ∧
      SoundCaches env.lib env.fields {env.self} emptyCaches ∧
      env.field.domain = some (ext, []) ∧ IsLeast {x | ∃ p ∈ ext, p.1 = x} 0 ∧
      IsLeast {y | ∃ p ∈ ext, p.2 = y} 0 ∧ IsGreatest {x | ∃ p ∈ ext, p.1 = x} 3 ∧
      IsGreatest {y | ∃ p ∈ ext, p.2 = y} 3 ∧ env.field.targets.length = 1 ∧
      ∀ t < env.field.targets.length,
        freshNav env.lib env.field (.int t) 1 0.5 0.3 = .ok (m t, dmap t, dirs t) := by
  let f : Field := ⟨some ([(0, 0), (3, 0), (3, 3), (0, 3), (0, 0)], []),
    some (.lineString [(0, 0), (0, 3)]), [.lineString [(3, 0), (3, 3)]], []⟩
  have hr : ∃ r, (Field.navigationToTarget simpleLib (fun _ => f) 0 (.int 0) 1 0.5 0.3
      emptyCaches).1 = .ok r := by
    refine C77_obstacles_partial simpleLib _ 0 {0} (by simp) emptyCaches soundCaches_empty _ _ _
      (.lineString [(3, 0), (3, 3)]) _ 1 0.5 0.3 (fun c _ _ => ⟨_, rfl, rfl, rfl⟩) one_pos rfl
      properBox_three (by simp [f]) ?_ (simpleLib_drawable _ properBox_three _ _) rfl
      (simpleLib_drawable _ properBox_three _ _) (simpleLib_drawable _ properBox_three _ _)
    simp [selectTargets, pyListGet, npIndex, f]
  obtain ⟨⟨m, dist, dm⟩, hr⟩ := hr
  rw [(nav_sound (asked := {0}) soundCaches_empty (by simp) _ 1 0.5 0.3).1] at hr
  refine ⟨{ demoEnv 2 with fields := fun _ => f, lib := simpleLib },
    [(0, 0), (3, 0), (3, 3), (0, 3), (0, 0)], fun _ => m, fun _ => dist, fun _ => dm,
    fun c _ _ => ⟨_, rfl, rfl, rfl⟩, soundCaches_empty, rfl, ?_, ?_, ?_, ?_, rfl, ?_⟩
  · refine ⟨⟨(0, 0), by simp, rfl⟩, ?_⟩
    rintro x ⟨p, hp, rfl⟩
    simp only [List.mem_cons, List.not_mem_nil, or_false] at hp
    rcases hp with rfl | rfl | rfl | rfl | rfl <;> norm_num
  · refine ⟨⟨(0, 0), by simp, rfl⟩, ?_⟩
    rintro x ⟨p, hp, rfl⟩
    simp only [List.mem_cons, List.not_mem_nil, or_false] at hp
    rcases hp with rfl | rfl | rfl | rfl | rfl <;> norm_num
  · refine ⟨⟨(3, 0), by simp, rfl⟩, ?_⟩
    rintro x ⟨p, hp, rfl⟩
    simp only [List.mem_cons, List.not_mem_nil, or_false] at hp
    rcases hp with rfl | rfl | rfl | rfl | rfl <;> norm_num
  · refine ⟨⟨(0, 3), by simp, rfl⟩, ?_⟩
    rintro x ⟨p, hp, rfl⟩
    simp only [List.mem_cons, List.not_mem_nil, or_false] at hp
    rcases hp with rfl | rfl | rfl | rfl | rfl <;> norm_num
  · intro t ht
    have : t = 0 := Nat.lt_one_iff.1 ht
    subst this
    exact hr

/-- **C119** If the navigation to some target cannot be computed, the node of a simulation with
agents raises the exception of the first such target. Before that only directions were changed. -/
theorem C119_failure {n : ℕ} (env : SimEnv n) (s : SimState n) (hn : n ≠ 0) (asked : Set ℕ)
    (hid : env.self ∈ asked) (hc : SoundCaches env.lib env.fields asked s.caches)
    (step radius strength : ℝ) (t : ℕ) (ht : t < env.field.targets.length) (e : PyErr)
    (hbefore : ∀ u < t, ∃ r, freshNav env.lib env.field (.int u) step radius strength = .ok r)
    (hfail : freshNav env.lib env.field (.int t) step radius strength = .error e) :
    ∃ c b, Node.update env (.navigation step radius strength) s =
        (.error e, ({ s with caches := c } : SimState n).withRows b) ∧
      SoundCaches env.lib env.fields asked c ∧
      ∀ k, b k = { s.agents.rows k with targetDirection := (b k).targetDirection } := by
  obtain ⟨c, hc', -, h2⟩ := navigationLoop_fresh env asked hid step radius strength
    (List.range env.field.targets.length) s hc
  have key : (List.range env.field.targets.length).foldlM (navigationStep env.nan fun t =>
      freshNav env.lib env.field (.int t) step radius strength) s.agents.rows = .error e := by
    haveI : Nonempty (MeshGrid × Grid (Option ℝ) × Grid (Option Vec)) :=
      ⟨meshgrid 1 0 0 1 1, ⟨0, 0, fun _ _ => none⟩, ⟨0, 0, fun _ _ => none⟩⟩
    choose! res hres using hbefore
    obtain ⟨b, hb, -⟩ := navLoop env.nan (fun t =>
      freshNav env.lib env.field (.int t) step radius strength) res (List.range t)
      List.nodup_range (fun u hu => hres u (List.mem_range.1 hu)) s.agents.rows
    obtain ⟨m, hm⟩ : ∃ m, env.field.targets.length = t + (m + 1) :=
      ⟨env.field.targets.length - t - 1, by omega⟩
    rw [hm, List.range_add, List.foldlM_append, hb]
    rw [List.range_succ_eq_map, List.map_cons, Nat.add_zero]
    show List.foldlM _ b _ = _
    rw [List.foldlM_cons]
    simp only [navigationStep, if_neg hn, hfail]
    rfl
  obtain ⟨b, hb1, hb2⟩ := h2 e key
  exact ⟨c, b, hb1, hc', hb2⟩

/-- The shipped node raises in a field with a target but without obstacles (see C77). -/
example (s : SimState 1) (hs : s.caches = ⟨[], [], [], []⟩) (f : Field)
    (hf : f = ⟨some ([(0, 0), (1, 0), (1, 1), (0, 1), (0, 0)], []), none,
      [.lineString [(1, 0), (1, 1)]], []⟩) :
    ∃ e, (Node.update { demoEnv 1 with fields := fun _ => f } (.navigation 0.1 1 0.3) s).1 =
      .error e := by
  cases h : freshNav (demoEnv 1).lib f (.int 0) 0.1 1 0.3 with
  | error e =>
    obtain ⟨c, b, hb, -⟩ := C119_failure { demoEnv 1 with fields := fun _ => f } s one_ne_zero {0}
      rfl (by rw [hs]; exact soundCaches_empty) 0.1 1 0.3 0
      (by show 0 < f.targets.length; rw [hf]; simp) e
      (fun u hu => absurd hu (Nat.not_lt_zero u)) h
    exact ⟨e, by rw [hb]⟩
  | ok r =>
    exfalso
    rw [hf] at h
    unfold freshNav at h
    rw [if_neg (by simp)] at h
    obtain ⟨a, -, h⟩ := bind_ok h
    obtain ⟨o, h, -⟩ := bind_ok h
    unfold freshObs at h
    obtain ⟨m, -, h⟩ := bind_ok h
    cases h

end CrowdDynamics
