import Verif.Model.Simulation
import Verif.Proofs.Field
import Verif.Proofs.Guidance
import Verif.Proofs.Refusals

/-! # Helper lemmas: the node `Navigation` in a simulation -/

namespace CrowdDynamics

open Classical Spec

/-- The loop with the caches does the same as the loop without them. -/
lemma navigationLoop_fresh {n : ℕ} (env : SimEnv n) (asked : Set ℕ) (hid : env.self ∈ asked)
    (step radius strength : ℝ) (l : List ℕ) :
    ∀ s : SimState n, SoundCaches env.lib env.fields asked s.caches →
      ∃ c, SoundCaches env.lib env.fields asked c ∧
        (∀ b, l.foldlM (navigationStep env.nan fun t =>
            freshNav env.lib env.field (.int t) step radius strength) s.agents.rows = .ok b →
          navigationLoop env step radius strength l s =
            (.ok (), ({ s with caches := c } : SimState n).withRows b)) ∧
        ∀ e, l.foldlM (navigationStep env.nan fun t =>
            freshNav env.lib env.field (.int t) step radius strength) s.agents.rows = .error e →
          ∃ b, navigationLoop env step radius strength l s =
            (.error e, ({ s with caches := c } : SimState n).withRows b) ∧
            ∀ k, b k = { s.agents.rows k with targetDirection := (b k).targetDirection } := by
  induction l with
  | nil =>
    intro s hs
    refine ⟨s.caches, hs, fun b h => ?_, fun e h => ?_⟩
    · cases h
      rfl
    · cases h
  | cons t l ih =>
    intro s hs
    by_cases hn : n = 0
    · obtain ⟨c, hc, h1, h2⟩ := ih s hs
      have e1 : navigationLoop env step radius strength (t :: l) s =
          navigationLoop env step radius strength l s := by
        rw [navigationLoop, if_pos hn]
      have e2 : (t :: l).foldlM (navigationStep env.nan fun t =>
            freshNav env.lib env.field (.int t) step radius strength) s.agents.rows =
          l.foldlM (navigationStep env.nan fun t =>
            freshNav env.lib env.field (.int t) step radius strength) s.agents.rows := by
        rw [List.foldlM_cons]
        simp only [navigationStep, if_pos hn]
        rfl
      rw [e1, e2]
      exact ⟨c, hc, h1, h2⟩
    · obtain ⟨f1, f2⟩ := nav_sound hs hid (.int t) step radius strength
      obtain ⟨r, c, e⟩ : ∃ r c, Field.navigationToTarget env.lib env.fields env.self (.int t) step
        radius strength s.caches = (r, c) := ⟨_, _, rfl⟩
      rw [e] at f1 f2
      simp only at f1 f2
      have f1' : freshNav env.lib env.field (.int t) step radius strength = r := f1.symm
      cases r with
      | error er =>
        refine ⟨c, f2, fun b h => ?_, fun e' h => ?_⟩
        · rw [List.foldlM_cons] at h
          simp only [navigationStep, if_neg hn, f1'] at h
          cases h
        · rw [List.foldlM_cons] at h
          simp only [navigationStep, if_neg hn, f1'] at h
          cases h
          refine ⟨s.agents.rows, ?_, fun k => rfl⟩
          rw [navigationLoop, if_neg hn, e]
          rfl
      | ok r =>
        obtain ⟨rows, hrows⟩ : ∃ rows : Crowd n, rows = fun k =>
          if (s.agents.rows k).target = (t : ℤ) then
            { s.agents.rows k with
              targetDirection := getdefaultRow env.nan ((r.1.index (s.agents.rows k).position).2,
                (r.1.index (s.agents.rows k).position).1) r.2.2
                (s.agents.rows k).targetDirection }
          else s.agents.rows k := ⟨_, rfl⟩
        obtain ⟨c', hc', h1, h2⟩ := ih (({ s with caches := c } : SimState n).withRows rows) f2
        have e1 : navigationLoop env step radius strength (t :: l) s =
            navigationLoop env step radius strength l
              (({ s with caches := c } : SimState n).withRows rows) := by
          rw [navigationLoop, if_neg hn, e, hrows]
        have e2 : (t :: l).foldlM (navigationStep env.nan fun t =>
              freshNav env.lib env.field (.int t) step radius strength) s.agents.rows =
            l.foldlM (navigationStep env.nan fun t =>
              freshNav env.lib env.field (.int t) step radius strength) rows := by
          rw [List.foldlM_cons]
          simp only [navigationStep, if_neg hn, f1', hrows]
          rfl
        rw [e1, e2]
        refine ⟨c', hc', h1, fun e' h => ?_⟩
        obtain ⟨b, g1, g2⟩ := h2 e' h
        refine ⟨b, g1, fun k => ?_⟩
        rw [g2 k]
        simp only [SimState.withRows, hrows]
        split_ifs <;> rfl

lemma foldl_min_mem (f : Vec → ℝ) (l : List Vec) (a : ℝ) :
    l.foldl (fun m q => min m (f q)) a = a ∨ ∃ p ∈ l, f p = l.foldl (fun m q => min m (f q)) a := by
  induction l generalizing a with
  | nil => exact .inl rfl
  | cons b l ih =>
    rw [List.foldl_cons]
    rcases ih (min a (f b)) with h | ⟨p, hp, h⟩
    · rcases min_choice a (f b) with h' | h'
      · exact .inl (h.trans h')
      · exact .inr ⟨b, by simp, by rw [h, h']⟩
    · exact .inr ⟨p, by simp [hp], h⟩

lemma foldl_max_mem (f : Vec → ℝ) (l : List Vec) (a : ℝ) :
    l.foldl (fun m q => max m (f q)) a = a ∨ ∃ p ∈ l, f p = l.foldl (fun m q => max m (f q)) a := by
  induction l generalizing a with
  | nil => exact .inl rfl
  | cons b l ih =>
    rw [List.foldl_cons]
    rcases ih (max a (f b)) with h | ⟨p, hp, h⟩
    · rcases max_choice a (f b) with h' | h'
      · exact .inl (h.trans h')
      · exact .inr ⟨b, by simp, by rw [h, h']⟩
    · exact .inr ⟨p, by simp [hp], h⟩

/-- The bounds are the extreme coordinates. -/
lemma polygonBounds_eq {ext : List Vec} {a b c d : ℝ} (h1 : IsLeast {x | ∃ p ∈ ext, p.1 = x} a)
    (h2 : IsLeast {y | ∃ p ∈ ext, p.2 = y} b) (h3 : IsGreatest {x | ∃ p ∈ ext, p.1 = x} c)
    (h4 : IsGreatest {y | ∃ p ∈ ext, p.2 = y} d) : polygonBounds ext = (a, b, c, d) := by
  have hle := polygonBounds_le ext
  cases ext with
  | nil => obtain ⟨⟨p, hp, -⟩, -⟩ := h1; cases hp
  | cons q l =>
    have g1 : ∃ p ∈ q :: l, p.1 = (polygonBounds (q :: l)).1 := by
      rcases foldl_min_mem (fun q => q.1) l q.1 with h | ⟨p, hp, h⟩
      · exact ⟨q, by simp, h.symm⟩
      · exact ⟨p, by simp [hp], h⟩
    have g2 : ∃ p ∈ q :: l, p.2 = (polygonBounds (q :: l)).2.1 := by
      rcases foldl_min_mem (fun q => q.2) l q.2 with h | ⟨p, hp, h⟩
      · exact ⟨q, by simp, h.symm⟩
      · exact ⟨p, by simp [hp], h⟩
    have g3 : ∃ p ∈ q :: l, p.1 = (polygonBounds (q :: l)).2.2.1 := by
      rcases foldl_max_mem (fun q => q.1) l q.1 with h | ⟨p, hp, h⟩
      · exact ⟨q, by simp, h.symm⟩
      · exact ⟨p, by simp [hp], h⟩
    have g4 : ∃ p ∈ q :: l, p.2 = (polygonBounds (q :: l)).2.2.2 := by
      rcases foldl_max_mem (fun q => q.2) l q.2 with h | ⟨p, hp, h⟩
      · exact ⟨q, by simp, h.symm⟩
      · exact ⟨p, by simp [hp], h⟩
    refine Prod.ext ?_ (Prod.ext ?_ (Prod.ext ?_ ?_))
    · obtain ⟨⟨p, hp, rfl⟩, -⟩ := id h1
      exact le_antisymm (hle p hp).1 (h1.2 g1)
    · obtain ⟨⟨p, hp, rfl⟩, -⟩ := id h2
      exact le_antisymm (hle p hp).2.1 (h2.2 g2)
    · obtain ⟨⟨p, hp, rfl⟩, -⟩ := id h3
      exact le_antisymm (h3.2 g3) (hle p hp).2.2.1
    · obtain ⟨⟨p, hp, rfl⟩, -⟩ := id h4
      exact le_antisymm (h4.2 g4) (hle p hp).2.2.2

/-- The distance map has the shape of the grid. -/
lemma distanceMap_shape {lib : DrawLib} {fmm : FmmSolver} (hf : SolverTotal fmm) {m : MeshGrid}
    {t : Geom} {o : Option Geom} {d : Grid (Option ℝ)} (h : distanceMap lib fmm m t o = .ok d) :
    d.rows = m.shape.1 ∧ d.cols = m.shape.2 := by
  obtain ⟨contour, mask, h1, -, -, h2⟩ := distanceMap_ok h
  obtain ⟨d', e, hr, hc⟩ := hf contour mask m.step
  rw [h2] at e
  cases e
  have := drawGeom_among lib 0 m.index 1 (draw_ok _ _ _ _ t _ _ h1) _ _ _
    ⟨rfl, rfl, fun i j => .inl rfl⟩ h1
  exact ⟨hr.trans this.1, hc.trans this.2.1⟩

/-- The results of `static_potential` belong to the grid over the bounds. -/
lemma staticPotential_shape {lib : PathLib} (hf : SolverTotal lib.fmm) {b : ℝ × ℝ × ℝ × ℝ}
    {domain t : Geom} {o : Option Geom} {step radius strength : ℝ}
    {r : MeshGrid × Grid (Option ℝ) × Grid (Option Vec)}
    (h : staticPotential lib b domain t o step radius strength = .ok r) :
    r = (meshgrid step b.1 b.2.1 b.2.2.1 b.2.2.2, r.2.1,
      ⟨(meshgrid step b.1 b.2.1 b.2.2.1 b.2.2.2).shape.1,
        (meshgrid step b.1 b.2.1 b.2.2.1 b.2.2.2).shape.2, r.2.2.val⟩) := by
  unfold staticPotential at h
  obtain ⟨q, h1, h⟩ := bind_ok h
  obtain ⟨q', h2, h⟩ := bind_ok h
  cases h
  have key : q.1.rows = (meshgrid step b.1 b.2.1 b.2.2.1 b.2.2.2).shape.1 ∧
      q.1.cols = (meshgrid step b.1 b.2.1 b.2.2.1 b.2.2.2).shape.2 := by
    unfold shortestPath at h1
    cases o with
    | none => cases h1
    | some o =>
      simp only at h1
      obtain ⟨d1, e1, h1⟩ := bind_ok h1
      obtain ⟨raw, e2, h1⟩ := bind_ok h1
      obtain ⟨walls, e3, h1⟩ := bind_ok h1
      cases h1
      have := distanceMap_shape hf e1
      unfold directionMap at e2
      split_ifs at e2
      cases e2
      exact this
  simp only [obstacleHandling, key]

end CrowdDynamics
