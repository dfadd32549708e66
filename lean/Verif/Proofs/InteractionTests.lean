import Verif.Model.InteractionTests
import Verif.Proofs.BodyType
import Verif.Proofs.Distance
import Verif.Proofs.PowerLawTests
import Verif.Proofs.Interactions

/-! # Helper lemmas about the agents of the tests of interactions -/

namespace CrowdDynamics

open BodyAttr

/-! ## Bodies with a given radius and mass -/

/-- Ratios set after the radius. -/
lemma setAttr_ratio_pos {z : ℕ → ℝ → ℝ → ℝ} {b : BodyObj} {q p : BodyAttr}
    (hqp : (q, p) ∈ ratioPairs) {v r : ℝ} (hv : 0 < v ∧ v ≤ 1) (h0 : b.val q = 0) (hp : b.val p = 0)
    (hr : b.val .radius = r) (hr0 : 0 < r) :
    setAttr z b q v = ⟨(b.store q v).store p (v * r), false⟩ := by
  have hne : b.val q ≠ v := by rw [h0]; exact hv.1.ne
  have hpv : (0 : ℝ) ≠ v * r := (mul_pos hv.1 hr0).ne
  rw [setAttr_fresh ⟨hv.1.le, fun _ => hv.2⟩ hne]
  simp only [ratioPairs, List.mem_cons, Prod.mk.injEq, List.not_mem_nil, or_false] at hqp
  rcases hqp with ⟨rfl, rfl⟩ | ⟨rfl, rfl⟩ | ⟨rfl, rfl⟩
  all_goals
    unfold notifyAttr notifyDims observeRadius
    simp only [reduceCtorEq, if_false]
    rw [if_pos (by simp [store_val, hr, hr0])]
    simp only [if_true]
    rw [assign_fresh]
    · simp [store_val, hr, noObserver]
    · simp only [store_val, reduceCtorEq, if_false, if_true, hr]
      exact valid_of_nonneg (mul_pos hv.1 hr0).le (by decide)
    · simp [store_val, hr, hp, hv.1.ne', hr0.ne']

/-- Mean or scale of an attribute that already has a value. -/
lemma setAttr_undrawn {z : ℕ → ℝ → ℝ → ℝ} {b : BodyObj} {t m : BodyAttr}
    (h : (t, m) ∈ [(BodyAttr.radius, BodyAttr.radiusMean), (.radius, .radiusScale),
      (.mass, .massMean), (.mass, .massScale)]) {v : ℝ} (hv : 0 < v) (h0 : b.val m = 0)
    (ht : b.val t ≠ 0) : setAttr z b m v = ⟨b.store m v, false⟩ := by
  have hne : b.val m ≠ v := by rw [h0]; exact hv.ne
  simp only [List.mem_cons, Prod.mk.injEq, List.not_mem_nil, or_false] at h
  rcases h with ⟨rfl, rfl⟩ | ⟨rfl, rfl⟩ | ⟨rfl, rfl⟩ | ⟨rfl, rfl⟩
  all_goals
    rw [setAttr_fresh (valid_of_nonneg hv.le (by decide)) hne]
    unfold notifyAttr observeTruncnorm
    simp only
    rw [if_neg fun hh => ht (by simpa [store_val] using hh.1)]

lemma inertiaFormula_pos {m r : ℝ} (hm : 0 < m) (hr : 0 < r) : 0 < inertiaFormula m r := by
  unfold inertiaFormula
  have := Real.pi_pos
  positivity

/-- The observer of the inertia on a body with given mass and radius. -/
lemma inertia_given {b : BodyObj} {m r : ℝ} (hm : 0 < m) (hr : 0 < r) (h0 : b.val .inertiaRot = 0)
    (hbm : b.val .mass = m) (hbr : b.val .radius = r) :
    observeInertiaRot b = ⟨b.store .inertiaRot (inertiaFormula m r), false⟩ := by
  unfold observeInertiaRot
  simp only
  rw [if_pos ⟨h0, by rw [hbm]; exact hm, by rw [hbr]; exact hr⟩, hbm, hbr]
  have hpos := inertiaFormula_pos hm hr
  rw [assign_fresh]
  · rfl
  · exact valid_of_nonneg hpos.le (by decide)
  · rw [h0]; exact hpos.ne

/-- The body that the tests construct. -/
lemma construct_given (z : ℕ → ℝ → ℝ → ℝ) (hz : ∀ k, -3 ≤ z k (-3) 3 ∧ z k (-3) 3 ≤ 3) {r m : ℝ}
    (hr : 0 < r) (hm : 0 < m) :
    ∃ o : BodyOutcome, construct bodyTypesCfg z
        [.attr .radius r, .attr .mass m, .bodyType "adult"] = o ∧ o.err = false ∧
      o.obj.val .radius = r ∧ o.obj.val .mass = m ∧ o.obj.val .rT = 0.5882 * r ∧
      o.obj.val .rS = 0.3725 * r ∧ o.obj.val .rTs = 0.6275 * r := by
  refine ⟨_, rfl, ?_⟩
  have hstore : [BodyKw.attr .radius r, .attr .mass m, .bodyType "adult"].foldl storeKw
      ⟨BodyObj.new, false⟩ =
      ⟨{ (BodyObj.new.store .radius r).store .mass m with bodyType := "adult" }, false⟩ := by
    simp only [List.foldl_cons, List.foldl_nil, storeKw, andThen_mk]
    rw [if_pos (valid_of_nonneg hr.le (by decide)), andThen_mk,
      if_pos (valid_of_nonneg hm.le (by decide)), andThen_mk]
  unfold construct
  rw [hstore]
  have v0 : ∀ x, ({ (BodyObj.new.store .radius r).store .mass m with bodyType := "adult" } :
      BodyObj).val x = if x = .mass then m else if x = .radius then r else 0 := by
    intro x
    show ((BodyObj.new.store .radius r).store .mass m).val x = _
    simp only [store_val, BodyObj.new]
  have t0 : ({ (BodyObj.new.store .radius r).store .mass m with bodyType := "adult" } :
      BodyObj).bodyType = "adult" := rfl
  generalize ({ (BodyObj.new.store .radius r).store .mass m with bodyType := "adult" } :
      BodyObj) = b0 at *
  simp only [List.foldl_cons, List.foldl_nil, andThen_mk]
  -- the observers of the radius
  have n1 : notifyKw bodyTypesCfg z b0 (.attr .radius r) =
      ⟨b0.store .inertiaRot (inertiaFormula m r), false⟩ := by
    unfold notifyKw
    simp only
    rw [if_neg hr.ne']
    unfold notifyAttr notifyDims
    simp only
    rw [inertia_given hm hr (by simp [v0]) (by simp [v0]) (by simp [v0]), andThen_mk]
    unfold observeRadius
    rw [if_pos rfl]
    unfold scaleIfRatio
    rw [if_neg (by simp [store_val, v0]), andThen_mk, if_neg (by simp [store_val, v0]), andThen_mk,
      if_neg (by simp [store_val, v0])]
  have n2 : notifyKw bodyTypesCfg z (b0.store .inertiaRot (inertiaFormula m r)) (.attr .mass m) =
      ⟨b0.store .inertiaRot (inertiaFormula m r), false⟩ := by
    unfold notifyKw
    simp only
    rw [if_neg hm.ne']
    unfold notifyAttr notifyDims observeInertiaRot
    simp only
    rw [if_neg]
    rintro ⟨h, -⟩
    rw [store_val, if_pos rfl] at h
    exact (inertiaFormula_pos hm hr).ne' h
  rw [n1, andThen_mk, n2, andThen_mk]
  have v1 : ∀ x, (b0.store .inertiaRot (inertiaFormula m r)).val x =
      if x = .inertiaRot then inertiaFormula m r else if x = .mass then m else
        if x = .radius then r else 0 := by
    intro x; simp only [store_val, v0]
  have t1 : (b0.store .inertiaRot (inertiaFormula m r)).bodyType = "adult" := t0
  generalize b0.store .inertiaRot (inertiaFormula m r) = b1 at *
  have hl : bodyTypesCfg.lookup b1.bodyType =
      some (cfgItems 0.5882 0.3725 0.6275 0.255 0.035 1.25 0.3 73.5 8.0) := by
    rw [t1]; rfl
  unfold notifyKw observeBodyType
  simp only [if_true]
  rw [if_neg (by decide), hl]
  simp only
  unfold setAll cfgItems
  simp only [List.foldl_cons, List.foldl_nil]
  rw [andThen_mk]
  rw [setAttr_ratio_pos mem1 (by norm_num) (by simp [v1]) (by simp [v1]) (by simp [v1]) hr,
    andThen_mk]
  rw [setAttr_ratio_pos mem2 (by norm_num) (by simp [store_val, v1]) (by simp [store_val, v1])
    (by simp [store_val, v1]) hr, andThen_mk]
  rw [setAttr_ratio_pos mem3 (by norm_num) (by simp [store_val, v1]) (by simp [store_val, v1])
    (by simp [store_val, v1]) hr, andThen_mk]
  rw [setAttr_undrawn (t := .radius) (m := .radiusMean) (by simp) (by norm_num)
    (by simp [store_val, v1]) (by simp [store_val, v1, hr.ne']), andThen_mk]
  rw [setAttr_undrawn (t := .radius) (m := .radiusScale) (by simp) (by norm_num)
    (by simp [store_val, v1]) (by simp [store_val, v1, hr.ne']), andThen_mk]
  generalize hb : (((((((b1.store .ratioRt 0.5882).store .rT (0.5882 * r)).store .ratioRs
    0.3725).store .rS (0.3725 * r)).store .ratioTs 0.6275).store .rTs (0.6275 * r)).store
    .radiusMean 0.255).store .radiusScale 0.035 = b5
  have v5 : ∀ x, b5.val x = if x = .radiusScale then 0.035 else if x = .radiusMean then 0.255 else
      if x = .rTs then 0.6275 * r else if x = .ratioTs then 0.6275 else
      if x = .rS then 0.3725 * r else if x = .ratioRs then 0.3725 else
      if x = .rT then 0.5882 * r else if x = .ratioRt then 0.5882 else b1.val x := by
    intro x; rw [← hb]; simp only [store_val]
  clear hb
  rw [setAttr_mean (t := .targetVelocity) (m := .targetVelocityMean) (s := .targetVelocityScale)
    (by simp) (by norm_num) (by simp [v5, v1]) (by simp [v5, v1]), andThen_mk]
  rw [setAttr_scale (t := .targetVelocity) (m := .targetVelocityMean) (s := .targetVelocityScale)
    (by simp) (by norm_num) (by rw [store_val]; simp [v5, v1]) (by rw [store_val]; simp [v5, v1])
    (by rw [store_val]; norm_num) (hz _)]
  have hvm : (b5.store .targetVelocityMean 1.25).val .targetVelocityMean = 1.25 := by
    simp [store_val]
  have hdr : (b5.store .targetVelocityMean 1.25).drawn = b5.drawn := rfl
  rw [hvm, hdr]
  obtain ⟨-, p2, -, -⟩ := truncnorm_pos (m := (1.25 : ℝ)) (s := 0.3) (by norm_num) (by norm_num)
    (hz b5.drawn)
  obtain ⟨e7, u7⟩ := assignDims_velocity
    (b := { (b5.store .targetVelocityMean 1.25).store .targetVelocityScale 0.3 with
      drawn := b5.drawn + 1 }) p2.le
  rw [andThen_false e7]
  have u7' : ∀ a', a' ≠ .targetVelocity → a' ≠ .targetVelocityScale → a' ≠ .targetVelocityMean →
      (assign notifyDims { (b5.store .targetVelocityMean 1.25).store
      .targetVelocityScale 0.3 with drawn := b5.drawn + 1 } .targetVelocity
        (1.25 + 0.3 / 3 * z b5.drawn (-3) 3)).obj.val a' = b5.val a' := by
    intro a' h1 h2 h3
    rw [u7, if_neg h1]
    show ((b5.store .targetVelocityMean 1.25).store .targetVelocityScale 0.3).val a' = _
    rw [store_val, store_val, if_neg h2, if_neg h3]
  generalize (assign notifyDims { (b5.store .targetVelocityMean 1.25).store
      .targetVelocityScale 0.3 with drawn := b5.drawn + 1 } .targetVelocity
        (1.25 + 0.3 / 3 * z b5.drawn (-3) 3)).obj = b7 at *
  have hmass : b7.val .mass = m := by
    rw [u7' _ (by decide) (by decide) (by decide)]; simp [v5, v1]
  rw [setAttr_undrawn (t := .mass) (m := .massMean) (by simp) (by norm_num)
    (by rw [u7' _ (by decide) (by decide) (by decide)]; simp [v5, v1])
    (by rw [hmass]; exact hm.ne'), andThen_mk]
  rw [setAttr_undrawn (t := .mass) (m := .massScale) (by simp) (by norm_num)
    (by rw [store_val, if_neg (by decide), u7' _ (by decide) (by decide) (by decide)]; simp [v5, v1])
    (by rw [store_val, if_neg (by decide), hmass]; exact hm.ne')]
  refine ⟨rfl, ?_, ?_, ?_, ?_, ?_⟩
  all_goals
    simp only
    rw [store_val, if_neg (by decide), store_val, if_neg (by decide),
      u7' _ (by decide) (by decide) (by decide)]
    simp [v5, v1]

/-! ## Agents at the same place -/

/-- Circular agents at the same place. -/
lemma pairForces_coincident {a b : Agent} (hx : a.position = b.position) :
    pairForces a b = (0, 0) := by
  have hs : forceSocialCircular a b = (0, 0) := by
    unfold forceSocialCircular
    simp only
    rw [hx, sub_self]
    have h0 : dot (0 : Vec) (a.velocity - b.velocity) = 0 := by simp [dot]
    have h1 : dot (0 : Vec) 0 = 0 := by simp [dot]
    rw [h0, h1]
    cases hd : npSqrt ((-0 : ℝ) ^ 2 - dot (a.velocity - b.velocity) (a.velocity - b.velocity) *
      (0 - (a.radius + b.radius) ^ 2)) with
    | none => rfl
    | some d =>
      simp only
      split_ifs with h2 h3
      · rfl
      · rfl
      · exfalso
        apply h3
        left
        obtain ⟨-, hd0, -⟩ := npSqrt_some hd
        have ha := dot_self_nonneg (a.velocity - b.velocity)
        apply div_nonpos_of_nonpos_of_nonneg _ ha
        linarith
  unfold pairForces
  simp only
  rw [hs, hx, distanceCircles_normal_self]
  have hc : ∀ (h mu kappa damping : ℝ) (v : Vec),
      forceContact h (0, 0) v (rotate270 (0, 0)) mu kappa damping = 0 := by
    intro h mu kappa damping v
    ext <;> simp [forceContact, rotate270, dot]
  simp only [hc]
  split_ifs <;> simp

/-- Three-circle agents with their torsos at the same place. -/
lemma pairForcesThree_coincident {a b : Agent} (hx : a.position = b.position)
    (ha : a.rS < a.rT) (hb : b.rS < b.rT) (ha0 : 0 ≤ a.rS) (hb0 : 0 ≤ b.rS) :
    pairForcesThree a b = ((0, 0), (0, 0)) := by
  have hs : forceSocialThreeCircle a b = (0, 0) := by
    by_cases hv : dot (a.velocity - b.velocity) (a.velocity - b.velocity) = 0
    · unfold forceSocialThreeCircle
      simp only
      rw [if_pos hv]
    have hv0 := lt_of_le_of_ne (dot_self_nonneg (a.velocity - b.velocity)) (Ne.symm hv)
    generalize hA : dot (a.velocity - b.velocity) (a.velocity - b.velocity) = A at hv0
    have hR : 0 < a.rT + b.rT := by linarith
    have hroot : pairTime (a.circles 0 - b.circles 0) (a.velocity - b.velocity)
        (a.radii 0 + b.radii 0) A =
        some ((-dot (a.circles 0 - b.circles 0) (a.velocity - b.velocity) -
          √(A * (a.rT + b.rT) ^ 2)) / A,
          -dot (a.circles 0 - b.circles 0) (a.velocity - b.velocity),
          √(A * (a.rT + b.rT) ^ 2)) := by
      apply pairTime_of_root (Real.sqrt_pos.2 (by positivity))
      rw [Real.sq_sqrt (by positivity)]
      simp [Agent.circles, Agent.radii, hx, dot]
    have hz : dot (a.circles 0 - b.circles 0) (a.velocity - b.velocity) = 0 := by
      simp [Agent.circles, hx, dot]
    rw [hz] at hroot
    have hfold := fold_stuck a.circles a.radii b.circles b.radii (a.velocity - b.velocity) A
      [(0,1),(0,2),(1,0),(1,1),(1,2),(2,0),(2,1),(2,2)]
      ⟨0, 0, (-0 - √(A * (a.rT + b.rT) ^ 2)) / A, -0, √(A * (a.rT + b.rT) ^ 2)⟩
      (by
        apply div_nonpos_of_nonpos_of_nonneg _ hv0.le
        have := Real.sqrt_nonneg (A * (a.rT + b.rT) ^ 2)
        linarith)
    refine threeCircle_of_stuck (c := ⟨0, 0, (-0 - √(A * (a.rT + b.rT) ^ 2)) / A, -0,
      √(A * (a.rT + b.rT) ^ 2)⟩) ?_ ?_
    · apply div_nonpos_of_nonpos_of_nonneg _ hv0.le
      have := Real.sqrt_nonneg (A * (a.rT + b.rT) ^ 2)
      linarith
    · rw [hA, pairs33_eq, List.foldl_cons, contactStep_eq]
      simp only
      rw [hroot]
      exact hfold
  obtain ⟨h1, h2, h3, h4⟩ := minStep_fold
    (fun k : Fin 3 × Fin 3 => distanceCircles (a.circles k.1) (a.radii k.1) (b.circles k.2)
      (b.radii k.2)) pairs33 pairs33_ne_nil (0, 0) (0, 0)
  have hn : (distanceThreeCircles a.circles a.radii b.circles b.radii).n = 0 := by
    unfold distanceThreeCircles
    simp only
    rw [h2]
    generalize (pairs33.foldl (minStep fun k : Fin 3 × Fin 3 => distanceCircles (a.circles k.1)
      (a.radii k.1) (b.circles k.2) (b.radii k.2)) ⟨none, (0, 0), (0, 0)⟩) = s at *
    have h5 := h4 (0, 0) (mem_pairs33 _)
    rw [distanceCircles_fst, distanceCircles_fst] at h5
    have h00 : Spec.dist (a.circles 0) (b.circles 0) = 0 := by
      simp [Agent.circles, hx, Spec.dist, Spec.len]
    simp only at h5
    rw [h00] at h5
    have hge : 0 ≤ Spec.dist (a.circles s.i.1) (b.circles s.i.2) := Real.sqrt_nonneg _
    have h0a : a.radii 0 = a.rT := rfl
    have h0b : b.radii 0 = b.rT := rfl
    rw [h0a, h0b] at h5
    have hia : a.radii s.i.1 ≤ a.rT ∧ (s.i.1 ≠ 0 → a.radii s.i.1 < a.rT) := by
      generalize s.i.1 = i
      fin_cases i
      · exact ⟨le_refl _, fun h => absurd rfl h⟩
      · exact ⟨ha.le, fun _ => ha⟩
      · exact ⟨ha.le, fun _ => ha⟩
    have hib : b.radii s.i.2 ≤ b.rT ∧ (s.i.2 ≠ 0 → b.radii s.i.2 < b.rT) := by
      generalize s.i.2 = i
      fin_cases i
      · exact ⟨le_refl _, fun h => absurd rfl h⟩
      · exact ⟨hb.le, fun _ => hb⟩
      · exact ⟨hb.le, fun _ => hb⟩
    have hi0 : s.i.1 = 0 := by
      by_contra hne
      have := hia.2 hne
      linarith [hib.1]
    have hj0 : s.i.2 = 0 := by
      by_contra hne
      have := hib.2 hne
      linarith [hia.1]
    show (distanceCircles (a.circles s.i.1) _ (b.circles s.i.2) _).2 = 0
    rw [hi0, hj0]
    show (distanceCircles a.position _ b.position _).2 = 0
    rw [hx, distanceCircles_normal_self]
    rfl
  have hc : ∀ (h mu kappa damping : ℝ) (v : Vec),
      forceContact h 0 v (rotate270 0) mu kappa damping = 0 := by
    intro h mu kappa damping v
    ext <;> simp [forceContact, rotate270, dot]
  have hcr : ∀ r : Vec, cross r 0 = 0 := by intro r; simp [cross]
  unfold pairForcesThree
  simp only
  rw [hs, hn]
  simp only [hc, add_zero, sub_zero, ite_self, hcr]

/-- A loop of interactions between circular agents at one place. -/
lemma agentAgentCircular_coincident {n : ℕ} {agents : Crowd n}
    (hx : ∀ i j, (agents i).position = (agents j).position) (pairs : List (Fin n × Fin n)) : agentAgentCircular agents pairs = agents := by
  rw [agentAgentCircular_eq]
  have h : ∀ p : Fin n × Fin n, effectCirc p agents = 0 := by
    intro p
    unfold effectCirc
    rw [pairForces_coincident (hx _ _)]
    have : ((0 : Vec), (0 : ℝ)) = 0 := rfl
    simp only [this, Pi.single_zero, add_zero]
  have h' : (pairs.map fun p => effectCirc p agents).sum = 0 := by
    apply List.sum_eq_zero
    intro x hx'
    obtain ⟨p, -, rfl⟩ := List.mem_map.1 hx'
    exact h p
  rw [h', applyEffect_zero]

/-- A loop of interactions between three-circle agents at one place. -/
lemma agentAgentThreeCircle_coincident {n : ℕ} {agents : Crowd n}
    (hx : ∀ i j, (agents i).position = (agents j).position)
    (hr : ∀ i, 0 ≤ (agents i).rS ∧ (agents i).rS < (agents i).rT)
    (pairs : List (Fin n × Fin n)) : agentAgentThreeCircle agents pairs = agents := by
  rw [agentAgentThreeCircle_eq]
  have h : ∀ p : Fin n × Fin n, effectThree p agents = 0 := by
    intro p
    unfold effectThree
    rw [pairForcesThree_coincident (hx _ _) (hr _).2 (hr _).2 (hr _).1 (hr _).1]
    have : ((0 : Vec), (0 : ℝ)) = 0 := rfl
    simp only [this, Pi.single_zero, add_zero]
  have h' : (pairs.map fun p => effectThree p agents).sum = 0 := by
    apply List.sum_eq_zero
    intro x hx'
    obtain ⟨p, -, rfl⟩ := List.mem_map.1 hx'
    exact h p
  rw [h', applyEffect_zero]

/-! ## The agents of the tests -/

lemma interactionTestAgent_plain (z : ℕ → ℝ → ℝ → ℝ) (kind : Kind) (d : InteractionDraw) :
    (interactionTestAgent z kind d).position = (0, 0) ∧
    (interactionTestAgent z kind d).velocity = d.velocity ∧
    (interactionTestAgent z kind d).force = (0, 0) ∧
    (interactionTestAgent z kind d).mu = 1.2e5 := by
  cases kind <;> exact ⟨rfl, rfl, rfl, rfl⟩

lemma interactionTestAgent_body (z : ℕ → ℝ → ℝ → ℝ) (hz : ∀ k, -3 ≤ z k (-3) 3 ∧ z k (-3) 3 ≤ 3)
    (kind : Kind) (d : InteractionDraw) (hr : 0 < d.radius) (hm : 0 < d.mass) :
    (interactionTestAgent z kind d).radius = d.radius ∧
    (interactionTestAgent z kind d).mass = d.mass ∧
    (interactionTestAgent z kind d).rT = 0.5882 * d.radius ∧
    (interactionTestAgent z kind d).rS = 0.3725 * d.radius ∧
    (interactionTestAgent z kind d).rTs = 0.6275 * d.radius := by
  obtain ⟨o, h, -, h1, h2, h3, h4, h5⟩ := construct_given z hz hr hm
  unfold interactionTestAgent
  simp only
  rw [h]
  cases kind <;> exact ⟨h1, h2, h3, h4, h5⟩

/-- The centres of the discs of a test agent are on the second axis. -/
lemma interactionTestAgent_discs (z : ℕ → ℝ → ℝ → ℝ) (kind : Kind) (d : InteractionDraw)
    (c : Vec × ℝ) (hc : c ∈ Spec.discs kind (interactionTestAgent z kind d)) : c.1.1 = 0 := by
  cases kind
  · simp only [Spec.discs, List.mem_singleton] at hc
    rw [hc]
    exact congrArg Prod.fst (interactionTestAgent_plain z .circular d).1
  · simp only [Spec.discs, List.mem_cons, List.not_mem_nil, or_false] at hc
    rcases hc with rfl | rfl | rfl
    · exact congrArg Prod.fst (interactionTestAgent_plain z .threeCircle d).1
    · simp [interactionTestAgent, Member.row, Member.touch, shoulderOffset, Agent.default,
        Agent.zero, rotate270, unitVector]
    · simp [interactionTestAgent, Member.row, Member.touch, shoulderOffset, Agent.default,
        Agent.zero, rotate270, unitVector]

/-- The force of the wall on a test agent is that of the specification. -/
lemma testAgentObstacle_spec (kind : Kind) (agents : Crowd 1) (p : ℝ × ℝ) :
    ∃ e : Vec × ℝ, Spec.IsWallEffect kind (agents 0) (p.1, p.1) (p.2, p.2) e ∧
      (testAgentObstacle kind agents p 0).force = (agents 0).force + e.1 := by
  cases kind
  · refine ⟨_, wallForce_spec (agents 0) (testWall p), ?_⟩
    unfold testAgentObstacle
    simp only
    rw [agentCircularObstacle_apply]
    simp
  · refine ⟨_, wallForceThree_spec (agents 0) (testWall p), ?_⟩
    unfold testAgentObstacle
    simp only
    rw [agentThreeCircleObstacle_apply]
    simp

end CrowdDynamics
