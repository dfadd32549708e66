import Verif.Spec.IeeeCrowd
import Verif.Proofs.IeeeMotion

/-!
# A lost agent has no influence: helper lemmas
-/

namespace CrowdDynamics

open Spec Real
open scoped Classical

theorem sub_nan (rnd : ℝ → ℝ) (X : F64) : F64.sub rnd X .nan = .nan := by cases X <;> rfl

theorem nan_sub (rnd : ℝ → ℝ) (X : F64) : F64.sub rnd .nan X = .nan := by cases X <;> rfl

theorem mul_nan (rnd : ℝ → ℝ) (X : F64) : F64.mul rnd X .nan = .nan := by cases X <;> rfl

/-! ### No forces between a lost agent and others -/

/-- The difference of two vectors one of which is not a number. -/
theorem vsubI_nan {rnd : ℝ → ℝ} {u v : F64 × F64} {b : Bool}
    (h : axisOf b u = .nan ∨ axisOf b v = .nan) : axisOf b (vsubI rnd u v) = .nan := by
  cases b <;> dsimp only [axisOf, vsubI] at h ⊢ <;> rcases h with h | h <;> rw [h]
  · exact nan_sub ..
  · exact sub_nan ..
  · exact nan_sub ..
  · exact sub_nan ..

theorem hypot_of_nan {A : Arith} {x : F64 × F64} {b : Bool} (h : axisOf b x = .nan) :
    x.1.hypot A x.2 = .nan ∨ x.1.hypot A x.2 = .inf false := by
  obtain ⟨x1, x2⟩ := x
  cases b
  · obtain rfl : x1 = .nan := h
    cases x2
    · exact .inl rfl
    · exact .inr rfl
    · exact .inl rfl
  · obtain rfl : x2 = .nan := h
    cases x1
    · exact .inl rfl
    · exact .inr rfl
    · exact .inl rfl

/-- A distance that is NaN or infinite is never small. -/
theorem not_near {rnd : ℝ → ℝ} {d R : F64} (h : d = .nan ∨ d = .inf false) (s : ℝ) :
    ¬ (F64.num s).gt (d.sub rnd R) := by
  rcases h with rfl | rfl
  · rw [nan_sub]
    exact fun h => h
  · cases R with
    | nan => exact fun h => h
    | inf t =>
      cases t
      · exact fun h => h
      · exact fun h => Bool.noConfusion (show false = true from h)
    | num x => exact fun h => Bool.noConfusion (show false = true from h)

theorem pairForcesG_nan (A : Arith) {ai aj : AgentI} {b : Bool}
    (h : axisOf b ai.position = .nan ∨ axisOf b aj.position = .nan) :
    pairForcesG A ai aj = .ok none := by
  unfold pairForcesG distanceCirclesG
  dsimp only
  rw [if_neg (not_near (hypot_of_nan (vsubI_nan h)) _)]

theorem interactionG_nan {n : ℕ} (A : Arith) {agents : Fin n → AgentI} {i j : Fin n} {b : Bool}
    (h : axisOf b (agents i).position = .nan ∨ axisOf b (agents j).position = .nan)
    (F : Fin n → F64 × F64) : interactionAgentAgentCircularG A agents i j F = .ok F := by
  unfold interactionAgentAgentCircularG
  rw [pairForcesG_nan A h]
  rfl

/-- Pairs with a lost agent do nothing. -/
theorem agentAgentCircularG_filter {n : ℕ} (A : Arith) {agents : Fin n → AgentI} {k : Fin n}
    {b : Bool} (h : axisOf b (agents k).position = .nan) (pairs : List (Fin n × Fin n)) :
    ∀ F, agentAgentCircularG A agents pairs F =
      agentAgentCircularG A agents (pairs.filter (fun p => NotIn k p)) F := by
  unfold agentAgentCircularG
  induction pairs with
  | nil => exact fun F => rfl
  | cons p pairs ih =>
    intro F
    rw [List.foldlM_cons]
    by_cases hp : NotIn k p
    · rw [List.filter_cons_of_pos (by simpa using hp), List.foldlM_cons]
      congr 1
      funext F'
      exact ih F'
    · rw [List.filter_cons_of_neg (by simpa using hp)]
      have : p.1 = k ∨ p.2 = k := by
        unfold NotIn at hp
        tauto
      rw [interactionG_nan A (b := b) (by rcases this with e | e <;> rw [e] <;> tauto)]
      exact ih F

/-! ### No forces of walls on a lost agent -/

theorem dotI_nan {rnd : ℝ → ℝ} (u : F64 × F64) {v : F64 × F64} {b : Bool} (h : axisOf b v = .nan) :
    dotI rnd u v = .nan := by
  unfold dotI
  cases b <;> dsimp only [axisOf] at h <;> rw [h, mul_nan]
  · exact nan_add ..
  · exact add_nan ..

theorem distanceCircleLineG_nan (A : Arith) {x : F64 × F64} {b : Bool} (h : axisOf b x = .nan)
    (r : ℝ) (p0 p1 : Vec) : (distanceCircleLineG A x r p0 p1).1 = .nan := by
  unfold distanceCircleLineG
  dsimp only
  have h0 := vsubI_nan (rnd := A.rnd) (v := (.num p0.1, .num p0.2)) (Or.inl h)
  have h1 := vsubI_nan (rnd := A.rnd) (v := (.num p1.1, .num p1.2)) (Or.inl h)
  rw [dotI_nan _ h0, dotI_nan _ h0, dotI_nan _ h1]
  have e : F64.sub A.rnd (F64.neg .nan) .nan = .nan := rfl
  rw [e]
  have c1 : ∀ X, ¬ F64.gt .nan X := fun X h => h
  have c2 : ∀ X, ¬ F64.gt X .nan := by
    intro X
    cases X <;> exact fun h => h
  rw [if_neg (c1 _), if_neg (c2 _)]
  exact nan_sub ..

/-- The force of one agent after its interaction with a wall. -/
noncomputable def wallForceG (A : Arith) (a : AgentI) (f : F64 × F64) (w : Wall) : F64 × F64 :=
  if (F64.num 0).gt (distanceCircleLineG A a.position a.radius w.p0 w.p1).1 then
    vaddI A.rnd f (forceContactI A.rnd (distanceCircleLineG A a.position a.radius w.p0 w.p1).1
      (distanceCircleLineG A a.position a.radius w.p0 w.p1).2 a.velocity
      (rotate270I (distanceCircleLineG A a.position a.radius w.p0 w.p1).2) (.num a.mu)
      (.num a.kappa) (.num a.damping))
  else f

theorem obstacleG_apply {n : ℕ} (A : Arith) (agents : Fin n → AgentI) (i : Fin n) (w : Wall)
    (F : Fin n → F64 × F64) : interactionAgentCircularObstacleG A agents i w F =
      Function.update F i (wallForceG A (agents i) (F i) w) := by
  unfold interactionAgentCircularObstacleG wallForceG addForceI
  dsimp only
  split_ifs
  · rfl
  · rw [Function.update_eq_self]

theorem obstaclesG_apply {n : ℕ} (A : Arith) (agents : Fin n → AgentI) (i : Fin n)
    (walls : List Wall) : ∀ F : Fin n → F64 × F64,
    walls.foldl (fun force w => interactionAgentCircularObstacleG A agents i w force) F =
      Function.update F i (walls.foldl (wallForceG A (agents i)) (F i)) := by
  induction walls with
  | nil => exact fun F => (Function.update_eq_self ..).symm
  | cons w walls ih =>
    intro F
    rw [List.foldl_cons, List.foldl_cons, ih, obstacleG_apply, Function.update_self,
      Function.update_idem]

/-- A loop over different indices that changes the entry of each index. -/
theorem foldl_update {n : ℕ} {α : Type*} (g : Fin n → α → α) (l : List (Fin n)) (hl : l.Nodup) :
    ∀ F : Fin n → α, l.foldl (fun F i => Function.update F i (g i (F i))) F =
      fun i => if i ∈ l then g i (F i) else F i := by
  induction l with
  | nil => exact fun F => by simp
  | cons j l ih =>
    intro F
    obtain ⟨h1, h2⟩ := List.nodup_cons.1 hl
    rw [List.foldl_cons, ih h2]
    funext i
    by_cases hi : i = j
    · subst hi
      rw [if_neg h1, if_pos (List.mem_cons_self ..), Function.update_self]
    · rw [Function.update_of_ne hi]
      simp only [List.mem_cons, hi, false_or]

theorem agentCircularObstacleG_apply {n : ℕ} (A : Arith) (agents : Fin n → AgentI)
    (walls : List Wall) (F : Fin n → F64 × F64) : agentCircularObstacleG A agents walls F =
      fun i => walls.foldl (wallForceG A (agents i)) (F i) := by
  unfold agentCircularObstacleG
  simp only [obstaclesG_apply]
  rw [foldl_update (fun i f => walls.foldl (wallForceG A (agents i)) f) _ (List.nodup_finRange n)]
  funext i
  rw [if_pos (List.mem_finRange i)]

theorem wallForces_nan (A : Arith) {a : AgentI} {b : Bool} (h : axisOf b a.position = .nan)
    (walls : List Wall) (f : F64 × F64) : walls.foldl (wallForceG A a) f = f := by
  induction walls with
  | nil => rfl
  | cons w walls ih =>
    rw [List.foldl_cons]
    have : wallForceG A a f w = f := by
      unfold wallForceG
      rw [distanceCircleLineG_nan A h]
      exact if_neg (fun h => h)
    rw [this, ih]

/-! ### The adjusting force -/

/-- The adjusting force added to another one. -/
noncomputable def adjustedI (rnd : ℝ → ℝ) (a : AgentI) (e f : F64 × F64) : F64 × F64 :=
  let q := (F64.num a.mass).div rnd (.num a.tauAdj)
  vaddI rnd f (q.mul rnd (((F64.num a.targetVelocity).mul rnd e.1).sub rnd a.velocity.1),
    q.mul rnd (((F64.num a.targetVelocity).mul rnd e.2).sub rnd a.velocity.2))

theorem forceAdjustAgentsI_ok {n : ℕ} (rnd : ℝ → ℝ) (agents : Fin n → AgentI)
    (h : ∀ i, (agents i).tauAdj ≠ 0) (e F : Fin n → F64 × F64) :
    forceAdjustAgentsI rnd agents e F =
      .ok fun i => adjustedI rnd (agents i) (e i) (F i) := by
  unfold forceAdjustAgentsI
  have key : ∀ (l : List (Fin n)) (F : Fin n → F64 × F64),
      l.foldlM (fun force i => do
        let f ← forceAdjustI rnd (agents i).mass (agents i).tauAdj (agents i).targetVelocity
          (e i) (agents i).velocity
        .ok (addForceI rnd force i f)) F =
      (.ok (l.foldl (fun F i => Function.update F i (adjustedI rnd (agents i) (e i) (F i))) F) :
        Except PyErr _) := by
    intro l
    induction l with
    | nil => exact fun F => rfl
    | cons i l ih =>
      intro F
      rw [List.foldlM_cons, List.foldl_cons, ← ih]
      unfold forceAdjustI F64.sdiv
      rw [if_neg (fun hz => h i (F64.num.inj hz))]
      rfl
  rw [key, foldl_update (fun i f => adjustedI rnd (agents i) (e i) f) _ (List.nodup_finRange n)]
  congr 1
  funext i
  rw [if_pos (List.mem_finRange i)]

theorem forceAdjustAgentsI_error {n : ℕ} (rnd : ℝ → ℝ) (agents : Fin n → AgentI) {j : Fin n}
    (h : (agents j).tauAdj = 0) (e F : Fin n → F64 × F64) :
    forceAdjustAgentsI rnd agents e F = .error .other := by
  unfold forceAdjustAgentsI
  have key : ∀ (l : List (Fin n)), j ∈ l → ∀ (F : Fin n → F64 × F64),
      l.foldlM (fun force i => do
        let f ← forceAdjustI rnd (agents i).mass (agents i).tauAdj (agents i).targetVelocity
          (e i) (agents i).velocity
        .ok (addForceI rnd force i f)) F = (.error .other : Except PyErr _) := by
    intro l
    induction l with
    | nil => exact fun h => absurd h (List.not_mem_nil)
    | cons i l ih =>
      intro hj F
      rw [List.foldlM_cons]
      by_cases hi : (agents i).tauAdj = 0
      · unfold forceAdjustI F64.sdiv
        rw [if_pos (by rw [hi])]
        rfl
      · unfold forceAdjustI F64.sdiv
        rw [if_neg (fun hz => hi (F64.num.inj hz))]
        have : j ∈ l := by
          rcases List.mem_cons.1 hj with rfl | hj
          · exact absurd h hi
          · exact hj
        exact ih this _
  exact key _ (List.mem_finRange j) F

/-! ### One update -/

/-- What an update leaves as it is. -/
theorem updateI_kept {n : ℕ} {A : Arith} {walls : List Wall} {dtMin dtMax : ℝ} {inp : StepInput n}
    {agents R : Fin n → AgentI} (h : updateI A walls dtMin dtMax inp agents = .ok R) (i : Fin n) :
    (R i).targetVelocity = (agents i).targetVelocity ∧ (R i).tauAdj = (agents i).tauAdj ∧
      ∀ b, Lost b (agents i).toRowI → Lost b (R i).toRowI := by
  unfold updateI at h
  simp only [bind, Except.bind] at h
  split at h
  · cases h
  split at h
  · cases h
  unfold velocityVerletIntegratorI at h
  simp only [bind, Except.bind] at h
  split at h
  · cases h
  next heq =>
  split at heq
  · cases heq
  cases heq
  cases h
  exact ⟨rfl, rfl, fun b hb => verlet_lost (Or.inl hb.2)⟩

theorem updateI_avoiding {n : ℕ} (A : Arith) (walls : List Wall) (dtMin dtMax : ℝ)
    (inp : StepInput n) {agents : Fin n → AgentI} {k : Fin n} {b : Bool}
    (h : axisOf b (agents k).position = .nan) :
    updateI A walls dtMin dtMax inp agents =
      updateI A walls dtMin dtMax (avoiding k inp) agents := by
  unfold updateI
  dsimp only [avoiding]
  simp only [agentAgentCircularG_filter A h inp.pairs]

theorem runI_avoiding {n : ℕ} (A : Arith) (walls : List Wall) (dtMin dtMax : ℝ)
    (inputs : List (StepInput n)) {k : Fin n} {b : Bool} : ∀ {agents : Fin n → AgentI},
    Lost b (agents k).toRowI →
    runI A walls dtMin dtMax inputs agents =
        runI A walls dtMin dtMax (inputs.map (avoiding k)) agents ∧
      ∀ R, runI A walls dtMin dtMax inputs agents = .ok R → Lost b (R k).toRowI := by
  induction inputs with
  | nil =>
    intro agents h
    refine ⟨rfl, fun R hR => ?_⟩
    cases hR
    exact h
  | cons inp inputs ih =>
    intro agents h
    unfold runI
    rw [List.map_cons, List.foldlM_cons, List.foldlM_cons, ← updateI_avoiding A walls _ _ inp h.1]
    cases e : updateI A walls dtMin dtMax inp agents with
    | error err => exact ⟨rfl, fun R hR => by cases hR⟩
    | ok R' => exact ih ((updateI_kept e k).2.2 b h)

/-! ### The crowd without the agent -/

theorem addForceI_comp {n : ℕ} (rnd : ℝ → ℝ) (k : Fin (n + 1)) (F : Fin (n + 1) → F64 × F64)
    (i : Fin n) (f : F64 × F64) : (fun j => addForceI rnd F (k.succAbove i) f (k.succAbove j)) =
      addForceI rnd (fun j => F (k.succAbove j)) i f := by
  unfold addForceI
  funext j
  by_cases hj : j = i
  · subst hj
    rw [Function.update_self, Function.update_self]
  · rw [Function.update_of_ne hj,
      Function.update_of_ne (fun h => hj (Fin.succAbove_right_injective h))]

theorem agentAgentCircularG_comp {n : ℕ} (A : Arith) (k : Fin (n + 1))
    (agents : Fin (n + 1) → AgentI) (pairs : List (Fin n × Fin n)) :
    ∀ F : Fin (n + 1) → F64 × F64,
    (agentAgentCircularG A agents
        (pairs.map fun p => (k.succAbove p.1, k.succAbove p.2)) F).map
        (fun F i => F (k.succAbove i)) =
      agentAgentCircularG A (fun i => agents (k.succAbove i)) pairs
        (fun i => F (k.succAbove i)) := by
  unfold agentAgentCircularG
  induction pairs with
  | nil => exact fun F => rfl
  | cons p pairs ih =>
    intro F
    rw [List.map_cons, List.foldlM_cons, List.foldlM_cons]
    unfold interactionAgentAgentCircularG at ih ⊢
    dsimp only
    cases pairForcesG A (agents (k.succAbove p.1)) (agents (k.succAbove p.2)) with
    | error err => rfl
    | ok o =>
      cases o with
      | none => exact ih F
      | some f =>
        refine (ih _).trans ?_
        rw [addForceI_comp, addForceI_comp]
        rfl

theorem updateI_without {n : ℕ} {A : Arith} (hr : A.rnd = fl64) (walls : List Wall) {dt : ℝ}
    (h0 : 0 ≤ dt) (h1 : dt ≤ 2 ^ (10 : ℤ)) {k : Fin (n + 1)} {I : StepInput (n + 1)}
    {J : StepInput n} (hIJ : Without k I J) {agents : Fin (n + 1) → AgentI} {b : Bool}
    (h : axisOf b (agents k).position = .nan) (hk : (agents k).tauAdj ≠ 0)
    (ht : ∀ i, |(agents i).targetVelocity| ≤ 2 ^ (10 : ℤ)) :
    (updateI A walls dt dt I agents).map (fun R i => R (k.succAbove i)) =
      updateI A walls dt dt J (fun i => agents (k.succAbove i)) := by
  obtain ⟨j1, j2, j3⟩ := hIJ
  have f1 : J.fluctuation = fun i => I.fluctuation (k.succAbove i) := funext j1
  have f2 : J.direction = fun i => I.direction (k.succAbove i) := funext j2
  unfold updateI
  rw [f1, f2]
  simp only [bind, Except.bind]
  by_cases hz : ∃ i, (agents (k.succAbove i)).tauAdj = 0
  · obtain ⟨i, hi⟩ := hz
    rw [forceAdjustAgentsI_error _ agents hi,
      forceAdjustAgentsI_error _ (fun i => agents (k.succAbove i)) hi]
    rfl
  push Not at hz
  have hz' : ∀ i, (agents i).tauAdj ≠ 0 := by
    intro i
    by_cases hi : i = k
    · rw [hi]
      exact hk
    · obtain ⟨j, rfl⟩ := Fin.exists_succAbove_eq hi
      exact hz j
  rw [forceAdjustAgentsI_ok _ agents hz',
    forceAdjustAgentsI_ok _ (fun i => agents (k.succAbove i)) hz]
  dsimp only
  rw [agentAgentCircularG_filter A h I.pairs, ← j3]
  have c := agentAgentCircularG_comp A k agents J.pairs (fun i => adjustedI A.rnd (agents i)
    (I.direction i) (vaddI A.rnd (agents i).force (I.fluctuation i)))
  rw [← c]
  cases agentAgentCircularG A agents (J.pairs.map fun p => (k.succAbove p.1, k.succAbove p.2))
    (fun i => adjustedI A.rnd (agents i) (I.direction i)
      (vaddI A.rnd (agents i).force (I.fluctuation i))) with
  | error err => rfl
  | ok F =>
    simp only [Except.map]
    rw [agentCircularObstacleG_apply, agentCircularObstacleG_apply]
    unfold velocityVerletIntegratorI
    simp only [bind, Except.bind]
    obtain ⟨s, es, l, u⟩ := adaptiveTimestepI_num hr (fun i => { (agents i).toRowI with
      force := walls.foldl (wallForceG A (agents i)) (F i) }) h0 le_rfl h1 ht
    obtain ⟨s', es', l', u'⟩ := adaptiveTimestepI_num hr (fun i =>
      { (agents (k.succAbove i)).toRowI with
        force := walls.foldl (wallForceG A (agents (k.succAbove i))) (F (k.succAbove i)) })
      h0 le_rfl h1 (fun i => ht _)
    rw [es, es']
    obtain rfl : s = dt := le_antisymm u l
    obtain rfl : s' = s := le_antisymm u' l'
    rfl

theorem runI_without {n : ℕ} {A : Arith} (hr : A.rnd = fl64) (walls : List Wall) {dt : ℝ}
    (h0 : 0 ≤ dt) (h1 : dt ≤ 2 ^ (10 : ℤ)) {k : Fin (n + 1)} {b : Bool}
    {inputs : List (StepInput (n + 1))} {rest : List (StepInput n)}
    (hI : List.Forall₂ (Without k) inputs rest) : ∀ {agents : Fin (n + 1) → AgentI},
    Lost b (agents k).toRowI → (agents k).tauAdj ≠ 0 →
    (∀ i, |(agents i).targetVelocity| ≤ 2 ^ (10 : ℤ)) →
    (runI A walls dt dt inputs agents).map (fun R i => R (k.succAbove i)) =
      runI A walls dt dt rest (fun i => agents (k.succAbove i)) := by
  induction hI with
  | nil => exact fun _ _ _ => rfl
  | cons hIJ _ ih =>
    intro agents h hk ht
    have s := updateI_without hr walls h0 h1 hIJ h.1 hk ht
    unfold runI at ih ⊢
    rw [List.foldlM_cons, List.foldlM_cons, ← s]
    cases e : updateI A walls dt dt _ agents with
    | error err => rfl
    | ok R =>
      refine ih ((updateI_kept e k).2.2 b h) ?_ fun i => ?_
      · rw [(updateI_kept e k).2.1]
        exact hk
      · rw [(updateI_kept e i).1]
        exact ht i

/-! ### Finite agents -/

theorem pairForcesG_finite (A : Arith) (ai aj : Agent) :
    pairForcesG A (finiteAgent ai) (finiteAgent aj) = pairForcesI A ai aj := rfl

theorem agentAgentCircularG_finite {n : ℕ} (A : Arith) (agents : Crowd n)
    (pairs : List (Fin n × Fin n)) (F : Fin n → F64 × F64) :
    agentAgentCircularG A (fun i => finiteAgent (agents i)) pairs F =
      agentAgentCircularI A agents pairs F := rfl

theorem agentCircularObstacleG_finite {n : ℕ} (A : Arith) (agents : Crowd n) (walls : List Wall)
    (F : Fin n → F64 × F64) :
    agentCircularObstacleG A (fun i => finiteAgent (agents i)) walls F =
      agentCircularObstacleI A agents walls F := rfl

end CrowdDynamics
