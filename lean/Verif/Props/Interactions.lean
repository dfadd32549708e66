import Verif.Proofs.Interactions

/-! # Properties of the contact forces and interactions (C28 to C31) -/

namespace CrowdDynamics

open Real

variable {n : ℕ}

/-! ## C28: contact forces -/

/-- **C28** (full statement): for an overlap the elastic part pushes along the normal, and
neither the friction part nor the damping part adds kinetic energy. (`v` is the velocity of
the body relative to the other one; the power of a force is its inner product with `v`.) -/
def C28_statement : Prop := ∀ (h : ℝ) (m v t : Vec) (mu kappa damping : ℝ),
  h < 0 → 0 < mu → 0 ≤ kappa → 0 ≤ damping →
  (∃ s : ℝ, 0 < s ∧ forceContact h m v t mu 0 0 = s • m) ∧
  Spec.inner (forceContact h m v t 0 kappa 0) v ≤ 0 ∧
  Spec.inner (forceContact h m v t 0 0 damping) v ≤ 0

/-- **C28** fails: the damping part of two bodies in contact that separate at speed 1
accelerates them. -/
theorem C28_damping_accelerates_fails : ¬ C28_statement := by
  intro h
  have := (h (-1) (1, 0) (1, 0) (0, -1) 1 0 1 (by norm_num) (by norm_num) le_rfl
    (by norm_num)).2.2
  norm_num [forceContact, Spec.inner, dot] at this

/-- **C28**, what holds (1): the force is the sum of its three parts. -/
theorem C28_parts_partial (h : ℝ) (m v t : Vec) (mu kappa damping : ℝ) :
    forceContact h m v t mu kappa damping = forceContact h m v t mu 0 0 +
      forceContact h m v t 0 kappa 0 + forceContact h m v t 0 0 damping := by
  unfold forceContact
  ext <;> simp <;> ring

/-- **C28**, what holds (2): the elastic part pushes along the normal. -/
theorem C28_elastic_pushes_partial (h : ℝ) (m v t : Vec) (mu : ℝ) (hh : h < 0) (hmu : 0 < mu) :
    ∃ s : ℝ, 0 < s ∧ forceContact h m v t mu 0 0 = s • m := by
  refine ⟨-h * mu, mul_pos (neg_pos.2 hh) hmu, ?_⟩
  unfold forceContact
  ext <;> simp <;> ring

example := C28_elastic_pushes_partial (-0.1) (1, 0) (-1, 0.5) (0, 1) 120000 (by norm_num)
  (by norm_num)

/-- **C28**, what holds (3): the friction part acts along the tangent, never adds kinetic
energy and removes some as soon as the bodies slide. -/
theorem C28_friction_dissipates_partial (h : ℝ) (m v t : Vec) (kappa : ℝ) (hh : h < 0)
    (hk : 0 < kappa) :
    (∃ s : ℝ, forceContact h m v t 0 kappa 0 = s • t) ∧
      Spec.inner (forceContact h m v t 0 kappa 0) v ≤ 0 ∧
      (Spec.inner v t ≠ 0 → Spec.inner (forceContact h m v t 0 kappa 0) v < 0) := by
  have e : Spec.inner (forceContact h m v t 0 kappa 0) v = -(-h * kappa * Spec.inner v t ^ 2) := by
    simp [forceContact, Spec.inner, dot]; ring
  have hp : 0 < -h * kappa := mul_pos (neg_pos.2 hh) hk
  refine ⟨⟨h * kappa * dot v t, ?_⟩, ?_, ?_⟩
  · unfold forceContact
    ext <;> simp <;> ring
  · rw [e]
    have := mul_nonneg hp.le (sq_nonneg (Spec.inner v t))
    linarith
  · intro hne
    rw [e]
    have := mul_pos hp (sq_pos_of_ne_zero hne)
    linarith

example := C28_friction_dissipates_partial (-0.1) (1, 0) (-1, 0.5) (0, 1) 40000 (by norm_num)
  (by norm_num)

/-- **C28**, what the damping part does instead: its power is `damping (v · n)²`, so it never
removes kinetic energy and adds some as soon as the bodies move along the normal. -/
theorem C28_damping_power_partial (h : ℝ) (m v t : Vec) (damping : ℝ) :
    Spec.inner (forceContact h m v t 0 0 damping) v = damping * Spec.inner v m ^ 2 := by
  simp [forceContact, Spec.inner, dot]; ring

/-- **C28** Two overlapping circular agents without relative velocity are pushed apart along
the line of their centres, each with its own stiffness. -/
theorem C28_overlapping_pushed_apart_partial (agents : Crowd n) (i j : Fin n) (hij : i ≠ j)
    (hne : (agents i).position ≠ (agents j).position)
    (hv : (agents i).velocity = (agents j).velocity)
    (ho : Spec.dist (agents i).position (agents j).position <
      (agents i).radius + (agents j).radius) :
    ∃ u : Vec, Spec.len u = 1 ∧ Spec.SameDirection u ((agents i).position - (agents j).position) ∧
      (interactionAgentAgentCircular i j agents i).force = (agents i).force +
        ((agents i).mu * ((agents i).radius + (agents j).radius -
          Spec.dist (agents i).position (agents j).position)) • u ∧
      (interactionAgentAgentCircular i j agents j).force = (agents j).force -
        ((agents j).mu * ((agents i).radius + (agents j).radius -
          Spec.dist (agents i).position (agents j).position)) • u := by
  obtain ⟨h1, h2⟩ := distanceCircles_normal (agents i).position (agents i).radius
    (agents j).position (agents j).radius hne
  have hs : forceSocialCircular (agents i) (agents j) = (0, 0) := by
    rw [forceSocialCircular_eq, hv, sub_self]
    have : timeToCollisionCircleCircle ((agents i).position - (agents j).position) 0
        ((agents i).radius + (agents j).radius) = none := by
      unfold timeToCollisionCircleCircle
      simp only
      cases npSqrt ((-dot ((agents i).position - (agents j).position) 0) ^ 2 -
        dot 0 0 * (dot ((agents i).position - (agents j).position)
          ((agents i).position - (agents j).position) -
            ((agents i).radius + (agents j).radius) ^ 2)) with
      | none => rfl
      | some d => simp [dot]
    rw [this]
  have hf := distanceCircles_fst (agents i).position (agents i).radius (agents j).position
    (agents j).radius
  have hd : (distanceCircles (agents i).position (agents i).radius (agents j).position
    (agents j).radius).1 < 0 := by rw [hf]; linarith
  have e := interactionCirc_eq (i, j) agents
  have hp : pairForces (agents i) (agents j) =
      (((agents i).mu * ((agents i).radius + (agents j).radius -
          Spec.dist (agents i).position (agents j).position)) • (distanceCircles
            (agents i).position (agents i).radius (agents j).position (agents j).radius).2,
        -(((agents j).mu * ((agents i).radius + (agents j).radius -
          Spec.dist (agents i).position (agents j).position)) • (distanceCircles
            (agents i).position (agents i).radius (agents j).position (agents j).radius).2)) := by
    unfold pairForces
    simp only
    rw [if_pos (by unfold sigthSoc; linarith), if_pos hd, hs, hv, sub_self, hf]
    unfold forceContact dot
    simp only [Prod.fst_zero, Prod.snd_zero, zero_mul, add_zero, mul_zero, zero_smul, sub_zero]
    ext <;> simp <;> ring
  refine ⟨_, h1, ⟨Spec.dist (agents i).position (agents j).position, 1, ?_, one_pos, ?_⟩, ?_, ?_⟩
  · exact length_pos (sub_ne_zero.2 hne)
  · rw [h2, one_smul]
  · simp only at e
    rw [e]
    unfold applyEffect effectCirc
    simp only [Pi.add_apply, Pi.single_eq_same, Pi.single_eq_of_ne hij, add_zero]
    rw [hp]
  · simp only at e
    rw [e]
    unfold applyEffect effectCirc
    simp only [Pi.add_apply, Pi.single_eq_same, Pi.single_eq_of_ne hij.symm, zero_add]
    rw [hp]
    exact (sub_eq_add_neg _ _).symm

example : (-1 : ℝ) < 0 ∧ (0 : ℝ) < 120000 ∧ (0 : ℝ) < 40000 := by norm_num

example : ∃ agents : Crowd 2, (agents 0).position ≠ (agents 1).position ∧
    (agents 0).velocity = (agents 1).velocity ∧
    Spec.dist (agents 0).position (agents 1).position < (agents 0).radius + (agents 1).radius := by
  refine ⟨![exampleWalker (0, 0) (1, 0), exampleWalker (1 / 2, 0) (1, 0)], ?_, rfl, ?_⟩
  · intro h
    have := congrArg Prod.fst h
    norm_num [exampleWalker] at this
  · have : Spec.dist ((0, 0) : Vec) (1 / 2, 0) = 1 / 2 := by
      rw [Spec.dist, Spec.len, sqrt_eq_iff_mul_self_eq (by positivity) (by norm_num)]
      norm_num
    simp only [Matrix.cons_val_zero, Matrix.cons_val_one, exampleWalker]
    rw [this]
    norm_num

/-! ## C29: momentum, order of pairs, frame condition -/

/-- **C29** Circular agents with equal parameters: the sum of all forces does not change. -/
theorem C29_circular_momentum (agents : Crowd n) (pairs : List (Fin n × Fin n))
    (h : ∀ p ∈ pairs, Spec.SamePhysics (agents p.1) (agents p.2)) :
    ∑ k, (agentAgentCircular agents pairs k).force = ∑ k, (agents k).force := by
  rw [agentAgentCircular_eq]
  refine sum_force_applyEffect _ _ (sum_effect_list _ _ fun p hp => ?_)
  simp only [effectCirc, Pi.add_apply, Prod.fst_add, Finset.sum_add_distrib, sum_fst_single]
  exact pairForces_opposite (h p hp)

example := C29_circular_momentum ![exampleWalker (0, 0) (1, 0), exampleWalker (0.5, 0) (-1, 0)]
  [(0, 1)] (by simp [exampleWalker, Spec.SamePhysics])

/-- **C29** Three-circle agents with equal parameters: the sum of all forces does not
change. -/
theorem C29_threeCircle_momentum (agents : Crowd n) (pairs : List (Fin n × Fin n))
    (h : ∀ p ∈ pairs, Spec.SamePhysics (agents p.1) (agents p.2)) :
    ∑ k, (agentAgentThreeCircle agents pairs k).force = ∑ k, (agents k).force := by
  rw [agentAgentThreeCircle_eq]
  refine sum_force_applyEffect _ _ (sum_effect_list _ _ fun p hp => ?_)
  simp only [effectThree, Pi.add_apply, Prod.fst_add, Finset.sum_add_distrib, sum_fst_single]
  exact pairForcesThree_opposite (h p hp)

/-- **C29** The order of the pairs does not matter. -/
theorem C29_pair_order (agents : Crowd n) {l l' : List (Fin n × Fin n)} (h : l.Perm l') :
    agentAgentCircular agents l = agentAgentCircular agents l' ∧
      agentAgentThreeCircle agents l = agentAgentThreeCircle agents l' := by
  rw [agentAgentCircular_eq, agentAgentCircular_eq, agentAgentThreeCircle_eq,
    agentAgentThreeCircle_eq, (h.map _).sum_eq, (h.map fun p => effectThree p agents).sum_eq]
  exact ⟨rfl, rfl⟩

example := C29_pair_order (fun i : Fin 3 => exampleWalker (i, 0) (1, 0))
  (List.Perm.swap ((0 : Fin 3), (1 : Fin 3)) (1, 2) [])

/-- **C29** Circular interactions change nothing but forces. -/
theorem C29_circular_frame (agents : Crowd n) (pairs : List (Fin n × Fin n)) (k : Fin n) :
    Spec.OnlyForceDiffers (agents k) (agentAgentCircular agents pairs k) := by
  rw [agentAgentCircular_eq]
  have : ((pairs.map fun p => effectCirc p agents).sum k).2 = 0 := by
    induction pairs with
    | nil => rfl
    | cons p l ih =>
      rw [List.map_cons, List.sum_cons, Pi.add_apply, Prod.snd_add, ih, add_zero]
      unfold effectCirc
      rw [Pi.add_apply, Prod.snd_add]
      by_cases h1 : k = p.1 <;> by_cases h2 : k = p.2 <;> simp [h1, h2, Pi.single_apply]
      all_goals split_ifs <;> rfl
  unfold Spec.OnlyForceDiffers applyEffect
  simp only [this, add_zero]

/-- **C29** Three-circle interactions change nothing but forces and torques. -/
theorem C29_threeCircle_frame (agents : Crowd n) (pairs : List (Fin n × Fin n)) (k : Fin n) :
    Spec.OnlyForcesDiffer (agents k) (agentAgentThreeCircle agents pairs k) := by
  rw [agentAgentThreeCircle_eq]
  rfl

example : Spec.SamePhysics (exampleWalker (0, 0) (1, 0)) (exampleWalker (5, 1) (-1, 0)) :=
  ⟨rfl, rfl, rfl, rfl, rfl, rfl⟩

example : [((0 : Fin 3), (1 : Fin 3)), (1, 2)].Perm [(1, 2), (0, 1)] := List.Perm.swap _ _ _

/-! ## C30: cell lists -/

/-- **C30** Circular agents that are farther apart than sight distance and radii do not
influence each other. -/
theorem C30_circular_far (agents : Crowd n) (i j : Fin n)
    (h : 3 + ((agents i).radius + (agents j).radius) ≤
      Spec.dist (agents i).position (agents j).position) :
    interactionAgentAgentCircular i j agents = agents := by
  have e := interactionCirc_eq (i, j) agents
  rw [effectCirc_far h, applyEffect_zero] at e
  exact e

example := C30_circular_far ![exampleWalker (0, 0) (1, 0), exampleWalker (9, 0) (-1, 0)] 0 1 (by
  have : Spec.dist ((0, 0) : Vec) (9, 0) = 9 := by
    rw [Spec.dist, Spec.len, sqrt_eq_iff_mul_self_eq (by positivity) (by norm_num)]
    norm_num
  simp only [Matrix.cons_val_zero, Matrix.cons_val_one, exampleWalker]
  rw [this]
  norm_num)

/-- **C30** The same for three-circle agents whose discs lie within `ri` and `rj` of the
centre. -/
theorem C30_threeCircle_far (agents : Crowd n) (i j : Fin n) (ri rj : ℝ)
    (hi : Spec.BodyWithin .threeCircle (agents i) ri)
    (hj : Spec.BodyWithin .threeCircle (agents j) rj)
    (h : 3 + (ri + rj) ≤ Spec.dist (agents i).position (agents j).position) :
    interactionAgentAgentThreeCircle i j agents = agents := by
  have e := interactionThree_eq (i, j) agents
  rw [effectThree_far hi hj h, applyEffect_zero] at e
  exact e

/-- **C30** For circular agents the pairs of the cell list give the same result as all pairs
`i < j`, in whatever order and orientation the cell list yields the pairs. -/
theorem C30_circular_cells (cellPairs : (Fin n → Vec) → ℝ → List (Fin n × Fin n))
    (A : AgentArray n) (c : ℝ) (hc : 0 < c)
    (hcells : Spec.EnumeratesNeighbours (fun i => (A.rows i).position) c
      (cellPairs (fun i => (A.rows i).position) c))
    (hA : isModel A .circular = true)
    (hsize : ∀ i j, i ≠ j → 3 + ((A.rows i).radius + (A.rows j).radius) ≤ c) :
    agentAgentBlockList cellPairs A c =
      some { A with rows := agentAgentCircular A.rows (Spec.allPairs n) } := by
  have hall := enumeratesAll_allPairs (n := n)
  obtain ⟨o, ho⟩ := hcells.complete
  unfold agentAgentBlockList
  simp only
  rw [if_pos hA, agentAgentCircular_eq, agentAgentCircular_eq, sum_circ_congr A.rows _ _
    hcells.once hall.once hcells.distinct hall.distinct]
  intro i j hij hne
  refine ⟨?_, hall.complete i j hij⟩
  have hd : Spec.dist (A.rows i).position (A.rows j).position ≤ c := by
    by_contra hcon
    exact hne (effectCirc_far ((hsize i j hij).trans (not_le.1 hcon).le))
  obtain ⟨h1, h2⟩ := cells_close (o := o) hc hd
  exact ho i j hij h1 h2

/-- **C30** For three-circle agents the pairs of the cell list give the same result as any
enumeration of all pairs that has the same orientation of the pairs (orientation matters,
see C26). -/
theorem C30_threeCircle_cells (cellPairs : (Fin n → Vec) → ℝ → List (Fin n × Fin n))
    (A : AgentArray n) (c : ℝ) (hc : 0 < c)
    (hcells : Spec.EnumeratesNeighbours (fun i => (A.rows i).position) c
      (cellPairs (fun i => (A.rows i).position) c))
    (hA : isModel A .circular = false) (hA' : isModel A .threeCircle = true)
    (r : Fin n → ℝ) (hr : ∀ i, Spec.BodyWithin .threeCircle (A.rows i) (r i))
    (hsize : ∀ i j, i ≠ j → 3 + (r i + r j) ≤ c)
    (all : List (Fin n × Fin n)) (hall : Spec.EnumeratesAll all)
    (hsub : cellPairs (fun i => (A.rows i).position) c ⊆ all) :
    agentAgentBlockList cellPairs A c =
      some { A with rows := agentAgentThreeCircle A.rows all } := by
  obtain ⟨o, ho⟩ := hcells.complete
  unfold agentAgentBlockList
  simp only
  rw [if_neg (by rw [hA]; simp), if_pos hA', agentAgentThreeCircle_eq, agentAgentThreeCircle_eq,
    sum_three_congr A.rows _ _ (nodup_of_sym hcells.once) (nodup_of_sym hall.once) hsub]
  rintro ⟨i, j⟩ hp hnot
  have hij : i ≠ j := hall.distinct _ hp
  by_cases hd : Spec.dist (A.rows i).position (A.rows j).position ≤ c
  · exfalso
    obtain ⟨h1, h2⟩ := cells_close (o := o) hc hd
    rcases ho i j hij h1 h2 with h | h
    · exact hnot h
    · -- the reversed pair would occur as well
      have h' := hsub h
      have := List.inj_on_of_nodup_map hall.once hp h' Sym2.eq_swap
      exact hij (Prod.mk.inj this).1
  · exact effectThree_far (hr i) (hr j) ((hsize i j hij).trans (not_le.1 hd).le)

/-- The contract is met by the list of all pairs, for every cell size. -/
example (pos : Fin n → ℝ × ℝ) (c : ℝ) : Spec.EnumeratesNeighbours pos c (Spec.allPairs n) :=
  ⟨enumeratesAll_allPairs.distinct, enumeratesAll_allPairs.once,
    ⟨0, fun i j hij _ _ => enumeratesAll_allPairs.complete i j hij⟩⟩

/-- It is also met by lists that omit far pairs: here the pair at distance 100 is missing. -/
example : Spec.EnumeratesNeighbours ![((0 : ℝ), (0 : ℝ)), (1, 0), (100, 0)] 4
    [((1 : Fin 3), (0 : Fin 3))] := by
  refine ⟨by simp, by simp, ⟨0, ?_⟩⟩
  have h0 : ⌊(0 : ℝ)⌋ = 0 := by simp
  have h1 : ⌊((1 : ℝ) / 4)⌋ = 0 := by rw [Int.floor_eq_iff]; norm_num
  have h2 : ⌊((100 : ℝ) / 4)⌋ = 25 := by rw [Int.floor_eq_iff]; norm_num
  have k1 : ⌊(4 : ℝ)⁻¹⌋ = 0 := by rw [← one_div]; exact h1
  intro i j hij
  fin_cases i <;> fin_cases j <;> simp at hij ⊢ <;> simp [h2, k1]

example : ∃ A : AgentArray 2, isModel A .circular = true ∧
    ∀ i j, i ≠ j → 3 + ((A.rows i).radius + (A.rows j).radius) ≤ (4 : ℝ) :=
  ⟨⟨.const .circular, ![exampleWalker (0, 0) (1, 0), exampleWalker (7, 0) (1, 0)]⟩, rfl, by
    intro i j _
    fin_cases i <;> fin_cases j <;> norm_num [exampleWalker]⟩

/-- Three-circle agents within 1 of their centres and cells of size 5. -/
example : ∃ (A : AgentArray 2) (r : Fin 2 → ℝ), isModel A .circular = false ∧
    isModel A .threeCircle = true ∧ (∀ i, Spec.BodyWithin .threeCircle (A.rows i) (r i)) ∧
    ∀ i j, i ≠ j → 3 + (r i + r j) ≤ (5 : ℝ) := by
  refine ⟨⟨.const .threeCircle, ![exampleThree 0 1, exampleThree 7 (-1)]⟩, fun _ => 1, rfl, rfl,
    ?_, fun _ _ _ => by norm_num⟩
  have h1 : ∀ x vx : ℝ, Spec.BodyWithin .threeCircle (exampleThree x vx) 1 := by
    intro x vx d hd
    have a0 : Spec.dist ((x, 0) : Vec) (x, 0) = 0 := by simp [Spec.dist, Spec.len]
    have a1 : Spec.dist ((x, 0) : Vec) (x, 1 / 2) = 1 / 2 := by
      rw [Spec.dist, Spec.len, sqrt_eq_iff_mul_self_eq (by positivity) (by norm_num)]
      norm_num
    have a2 : Spec.dist ((x, 0) : Vec) (x, -1 / 2) = 1 / 2 := by
      rw [Spec.dist, Spec.len, sqrt_eq_iff_mul_self_eq (by positivity) (by norm_num)]
      norm_num
    simp only [Spec.discs, exampleThree, List.mem_cons, List.not_mem_nil, or_false] at hd
    rcases hd with rfl | rfl | rfl <;> simp only [exampleThree]
    · rw [a0]; norm_num
    · rw [a1]; norm_num
    · rw [a2]; norm_num
  intro i
  fin_cases i
  · exact h1 0 1
  · exact h1 7 (-1)

/-! ## C31: walls -/

/-- **C31** Circular agents: each agent gets exactly the sum of the effects of the walls. -/
theorem C31_circular_walls (agents : Crowd n) (obstacles : List Wall) (k : Fin n) :
    ∃ F : Wall → Vec × ℝ,
      (∀ w, Spec.IsWallEffect .circular (agents k) w.p0 w.p1 (F w)) ∧
      agentCircularObstacle agents obstacles k =
        { agents k with force := (agents k).force + (obstacles.map fun w => (F w).1).sum } :=
  ⟨fun w => (wallForce (agents k) w, 0), fun w => wallForce_spec (agents k) w,
    agentCircularObstacle_apply agents obstacles k⟩

/-- **C31** Three-circle agents: each agent gets exactly the sum of the forces and torques of
the walls. -/
theorem C31_threeCircle_walls (agents : Crowd n) (obstacles : List Wall) (k : Fin n) :
    ∃ F : Wall → Vec × ℝ,
      (∀ w, Spec.IsWallEffect .threeCircle (agents k) w.p0 w.p1 (F w)) ∧
      agentThreeCircleObstacle agents obstacles k =
        { agents k with
          force := (agents k).force + (obstacles.map F).sum.1
          torque := (agents k).torque + (obstacles.map F).sum.2 } :=
  ⟨wallForceThree (agents k), fun w => wallForceThree_spec (agents k) w,
    agentThreeCircleObstacle_apply agents obstacles k⟩

/-- **C31** The order of the walls does not matter. -/
theorem C31_wall_order (agents : Crowd n) {l l' : List Wall} (h : l.Perm l') :
    agentCircularObstacle agents l = agentCircularObstacle agents l' ∧
      agentThreeCircleObstacle agents l = agentThreeCircleObstacle agents l' := by
  constructor
  · funext k
    rw [agentCircularObstacle_apply, agentCircularObstacle_apply, (h.map _).sum_eq]
  · funext k
    rw [agentThreeCircleObstacle_apply, agentThreeCircleObstacle_apply, (h.map _).sum_eq]

example := C31_wall_order (fun i : Fin 3 => exampleWalker (i, 0) (1, 0))
  (List.Perm.swap (⟨(0, 1), (3, 1)⟩ : Wall) ⟨(0, -1), (3, -1)⟩ [])

/-- **C31** The order of the agents does not matter: renumbering the agents renumbers the
result. -/
theorem C31_agent_order (agents : Crowd n) (obstacles : List Wall) (s : Equiv.Perm (Fin n)) :
    agentCircularObstacle (agents ∘ s) obstacles = agentCircularObstacle agents obstacles ∘ s ∧
      agentThreeCircleObstacle (agents ∘ s) obstacles =
        agentThreeCircleObstacle agents obstacles ∘ s := by
  constructor
  · funext k
    simp only [Function.comp_apply, agentCircularObstacle_apply]
  · funext k
    simp only [Function.comp_apply, agentThreeCircleObstacle_apply]

/-- **C31** Agents that overlap no wall are unchanged. -/
theorem C31_clear_unchanged (agents : Crowd n) (obstacles : List Wall) (k : Fin n) :
    ((∀ w ∈ obstacles, w.p0 ≠ w.p1 → ∀ d ∈ Spec.discs .circular (agents k),
        ∀ z ∈ segment ℝ w.p0 w.p1, d.2 ≤ Spec.dist d.1 z) →
      agentCircularObstacle agents obstacles k = agents k) ∧
    ((∀ w ∈ obstacles, w.p0 ≠ w.p1 → ∀ d ∈ Spec.discs .threeCircle (agents k),
        ∀ z ∈ segment ℝ w.p0 w.p1, d.2 ≤ Spec.dist d.1 z) →
      agentThreeCircleObstacle agents obstacles k = agents k) := by
  have key : ∀ (κ : Kind) (w : Wall) (e : Vec × ℝ), Spec.IsWallEffect κ (agents k) w.p0 w.p1 e →
      (w.p0 ≠ w.p1 → ∀ d ∈ Spec.discs κ (agents k), ∀ z ∈ segment ℝ w.p0 w.p1,
        d.2 ≤ Spec.dist d.1 z) → e = 0 := by
    intro κ w e he h
    by_cases hw : w.p0 = w.p1
    · exact he.1 hw
    · obtain ⟨d, hd, z, hz, -, h1, -⟩ := he.2 hw
      exact h1 (h hw d hd z hz)
  constructor
  · intro h
    rw [agentCircularObstacle_apply]
    have : (obstacles.map fun w => wallForce (agents k) w).sum = 0 :=
      List.sum_eq_zero fun x hx => by
        obtain ⟨w, hw, rfl⟩ := List.mem_map.1 hx
        exact congrArg Prod.fst (key .circular w _ (wallForce_spec (agents k) w) (h w hw))
    rw [this, add_zero]
  · intro h
    rw [agentThreeCircleObstacle_apply]
    have : (obstacles.map fun w => wallForceThree (agents k) w).sum = 0 :=
      List.sum_eq_zero fun x hx => by
        obtain ⟨w, hw, rfl⟩ := List.mem_map.1 hx
        exact key .threeCircle w _ (wallForceThree_spec (agents k) w) (h w hw)
    rw [this]
    simp

/-- **C31** The effect of a wall on an agent at rest points away from the nearest point of the
wall and is not zero. -/
theorem C31_wall_repels (a : Agent) (p q : Vec) (e : Vec × ℝ) (hmu : 0 < a.mu)
    (hv : a.velocity = 0) (hpq : p ≠ q)
    (h : Spec.IsWallEffect .circular a p q e) (z0 : Vec) (hz0 : z0 ∈ segment ℝ p q)
    (ho : Spec.dist a.position z0 < a.radius) (hoff : a.position ∉ segment ℝ p q) :
    ∃ z ∈ segment ℝ p q, (∀ z' ∈ segment ℝ p q, Spec.dist a.position z ≤ Spec.dist a.position z') ∧
      ∃ s : ℝ, 0 < s ∧ e.1 = s • (a.position - z) := by
  obtain ⟨d, hd, z, hz, hmin, -, h2⟩ := h.2 hpq
  simp only [Spec.discs, List.mem_singleton] at hd
  subst hd
  have hm : ∀ z' ∈ segment ℝ p q, Spec.dist a.position z ≤ Spec.dist a.position z' := by
    intro z' hz'
    have := hmin (a.position, a.radius) (by simp [Spec.discs]) z' hz'
    simp only at this
    linarith
  have hlt := (hm z0 hz0).trans_lt ho
  obtain ⟨m, ⟨h3, -, -, h6⟩, -⟩ := h2 hlt
  have hne : a.position ≠ z := fun h => hoff (h ▸ hz)
  have hp : 0 < Spec.dist a.position z := length_pos (sub_ne_zero.2 hne)
  refine ⟨z, hz, hm, (a.radius - Spec.dist a.position z) * a.mu / Spec.dist a.position z,
    div_pos (mul_pos (by linarith) hmu) hp, ?_⟩
  simp only at h3 h6
  rw [h6, ← h3, hv]
  simp only [Spec.inner, Prod.fst_zero, Prod.snd_zero, zero_mul, add_zero, mul_zero, zero_smul,
    sub_zero, smul_smul]
  rw [div_mul_cancel₀ _ hp.ne']

/-- The hypotheses of the last theorem are met by an agent at distance 1/4 from a wall. -/
example : ∃ (a : Agent) (p q : Vec) (e : Vec × ℝ), 0 < a.mu ∧ a.velocity = 0 ∧ p ≠ q ∧
    Spec.IsWallEffect .circular a p q e ∧
    (∃ z0 ∈ segment ℝ p q, Spec.dist a.position z0 < a.radius) ∧ a.position ∉ segment ℝ p q := by
  refine ⟨{ exampleWalker (0, 1 / 4) 0 with mu := 1 }, (-1, 0), (1, 0), _, by norm_num, rfl, ?_,
    wallForce_spec _ ⟨(-1, 0), (1, 0)⟩, ⟨(-1, 0) + (1 / 2 : ℝ) • ((1, 0) - (-1, 0)), ?_, ?_⟩, ?_⟩
  · intro h
    have := congrArg Prod.fst h
    norm_num at this
  · rw [segment_eq_image']
    exact ⟨1 / 2, by norm_num, rfl⟩
  · have : Spec.dist ((0, 1 / 4) : Vec) ((-1, 0) + (1 / 2 : ℝ) • ((1, 0) - (-1, 0))) = 1 / 4 := by
      rw [Spec.dist, Spec.len, sqrt_eq_iff_mul_self_eq (by positivity) (by norm_num)]
      norm_num
    simp only [exampleWalker]
    rw [this]
    norm_num
  · rw [segment_eq_image']
    rintro ⟨t, _, ht⟩
    have := congrArg Prod.snd ht
    norm_num [exampleWalker] at this

end CrowdDynamics
