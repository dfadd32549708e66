import Verif.Proofs.SocialForce

/-! # Properties of the social forces (C26, C27, C72) -/

namespace CrowdDynamics

open Real
/-! ## C26: third law and Galilean invariance -/

/-- **C26** Circular agents with equal mass, `k` and `tau_0` exert opposite forces. -/
theorem C26_circular_third_law {ai aj : Agent} (hm : ai.mass = aj.mass)
    (hk : ai.kSoc = aj.kSoc) (h0 : ai.tau0 = aj.tau0) :
    (forceSocialCircular ai aj).1 = -(forceSocialCircular ai aj).2 := by
  rw [forceSocialCircular_eq]
  cases timeToCollisionCircleCircle (ai.position - aj.position) (ai.velocity - aj.velocity)
    (ai.radius + aj.radius) with
  | none => simp
  | some p =>
    simp only
    split_ifs
    · simp
    · exact socialForces_opposite hm hk h0 _ _

/-- **C26** The forces of circular agents are always antiparallel. -/
theorem C26_circular_antiparallel {ai aj : Agent} (hmi : 0 < ai.mass) (hmj : 0 < aj.mass)
    (hki : 0 < ai.kSoc) (hkj : 0 < aj.kSoc) (h0i : 0 < ai.tau0) (h0j : 0 < aj.tau0) :
    Spec.SameDirection (forceSocialCircular ai aj).1 (-(forceSocialCircular ai aj).2) := by
  rw [forceSocialCircular_eq]
  cases e : timeToCollisionCircleCircle (ai.position - aj.position) (ai.velocity - aj.velocity)
    (ai.radius + aj.radius) with
  | none => exact sameDirection_zero
  | some p =>
    obtain ⟨tau, g⟩ := p
    obtain ⟨_, _, _, _, _, hpos, _⟩ := timeToCollision_some e
    simp only
    split_ifs
    · exact sameDirection_zero
    · exact socialForces_antiparallel hmi hmj hki hkj h0i h0j _ hpos

/-- **C26** Exchanging two circular agents exchanges the forces. -/
theorem C26_circular_swap (ai aj : Agent) :
    forceSocialCircular aj ai =
      ((forceSocialCircular ai aj).2, (forceSocialCircular ai aj).1) := by
  rw [forceSocialCircular_eq, forceSocialCircular_eq, ← neg_sub ai.position,
    ← neg_sub ai.velocity, add_comm aj.radius, timeToCollision_neg]
  cases timeToCollisionCircleCircle (ai.position - aj.position) (ai.velocity - aj.velocity)
    (ai.radius + aj.radius) with
  | none => rfl
  | some p =>
    simp only [Option.map]
    split_ifs
    · rfl
    · exact socialForces_swap ai aj _ _

/-- **C26** A common displacement and a common velocity do not change the forces of circular
agents. -/
theorem C26_circular_galilean (ai aj : Agent) (d u : Vec) :
    forceSocialCircular (Spec.shifted d u ai) (Spec.shifted d u aj) =
      forceSocialCircular ai aj :=
  forceSocialCircular_congr (by simp [Spec.shifted]) (by simp [Spec.shifted]) rfl
    ⟨rfl, rfl, rfl⟩ ⟨rfl, rfl, rfl⟩

/-- **C26** Three-circle agents with equal mass, `k` and `tau_0` exert opposite forces. -/
theorem C26_three_circle_third_law {ai aj : Agent} (hm : ai.mass = aj.mass)
    (hk : ai.kSoc = aj.kSoc) (h0 : ai.tau0 = aj.tau0) :
    (forceSocialThreeCircle ai aj).1 = -(forceSocialThreeCircle ai aj).2 := by
  rcases threeCircle_cases ai aj with h | ⟨c, -, -, -, h⟩
  · rw [h]; simp
  · rw [h]; exact socialForces_opposite hm hk h0 _ _

/-- **C26** The forces of three-circle agents are always antiparallel. -/
theorem C26_three_circle_antiparallel {ai aj : Agent} (hmi : 0 < ai.mass) (hmj : 0 < aj.mass)
    (hki : 0 < ai.kSoc) (hkj : 0 < aj.kSoc) (h0i : 0 < ai.tau0) (h0j : 0 < aj.tau0) :
    Spec.SameDirection (forceSocialThreeCircle ai aj).1 (-(forceSocialThreeCircle ai aj).2) := by
  rcases threeCircle_cases ai aj with h | ⟨c, -, hc, -, h⟩
  · rw [h]; exact sameDirection_zero
  · rw [h]; exact socialForces_antiparallel hmi hmj hki hkj h0i h0j _ hc

/-- **C26** A common displacement and a common velocity do not change the forces of
three-circle agents. -/
theorem C26_three_circle_galilean (ai aj : Agent) (d u : Vec) :
    forceSocialThreeCircle (Spec.shifted d u ai) (Spec.shifted d u aj) =
      forceSocialThreeCircle ai aj := by
  have hx : ∀ p q, (Spec.shifted d u ai).circles p - (Spec.shifted d u aj).circles q =
      ai.circles p - aj.circles q := by
    intro p q
    fin_cases p <;> fin_cases q <;> simp [Spec.shifted, Agent.circles]
  have hv : (Spec.shifted d u ai).velocity - (Spec.shifted d u aj).velocity =
      ai.velocity - aj.velocity := by simp [Spec.shifted]
  have hp : (Spec.shifted d u ai).position - (Spec.shifted d u aj).position =
      ai.position - aj.position := by simp [Spec.shifted]
  have hf := foldl_congr' (contactStep (Spec.shifted d u ai).circles ai.radii
    (Spec.shifted d u aj).circles aj.radii (ai.velocity - aj.velocity)
    (dot (ai.velocity - aj.velocity) (ai.velocity - aj.velocity))) _
    (fun s k => contactStep_congr hx s k) pairs33 none
  unfold forceSocialThreeCircle
  simp only
  rw [hv, hp]
  have e1 : (Spec.shifted d u ai).radii = ai.radii := rfl
  have e2 : (Spec.shifted d u aj).radii = aj.radii := rfl
  rw [e1, e2, hf]
  rfl

/-- **C26** (full statement for the exchange of three-circle agents). -/
def C26_three_circle_swap_statement : Prop := ∀ ai aj : Agent,
  Spec.ShouldersAttached ai → Spec.ShouldersAttached aj →
  forceSocialThreeCircle aj ai =
    ((forceSocialThreeCircle ai aj).2, (forceSocialThreeCircle ai aj).1)

/-- **C26** is false for the exchange of three-circle agents: the order in which the circle
pairs are examined depends on the order of the agents, and the search can get stuck in one
order only. -/
theorem C26_three_circle_swap_fails : ¬ C26_three_circle_swap_statement := by
  intro h
  have := h _ _ witness_attached.1 witness_attached.2
  rw [witness_stuck] at this
  exact witness_force_snd (by rw [this]; rfl)

/-- **C26**, what holds for the exchange of three-circle agents: the forces are exchanged if
neither order of the agents drops the collision and the earliest contact is made by only one
pair of circles. -/
theorem C26_three_circle_swap_partial (ai aj : Agent)
    (hri : ∀ p, 0 ≤ ai.radii p) (hrj : ∀ q, 0 ≤ aj.radii q)
    (hij : forceSocialThreeCircle ai aj ≠ (0, 0)) (hji : forceSocialThreeCircle aj ai ≠ (0, 0))
    (hu : ∀ p q p' q' t, Spec.EarliestContact ai aj p q t → Spec.EarliestContact ai aj p' q' t →
      p = p' ∧ q = q') :
    forceSocialThreeCircle aj ai =
      ((forceSocialThreeCircle ai aj).2, (forceSocialThreeCircle ai aj).1) := by
  rcases threeCircle_cases ai aj with h | ⟨c, ha, hc, hf, h⟩
  · exact absurd h hij
  rcases threeCircle_cases aj ai with h' | ⟨c', ha', hc', hf', h'⟩
  · exact absurd h' hji
  rw [h, h']
  have hinv := contactInv_result ai.circles ai.radii aj.circles aj.radii
    (ai.velocity - aj.velocity) (dot (ai.velocity - aj.velocity) (ai.velocity - aj.velocity))
  have hinv' := contactInv_result aj.circles aj.radii ai.circles ai.radii
    (aj.velocity - ai.velocity) (dot (aj.velocity - ai.velocity) (aj.velocity - ai.velocity))
  rw [hf] at hinv
  rw [hf'] at hinv'
  obtain ⟨-, e1, e2⟩ := hinv
  obtain ⟨-, e1', e2'⟩ := hinv'
  rw [← neg_sub ai.velocity aj.velocity, dot_neg_neg] at e1' e2' ⊢
  rw [← neg_sub (ai.circles c'.j), pairTime_neg, add_comm] at e1'
  have l1 : c'.tau ≤ c.tau := by
    refine e2' (c.j, c.i) (mem_pairs33 _) c.tau c.b c.d ?_ hc hc'
    rw [← neg_sub (ai.circles c.i), pairTime_neg, add_comm]
    exact e1
  have l2 : c.tau ≤ c'.tau := e2 (c'.j, c'.i) (mem_pairs33 _) c'.tau c'.b c'.d e1' hc' hc
  have lt : c'.tau = c.tau := le_antisymm l1 l2
  have t1 := earliest_of_contact hri hrj ha hc hf
  have t2 := earliestContact_swap (earliest_of_contact hrj hri ha' hc' hf')
  rw [lt] at t2
  obtain ⟨hp, hq⟩ := hu _ _ _ _ _ t1 t2
  rw [← hp, ← hq, e1] at e1'
  simp only [Option.some.injEq, Prod.mk.injEq] at e1'
  rw [← hp, ← hq, lt, ← e1'.2.1, ← e1'.2.2, ← neg_sub ai.position,
    ← neg_sub (contactOffset ai c.i), gradientThreeCircle_neg, socialForces_swap]

example : (forceSocialCircular (exampleWalker (-3, 0) (1, 0)) (exampleWalker (0, 0) (0, 0))).1 =
    -(forceSocialCircular (exampleWalker (-3, 0) (1, 0)) (exampleWalker (0, 0) (0, 0))).2 :=
  C26_circular_third_law rfl rfl rfl

example : Spec.SameDirection
    (forceSocialCircular (exampleWalker (-3, 0) (1, 0)) (exampleWalker (0, 0) (0, 0))).1
    (-(forceSocialCircular (exampleWalker (-3, 0) (1, 0)) (exampleWalker (0, 0) (0, 0))).2) := by
  apply C26_circular_antiparallel <;> norm_num [exampleWalker]

example : (forceSocialThreeCircle (exampleThree (-3) 1) (exampleThree 0 0)).1 =
    -(forceSocialThreeCircle (exampleThree (-3) 1) (exampleThree 0 0)).2 :=
  C26_three_circle_third_law rfl rfl rfl

example : Spec.SameDirection
    (forceSocialThreeCircle (exampleThree (-3) 1) (exampleThree 0 0)).1
    (-(forceSocialThreeCircle (exampleThree (-3) 1) (exampleThree 0 0)).2) := by
  apply C26_three_circle_antiparallel <;> norm_num [exampleThree]

example : forceSocialThreeCircle (exampleThree 0 0) (exampleThree (-3) 1) =
    ((forceSocialThreeCircle (exampleThree (-3) 1) (exampleThree 0 0)).2,
      (forceSocialThreeCircle (exampleThree (-3) 1) (exampleThree 0 0)).1) :=
  C26_three_circle_swap_partial _ _ (exampleThree_radii _ _) (exampleThree_radii _ _)
    (exampleThree_nonzero (s := 1) (by norm_num) (by norm_num) (by norm_num))
    (exampleThree_nonzero (s := -1) (by norm_num) (by norm_num) (by norm_num))
    (fun p q p' q' t h h' => by
      have e := exampleThree_unique (s := 1) (by norm_num) (by norm_num) (by norm_num) h
      have e' := exampleThree_unique (s := 1) (by norm_num) (by norm_num) (by norm_num) h'
      exact ⟨e.1.trans e'.1.symm, e.2.1.trans e'.2.1.symm⟩)

/-! ## C27: the earliest contact -/

/-- **C27** (full statement): the force reacts to the earliest contact. -/
def C27_statement : Prop := ∀ (ai aj : Agent) (p q : Fin 3) (t : ℝ),
  Spec.ShouldersAttached ai → Spec.ShouldersAttached aj →
  (∀ p, 0 ≤ ai.radii p) → (∀ q, 0 ≤ aj.radii q) → 0 < ai.mass → 0 < ai.kSoc → 0 < ai.tau0 →
  Spec.EarliestContact ai aj p q t →
  ∃ G : Vec, G ≠ 0 ∧ Spec.ReactsAt ai aj t G (forceSocialThreeCircle ai aj)

/-- **C27**, what holds (1): a force that is not zero reacts to the earliest contact. -/
theorem C27_nonzero_force_earliest_partial (ai aj : Agent) (hri : ∀ p, 0 ≤ ai.radii p)
    (hrj : ∀ q, 0 ≤ aj.radii q) (hne : forceSocialThreeCircle ai aj ≠ (0, 0)) :
    ∃ p q t, Spec.EarliestContact ai aj p q t ∧
      ∃ G : Vec, G ≠ 0 ∧ Spec.ReactsAt ai aj t G (forceSocialThreeCircle ai aj) := by
  rcases threeCircle_cases ai aj with h | ⟨c, ha, hc, hf, h⟩
  · exact absurd h hne
  refine ⟨c.i, c.j, c.tau, earliest_of_contact hri hrj ha hc hf,
    gradientThreeCircle (ai.position - aj.position) (ai.velocity - aj.velocity)
      (contactOffset ai c.i - contactOffset aj c.j)
      (dot (ai.velocity - aj.velocity) (ai.velocity - aj.velocity)) c.b c.d, ?_, ?_⟩
  rotate_left
  · rw [h]; exact reactsAt_of hc _
  · intro hG
    rw [hG] at h
    apply hne
    rw [h]
    unfold socialForces
    have h0 : truncate (0 : Vec) fSocMax = 0 := truncate_of_le (by
      rw [length_eq_zero.2 rfl]; norm_num [fSocMax])
    simp only [smul_zero, neg_zero, h0]

/-- **C27**, what holds (2): if the torsos themselves are on a collision course, the force
reacts to the earliest contact of the nine pairs. -/
theorem C27_torsos_collide_partial (ai aj : Agent) (hri : ∀ p, 0 ≤ ai.radii p)
    (hrj : ∀ q, 0 ≤ aj.radii q) {s : ℝ} (hs : 0 < s)
    (h1 : Spec.FirstTouch (ai.position - aj.position) (ai.velocity - aj.velocity)
      (ai.rT + aj.rT) s)
    (h2 : Spec.WillOverlap (ai.position - aj.position) (ai.velocity - aj.velocity)
      (ai.rT + aj.rT)) :
    ∃ p q t, Spec.EarliestContact ai aj p q t ∧ t ≤ s ∧
      ∃ G : Vec, Spec.ReactsAt ai aj t G (forceSocialThreeCircle ai aj) := by
  obtain ⟨ha, b, d, e⟩ := pairTime_of_touch (add_nonneg (hri 0) (hrj 0)) hs h1 h2
  obtain ⟨c, hf, hc⟩ := fold_tau_pos_of_first ai.circles ai.radii aj.circles aj.radii
    (ai.velocity - aj.velocity) (dot (ai.velocity - aj.velocity) (ai.velocity - aj.velocity))
    [] [(0,1),(0,2),(1,0),(1,1),(1,2),(2,0),(2,1),(2,2)] (0, 0) (by simp) e hs
  have hf' : pairs33.foldl (contactStep ai.circles ai.radii aj.circles aj.radii
        (ai.velocity - aj.velocity) (dot (ai.velocity - aj.velocity)
        (ai.velocity - aj.velocity))) none = some c := by rw [pairs33_eq]; exact hf
  have he := earliest_of_contact hri hrj ha hc hf'
  exact ⟨c.i, c.j, c.tau, he, he.2.2.2 0 0 s hs h1 h2,
    gradientThreeCircle (ai.position - aj.position) (ai.velocity - aj.velocity)
      (contactOffset ai c.i - contactOffset aj c.j)
      (dot (ai.velocity - aj.velocity) (ai.velocity - aj.velocity)) c.b c.d,
    by rw [threeCircle_of_contact ha hc hf']; exact reactsAt_of hc _⟩

/-- **C27**, what holds (3): without any future contact there is no force. -/
theorem C27_zero_without_collision (ai aj : Agent) (hri : ∀ p, 0 ≤ ai.radii p)
    (hrj : ∀ q, 0 ≤ aj.radii q)
    (h : ∀ p q, ¬ (Spec.len (ai.circles p - aj.circles q) > ai.radii p + aj.radii q ∧
      Spec.WillOverlap (ai.circles p - aj.circles q) (ai.velocity - aj.velocity)
        (ai.radii p + aj.radii q))) :
    forceSocialThreeCircle ai aj = (0, 0) := by
  by_contra hne
  obtain ⟨p, q, t, ⟨ht, h1, h2, -⟩, -⟩ := C27_nonzero_force_earliest_partial ai aj hri hrj hne
  exact h p q ⟨apart_of_firstTouch ht h1, h2⟩

/-- **C27** is false: the walker's left shoulder will hit the standing pedestrian in two
seconds, but the search has stopped at a pair of circles whose contact lies in the past. -/
theorem C27_earliest_contact_fails : ¬ C27_statement := by
  intro h
  obtain ⟨G, hG, h1, -⟩ := h witnessWalker witnessStander 1 0 2 witness_attached.1
    witness_attached.2 witness_radii.1 witness_radii.2 (by norm_num [witnessWalker])
    (by norm_num [witnessWalker]) (by norm_num [witnessWalker])
    (earliestContact_swap witness_earliest)
  rw [witness_stuck] at h1
  have hd := (energy_hasDerivAt witnessWalker.kSoc witnessWalker.tau0 (t := 2)
    (by norm_num)).deriv
  have hm : 0 < magnitude 2 witnessWalker.tau0 :=
    magnitude_pos (by norm_num) (by norm_num [witnessWalker])
  have hne : (witnessWalker.mass *
      deriv (Spec.anticipationEnergy witnessWalker.kSoc witnessWalker.tau0) 2) • G ≠ 0 := by
    refine smul_ne_zero ?_ hG
    show witnessWalker.mass *
      deriv (fun t => Spec.anticipationEnergy witnessWalker.kSoc witnessWalker.tau0 t) 2 ≠ 0
    rw [hd]
    have e1 : witnessWalker.mass = 1 := rfl
    have e2 : witnessWalker.kSoc = 1 := rfl
    rw [e1, e2]
    simp only [one_mul, ne_eq, neg_eq_zero]
    exact hm.ne'
  rcases le_or_gt (Spec.len ((witnessWalker.mass *
      deriv (Spec.anticipationEnergy witnessWalker.kSoc witnessWalker.tau0) 2) • G)) 2000 with hl | hl
  · exact hne (h1.1 hl).symm
  · have := (h1.2 hl).2
    norm_num [Spec.len] at this

example : ∃ p q t, Spec.EarliestContact witnessStander witnessWalker p q t ∧
    ∃ G : Vec, G ≠ 0 ∧ Spec.ReactsAt witnessStander witnessWalker t G
      (forceSocialThreeCircle witnessStander witnessWalker) :=
  C27_nonzero_force_earliest_partial _ _ witness_radii.2 witness_radii.1
    (fun h => witness_force_snd (by rw [h]; rfl))

example : ∃ p q t, Spec.EarliestContact (exampleThree (-3) 1) (exampleThree 0 0) p q t ∧
    t ≤ 2 ∧ ∃ G : Vec, Spec.ReactsAt (exampleThree (-3) 1) (exampleThree 0 0) t G
      (forceSocialThreeCircle (exampleThree (-3) 1) (exampleThree 0 0)) :=
  C27_torsos_collide_partial _ _ (exampleThree_radii _ _) (exampleThree_radii _ _)
    two_pos
    (exampleThree_earliest (s := 1) (by norm_num) (by norm_num) (by norm_num)).2.1
    (exampleThree_earliest (s := 1) (by norm_num) (by norm_num) (by norm_num)).2.2.1

/-- Agents moving with the same velocity. -/
example : forceSocialThreeCircle (exampleThree (-3) 1) (exampleThree 0 1) = (0, 0) := by
  refine C27_zero_without_collision _ _ (exampleThree_radii _ _) (exampleThree_radii _ _) ?_
  rintro p q ⟨h1, s, _, h2⟩
  have e : (exampleThree (-3) 1).velocity - (exampleThree 0 1).velocity = 0 := by
    norm_num [exampleThree]
  rw [e, smul_zero, add_zero] at h2
  exact absurd h1 (not_lt.2 h2.le)

/-! ## C72: the three-circle force and the gradient of the energy -/

/-- **C72** (full statement): if one pair of circles makes the earliest contact and the force
is not zero, then the force is minus the mass times the gradient of the anticipation energy,
cut back to length 2000. -/
def C72_statement : Prop := ∀ (ai aj : Agent) (p q : Fin 3) (t : ℝ) (g : Vec),
  Spec.ShouldersAttached ai → Spec.ShouldersAttached aj →
  (∀ p, 0 ≤ ai.radii p) → (∀ q, 0 ≤ aj.radii q) →
  Spec.EarliestContact ai aj p q t →
  (∀ p' q', Spec.EarliestContact ai aj p' q' t → p' = p ∧ q' = q) →
  forceSocialThreeCircle ai aj ≠ (0, 0) →
  Spec.IsGradientAt (Spec.pairEnergy ai aj p q) g ai.position →
  Spec.CappedTo 2000 ((-ai.mass) • g) (forceSocialThreeCircle ai aj).1

/-- **C72**, what holds: if the torsos make the (only) earliest contact, the force is the
gradient of the energy. -/
theorem C72_torso_contact_gradient_partial {ai aj : Agent} {t : ℝ} {g : Vec}
    (hri : ∀ p, 0 ≤ ai.radii p) (hrj : ∀ q, 0 ≤ aj.radii q)
    (h : Spec.EarliestContact ai aj 0 0 t)
    (hu : ∀ p' q', Spec.EarliestContact ai aj p' q' t → p' = 0 ∧ q' = 0)
    (hne : forceSocialThreeCircle ai aj ≠ (0, 0))
    (hg : Spec.IsGradientAt (Spec.pairEnergy ai aj 0 0) g ai.position) :
    Spec.CappedTo 2000 ((-ai.mass) • g) (forceSocialThreeCircle ai aj).1 := by
  obtain ⟨d, ha, hd, hd2, ht, hF⟩ := contact_of_unique hri hrj h hu hne
  have hG := pairEnergy_gradient (add_nonneg (hri 0) (hrj 0)) ha hd hd2
    (by rw [← ht]; exact h.1)
  rw [isGradientAt_unique hg hG, hF]
  refine cappedTo_smul ?_
  have h0 : ∀ a : Agent, contactOffset a 0 = 0 := by intro a; simp [contactOffset]
  rw [h0, h0, sub_zero, gradientThreeCircle_zero, smul_smul, ← ht]
  congr 1
  ring

example (g : Vec) (hg : Spec.IsGradientAt
      (Spec.pairEnergy (exampleThree (-3) 1) (exampleThree 0 0) 0 0) g (-3, 0)) :
    Spec.CappedTo 2000 ((-80 : ℝ) • g)
      (forceSocialThreeCircle (exampleThree (-3) 1) (exampleThree 0 0)).1 :=
  C72_torso_contact_gradient_partial (t := 2) (ai := exampleThree (-3) 1)
    (exampleThree_radii _ _) (exampleThree_radii _ _)
    (exampleThree_earliest (s := 1) (by norm_num) (by norm_num) (by norm_num))
    (fun p q h => by
      have e := exampleThree_unique (s := 1) (by norm_num) (by norm_num) (by norm_num) h
      exact ⟨e.1, e.2.1⟩)
    (exampleThree_nonzero (s := 1) (by norm_num) (by norm_num) (by norm_num)) hg

/-- **C72** is false: for a contact with a shoulder the displacement of the shoulder enters
with the wrong sign and a factor 2. The shoulder of the walker is straight ahead of the
standing pedestrian, but the force is not parallel to the line of motion. -/
theorem C72_shoulder_contact_gradient_fails : ¬ C72_statement := by
  intro h
  have hne : forceSocialThreeCircle witnessStander witnessWalker ≠ (0, 0) :=
    fun h => witness_force_snd (by rw [h]; rfl)
  have hu : ∀ p' q', Spec.EarliestContact witnessStander witnessWalker p' q' 2 →
      p' = 0 ∧ q' = 1 := by
    intro p' q' hc
    obtain ⟨-, b, d, e⟩ := pairTime_of_touch
      (add_nonneg (witness_radii.2 _) (witness_radii.1 _)) hc.1 hc.2.1 hc.2.2.1
    rw [witness_times] at e
    split_ifs at e with h1 h2
    · exact ⟨congrArg Prod.fst h1, congrArg Prod.snd h1⟩
    · simp only [Option.some.injEq, Prod.mk.injEq] at e
      norm_num at e
  have hG := pairEnergy_gradient (ai := witnessStander) (aj := witnessWalker) (p := 0) (q := 1)
    (d := 2) (add_nonneg (witness_radii.2 _) (witness_radii.1 _))
    (by norm_num [witnessStander, witnessWalker, dot]) (by norm_num)
    (by norm_num [witnessWalker, witnessStander, Agent.circles, Agent.radii, dot])
    (by norm_num [witnessWalker, witnessStander, Agent.circles, Agent.radii, dot])
  have hF := h _ _ _ _ _ _ witness_attached.2 witness_attached.1 witness_radii.2 witness_radii.1
    witness_earliest hu hne hG
  have hg : (gradientCircleCircle (witnessStander.circles 0 - witnessWalker.circles 1)
      (witnessStander.velocity - witnessWalker.velocity)
      (dot (witnessStander.velocity - witnessWalker.velocity)
        (witnessStander.velocity - witnessWalker.velocity))
      (-dot (witnessStander.circles 0 - witnessWalker.circles 1)
        (witnessStander.velocity - witnessWalker.velocity)) 2).2 = 0 := by
    norm_num [witnessWalker, witnessStander, Agent.circles, gradientCircleCircle, dot]
  set G := gradientCircleCircle (witnessStander.circles 0 - witnessWalker.circles 1)
      (witnessStander.velocity - witnessWalker.velocity)
      (dot (witnessStander.velocity - witnessWalker.velocity)
        (witnessStander.velocity - witnessWalker.velocity))
      (-dot (witnessStander.circles 0 - witnessWalker.circles 1)
        (witnessStander.velocity - witnessWalker.velocity)) 2
  refine witness_force_snd ?_
  rcases le_or_gt (Spec.len _) 2000 with hl | hl
  · rw [hF.1 hl]
    simp [hg]
  · obtain ⟨⟨a, b, ha, hb, e⟩, -⟩ := hF.2 hl
    have := congrArg Prod.snd e
    simp [hg] at this
    rcases this with h | h
    · exact absurd h ha.ne'
    · exact h

end CrowdDynamics
