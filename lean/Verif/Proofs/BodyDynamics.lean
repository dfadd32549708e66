import Verif.Spec.BodyDynamics
import Verif.Proofs.Dynamics
import Verif.Props.SocialForce

/-!
# Lemmas about the equations of motion of three-circle agents
-/

namespace CrowdDynamics

open Spec

variable {n : ℕ}

/-! ## Social forces -/

/-- The offset used by the code is minus the displacement of the circle. -/
lemma contactOffset_attached {a : Agent} (h : ShouldersAttached a) (p : Fin 3) :
    contactOffset a p = -(a.circles p - a.position) := by
  obtain ⟨h1, h2⟩ := h
  fin_cases p
  · simp [contactOffset, Agent.circles]
  · simp only [contactOffset, Agent.circles, Fin.mk_one, if_true, Matrix.cons_val_one,
      Matrix.cons_val_zero, h1]
    ext <;> simp
  · simp only [contactOffset, Agent.circles, Fin.reduceFinMk, Matrix.cons_val, h2]
    rw [if_neg (by decide), if_pos trivial]
    ext <;> simp

lemma gradient_direction {X o v : Vec} {r t b d : ℝ} (ha : 0 < dot v v)
    (h : pairTime (X + o) v r (dot v v) = some (t, b, d)) :
    inner (X + o + t • v) v • gradientThreeCircle X v (-o) (dot v v) b d =
      X + o + t • v - (3 : ℝ) • o := by
  obtain ⟨hd, -, hb, ht⟩ := pairTime_some h
  have e : inner (X + o + t • v) v = -d := by
    have : inner (X + o + t • v) v = dot (X + o) v + t * dot v v := by
      unfold Spec.inner dot; simp; ring
    rw [this, ht]
    field_simp
    ring
  have ht' : t * dot v v = b - d := by
    rw [ht, hb]; field_simp
  rw [e]
  unfold gradientThreeCircle
  have ha' := ha.ne'
  have hd' := hd.ne'
  ext
  · simp only [Prod.smul_fst, smul_eq_mul, Prod.fst_add, Prod.fst_sub, Prod.fst_neg]
    field_simp
    linear_combination -v.1 * ht'
  · simp only [Prod.smul_snd, smul_eq_mul, Prod.snd_add, Prod.snd_sub, Prod.snd_neg]
    field_simp
    linear_combination -v.2 * ht'

lemma reacts_fst {a b : Agent} {c : Contact} (hra : ∀ p, 0 ≤ a.radii p) (hrb : ∀ q, 0 ≤ b.radii q)
    (hA : ShouldersAttached a) (hB : ShouldersAttached b)
    (ha : 0 < dot (a.velocity - b.velocity) (a.velocity - b.velocity)) (hc : 0 < c.tau)
    (hf : pairs33.foldl (contactStep a.circles a.radii b.circles b.radii
        (a.velocity - b.velocity) (dot (a.velocity - b.velocity)
        (a.velocity - b.velocity))) none = some c) :
    ReactsToEarliest a b (forceSocialThreeCircle a b).1 ∧
    ReactsToEarliest b a (forceSocialThreeCircle a b).2 := by
  have hearly := earliest_of_contact hra hrb ha hc hf
  have hinv := contactInv_result a.circles a.radii b.circles b.radii
    (a.velocity - b.velocity) (dot (a.velocity - b.velocity) (a.velocity - b.velocity))
  rw [hf] at hinv
  obtain ⟨-, e1, -⟩ := hinv
  have hF := threeCircle_of_contact ha hc hf
  have hO : contactOffset a c.i - contactOffset b c.j =
      -((a.circles c.i - a.position) - (b.circles c.j - b.position)) := by
    rw [contactOffset_attached hA, contactOffset_attached hB]; abel
  rw [hO] at hF
  obtain ⟨r1, r2⟩ := reactsAt_of (ai := a) (aj := b) hc (gradientThreeCircle (a.position - b.position)
    (a.velocity - b.velocity) (-((a.circles c.i - a.position) - (b.circles c.j - b.position)))
    (dot (a.velocity - b.velocity) (a.velocity - b.velocity)) c.b c.d)
  rw [← hF] at r1 r2
  have hx : a.circles c.i - b.circles c.j = a.position - b.position +
      ((a.circles c.i - a.position) - (b.circles c.j - b.position)) := by abel
  rw [hx] at e1
  have hg := gradient_direction ha e1
  rw [← hx] at hg
  generalize gradientThreeCircle (a.position - b.position) (a.velocity - b.velocity)
    (-((a.circles c.i - a.position) - (b.circles c.j - b.position)))
    (dot (a.velocity - b.velocity) (a.velocity - b.velocity)) c.b c.d = G at *
  refine ⟨⟨c.i, c.j, c.tau, hearly, _, _, G, rfl, rfl, hg, r1⟩,
    ⟨c.j, c.i, c.tau, earliestContact_swap hearly, _, _, -G, rfl, rfl, ?_, ?_⟩⟩
  · have e : b.circles c.j - a.circles c.i + c.tau • (b.velocity - a.velocity) =
        -(a.circles c.i - b.circles c.j + c.tau • (a.velocity - b.velocity)) := by
      rw [← neg_sub a.velocity, smul_neg]; abel
    rw [e, ← neg_sub a.velocity]
    have e2 : ∀ x y : Vec, inner (-x) (-y) = inner x y := by
      intro x y; unfold Spec.inner; simp
    rw [e2, smul_neg, hg, neg_sub_left, ← neg_sub (a.circles c.i - a.position), smul_neg]
    abel
  · unfold ReactsTo
    rw [smul_neg]
    exact r2

lemma bodySocial_spec {a b : Agent} (hra : ∀ p, 0 ≤ a.radii p) (hrb : ∀ q, 0 ≤ b.radii q)
    (hA : ShouldersAttached a) (hB : ShouldersAttached b) :
    IsBodySocialForce a b (forceSocialThreeCircle a b).1 ∧
    IsBodySocialForce b a (forceSocialThreeCircle a b).2 := by
  have hc : forceSocialThreeCircle a b = (0, 0) ∨
      ReactsToEarliest a b (forceSocialThreeCircle a b).1 ∧
      ReactsToEarliest b a (forceSocialThreeCircle a b).2 := by
    rcases threeCircle_cases a b with h | ⟨c, ha, hc, hf, -⟩
    · exact Or.inl h
    · exact Or.inr (reacts_fst hra hrb hA hB ha hc hf)
  have ht : ∀ t, 0 < t →
      FirstTouch (a.position - b.position) (a.velocity - b.velocity) (a.rT + b.rT) t →
      WillOverlap (a.position - b.position) (a.velocity - b.velocity) (a.rT + b.rT) →
      ReactsToEarliest a b (forceSocialThreeCircle a b).1 ∧
      ReactsToEarliest b a (forceSocialThreeCircle a b).2 := by
    intro s hs h1 h2
    obtain ⟨ha, b', d, e⟩ := pairTime_of_touch (add_nonneg (hra 0) (hrb 0)) hs h1 h2
    obtain ⟨c, hf, hc⟩ := fold_tau_pos_of_first a.circles a.radii b.circles b.radii
      (a.velocity - b.velocity) (dot (a.velocity - b.velocity) (a.velocity - b.velocity))
      [] [(0,1),(0,2),(1,0),(1,1),(1,2),(2,0),(2,1),(2,2)] (0, 0) (by simp) e hs
    exact reacts_fst hra hrb hA hB ha hc (by rw [pairs33_eq]; exact hf)
  refine ⟨⟨?_, fun t h0 h1 h2 => (ht t h0 h1 h2).1⟩, ⟨?_, fun t h0 h1 h2 => (ht t h0 ?_ ?_).2⟩⟩
  · exact hc.imp (fun h => by rw [h]) And.left
  · exact hc.imp (fun h => by rw [h]) And.right
  · apply firstTouch_neg; rwa [neg_sub, neg_sub, add_comm]
  · apply willOverlap_neg; rwa [neg_sub, neg_sub, add_comm]

/-! ## The effect of a pair -/

lemma isUnitFrom_normal (x y : Vec) (r r' : ℝ) : IsUnitFrom y x (distanceCircles x r y r').2 := by
  refine ⟨?_, fun h => (distanceCircles_normal _ _ _ _ h).1, fun h => ?_⟩
  · by_cases he : x = y
    · rw [he, distanceCircles_normal_self, sub_self]; simp
    · exact (distanceCircles_normal _ _ _ _ he).2
  · rw [h]; exact distanceCircles_normal_self _ _ _

lemma isUnitFrom_neg {x y m : Vec} (h : IsUnitFrom y x m) : IsUnitFrom x y (-m) := by
  obtain ⟨h1, h2, h3⟩ := h
  have hd : Spec.dist y x = Spec.dist x y := length_sub_comm _ _
  refine ⟨by rw [hd, smul_neg, h1, neg_sub], fun h => ?_, fun h => by rw [h3 h.symm, neg_zero]⟩
  have := h2 h.symm
  rwa [← length_eq, length_neg, length_eq]

/-- The effects with the arms of the first and of the second agent of a pair. -/
lemma bodyEffect_arms {a b : Agent} (hra : ∀ p, 0 ≤ a.radii p) (hrb : ∀ q, 0 ≤ b.radii q)
    (hA : ShouldersAttached a) (hB : ShouldersAttached b) :
    IsBodyEffect (fun p _ m r => r = a.circles p + a.radii p • m - a.position) a b
      (pairForcesThree a b).1 ∧
    IsBodyEffect (fun q _ m r => r = a.circles q + b.radii q • m - b.position) b a
      (pairForcesThree a b).2 := by
  obtain ⟨p, q, m, h1, h2, h3, h4, h5, h6⟩ :=
    distanceThreeCircles_spec a.circles a.radii b.circles b.radii
  obtain ⟨s1, s2⟩ := bodySocial_spec hra hrb hA hB
  have hu : IsUnitFrom (b.circles q) (a.circles p) m := by rw [h4]; exact isUnitFrom_normal _ _ _ _
  have hdc : ∀ x y : Vec, Spec.dist y x = Spec.dist x y := fun x y => length_sub_comm _ _
  have c1 : Closest a b p q := fun p' q' => by rw [← h1]; exact h2 p' q'
  have c2 : Closest b a q p := fun q' p' => by
    rw [hdc, hdc (a.circles p'), add_comm, add_comm (b.radii q')]; exact c1 p' q'
  have hn : inner (b.velocity - a.velocity) (-m) = inner (a.velocity - b.velocity) m := by
    unfold Spec.inner; simp; ring
  have hn' : inner (b.velocity - a.velocity) ((-m).2, -(-m).1) =
      inner (a.velocity - b.velocity) (m.2, -m.1) := by unfold Spec.inner; simp; ring
  refine ⟨⟨p, q, m, _, c1, hu, rfl, fun hg => ?_, fun hg => ?_⟩,
    ⟨q, p, -m, _, c2, isUnitFrom_neg hu, rfl, fun hg => ?_, fun hg => ?_⟩⟩
  · unfold pairForcesThree
    simp only
    rw [if_neg (by rw [h1]; unfold sigthSoc; linarith)]
    rfl
  · by_cases hc : Spec.dist (a.circles p) (b.circles q) - (a.radii p + b.radii q) < 0
    · refine ⟨_, forceContact (distanceThreeCircles a.circles a.radii b.circles b.radii).h m
        (a.velocity - b.velocity) (rotate270 m) a.mu a.kappa a.damping, _, s1,
        fun h => absurd hc (not_lt.2 h), fun _ => ?_, rfl, ?_⟩
      · unfold IsBodyContact forceContact
        rw [h1]
        rfl
      · unfold pairForcesThree
        simp only
        rw [if_pos (by rw [h1]; unfold sigthSoc; linarith), if_pos (by rw [h1]; exact hc), h3, h5]
        rfl
    · refine ⟨_, 0, _, s1, fun _ => rfl, fun h => absurd h hc, rfl, ?_⟩
      unfold pairForcesThree
      simp only
      rw [if_pos (by rw [h1]; unfold sigthSoc; linarith), if_neg (by rw [h1]; exact hc), h5,
        add_zero]
      rfl
  · rw [hdc, add_comm] at hg
    unfold pairForcesThree
    simp only
    rw [if_neg (by rw [h1]; unfold sigthSoc; linarith)]
    rfl
  · rw [hdc, add_comm] at hg ⊢
    have harm : a.circles q - b.radii q • m - b.position =
        a.circles q + b.radii q • -m - b.position := by rw [smul_neg]; abel
    by_cases hc : Spec.dist (a.circles p) (b.circles q) - (a.radii p + b.radii q) < 0
    · refine ⟨_, -forceContact (distanceThreeCircles a.circles a.radii b.circles b.radii).h m
        (a.velocity - b.velocity) (rotate270 m) b.mu b.kappa b.damping, _, s2,
        fun h => absurd hc (not_lt.2 h), fun _ => ?_, rfl, ?_⟩
      · unfold IsBodyContact
        rw [hn, hn', ← h1]
        unfold forceContact
        ext
        · simp [rotate270, Spec.inner, dot]; ring
        · simp [rotate270, Spec.inner, dot]; ring
      · unfold pairForcesThree
        simp only
        rw [if_pos (by rw [h1]; unfold sigthSoc; linarith), if_pos (by rw [h1]; exact hc), h3, h6,
          show b.circles 0 = b.position from rfl, harm, ← sub_eq_add_neg]
        rfl
    · refine ⟨_, 0, _, s2, fun _ => rfl, fun h => absurd h hc, rfl, ?_⟩
      unfold pairForcesThree
      simp only
      rw [if_pos (by rw [h1]; unfold sigthSoc; linarith), if_neg (by rw [h1]; exact hc), h6,
        show b.circles 0 = b.position from rfl, harm, add_zero]
      rfl

lemma bodyEffect_mono {arm arm' : Fin 3 → Fin 3 → ℝ × ℝ → ℝ × ℝ → Prop} {a b : Agent} {e : Vec × ℝ}
    (hm : ∀ p q m r, arm p q m r → arm' p q m r) (h : IsBodyEffect arm a b e) :
    IsBodyEffect arm' a b e := by
  obtain ⟨p, q, m, gap, h1, h2, h3, h4, h5⟩ := h
  refine ⟨p, q, m, gap, h1, h2, h3, h4, fun hg => ?_⟩
  obtain ⟨s, c, r, k1, k2, k3, k4, k5⟩ := h5 hg
  exact ⟨s, c, r, k1, k2, k3, hm _ _ _ _ k4, k5⟩

lemma bodyEffect_spec {a b : Agent} (hra : ∀ p, 0 ≤ a.radii p) (hrb : ∀ q, 0 ≤ b.radii q)
    (hA : ShouldersAttached a) (hB : ShouldersAttached b) :
    IsBodyEffect (CodeArm a b) a b (pairForcesThree a b).1 ∧
    IsBodyEffect (CodeArm b a) b a (pairForcesThree a b).2 :=
  ⟨bodyEffect_mono (fun _ _ _ _ h => Or.inl h) (bodyEffect_arms hra hrb hA hB).1,
    bodyEffect_mono (fun _ _ _ _ h => Or.inr h) (bodyEffect_arms hra hrb hA hB).2⟩

/-! ## The effects of all pairs -/

open Classical in
/-- The effect of agent `j` on agent `k` if the pairs of `l` are handled in their order. -/
noncomputable def orientedEffect (A : Crowd n) (l : List (Fin n × Fin n)) (k j : Fin n) : Vec × ℝ :=
  if (j, k) ∈ l then (pairForcesThree (A j) (A k)).2 else (pairForcesThree (A k) (A j)).1

lemma sum_oriented (A : Crowd n) (l : List (Fin n × Fin n)) (hd : ∀ p ∈ l, p.1 ≠ p.2)
    (ho : (l.map fun p => s(p.1, p.2)).Nodup) (k : Fin n)
    (hz : ∀ j, j ≠ k → (k, j) ∉ l → (j, k) ∉ l → (pairForcesThree (A k) (A j)).1 = 0) :
    (l.map fun p => effectThree p A).sum k =
      ∑ j ∈ Finset.univ.erase k, orientedEffect A l k j := by
  classical
  have hnd := nodup_of_sym ho
  rw [effect_list_apply, ← List.sum_toFinset _ hnd]
  have h1 : ∑ p ∈ l.toFinset, effectThree p A k = ∑ p : Fin n × Fin n,
      if p ∈ l then effectThree p A k else 0 := by
    rw [← Finset.sum_filter]
    refine Finset.sum_congr ?_ fun _ _ => rfl
    ext p; simp
  rw [h1, Fintype.sum_prod_type]
  have e : ∀ i j : Fin n, (if (i, j) ∈ l then effectThree (i, j) A k else 0) =
      (if i = k then (if (k, j) ∈ l then (pairForcesThree (A k) (A j)).1 else 0) else 0) +
      if j = k then (if (i, k) ∈ l then (pairForcesThree (A i) (A k)).2 else 0) else 0 := by
    intro i j
    by_cases hm : (i, j) ∈ l
    · have hij : i ≠ j := hd _ hm
      rw [if_pos hm]
      unfold effectThree
      simp only [Pi.add_apply, Pi.single_apply]
      by_cases h1 : i = k
      · subst h1
        simp [hm, hij, hij.symm]
      · by_cases h2 : j = k
        · subst h2
          simp [hm, h1, Ne.symm h1]
        · simp [h1, h2, Ne.symm h1, Ne.symm h2]
    · rw [if_neg hm]
      by_cases h1 : i = k
      · subst h1
        by_cases h2 : j = i
        · subst h2; simp [hm]
        · simp [hm, h2]
      · by_cases h2 : j = k
        · subst h2
          simp [hm, h1]
        · simp [h1, h2]
  simp only [e, Finset.sum_add_distrib]
  have e1 : ∑ i : Fin n, ∑ j : Fin n, (if i = k then
      (if (k, j) ∈ l then (pairForcesThree (A k) (A j)).1 else 0) else 0) =
      ∑ j : Fin n, if (k, j) ∈ l then (pairForcesThree (A k) (A j)).1 else 0 := by
    rw [Finset.sum_comm]
    refine Finset.sum_congr rfl fun j _ => ?_
    rw [Finset.sum_ite_eq']
    simp
  have e2 : ∑ i : Fin n, ∑ j : Fin n, (if j = k then
      (if (i, k) ∈ l then (pairForcesThree (A i) (A k)).2 else 0) else 0) =
      ∑ i : Fin n, if (i, k) ∈ l then (pairForcesThree (A i) (A k)).2 else 0 := by
    refine Finset.sum_congr rfl fun i _ => ?_
    rw [Finset.sum_ite_eq']
    simp
  rw [e1, e2, ← Finset.sum_add_distrib]
  have e3 : ∀ j : Fin n, ((if (k, j) ∈ l then (pairForcesThree (A k) (A j)).1 else 0) +
      if (j, k) ∈ l then (pairForcesThree (A j) (A k)).2 else 0) =
      if j ≠ k then orientedEffect A l k j else 0 := by
    intro j
    by_cases hj : j = k
    · subst hj
      have : (j, j) ∉ l := fun h => hd _ h rfl
      simp [this]
    · rw [if_pos hj]
      unfold orientedEffect
      by_cases ha : (j, k) ∈ l
      · have hb : (k, j) ∉ l := by
          intro hb
          have := List.inj_on_of_nodup_map ho ha hb Sym2.eq_swap
          exact hj (Prod.mk.inj this).1
        simp [ha, hb]
      · by_cases hb : (k, j) ∈ l
        · simp [ha, hb]
        · simp [ha, hb, hz j hj hb ha]
  simp only [e3]
  rw [← Finset.sum_filter, show (Finset.univ.filter fun j => j ≠ k) = Finset.univ.erase k from by
    ext j; simp]

/-- The forces and torques of the node `AgentAgentInteractions` on three-circle agents. -/
lemma agentAgent_effects (cellPairs : (Fin n → Vec) → ℝ → List (Fin n × Fin n))
    (A : AgentArray n) (c : ℝ) (hc : 0 < c)
    (hcells : EnumeratesNeighbours (fun i => (A.rows i).position) c
      (cellPairs (fun i => (A.rows i).position) c))
    (hA : A.dtype.kind = .threeCircle) (r : Fin n → ℝ)
    (hr : ∀ i, BodyWithin .threeCircle (A.rows i) (r i))
    (hsize : ∀ i j, i ≠ j → 3 + (r i + r j) ≤ c) :
    ∃ B, agentAgentBlockList cellPairs A c = some B ∧ B.dtype = A.dtype ∧
      ∀ k, B.rows k = { A.rows k with
        force := (A.rows k).force + (∑ j ∈ Finset.univ.erase k, orientedEffect A.rows
          (cellPairs (fun i => (A.rows i).position) c) k j).1
        torque := (A.rows k).torque + (∑ j ∈ Finset.univ.erase k, orientedEffect A.rows
          (cellPairs (fun i => (A.rows i).position) c) k j).2 } := by
  obtain ⟨o, ho⟩ := hcells.complete
  refine ⟨⟨A.dtype, agentAgentThreeCircle A.rows (cellPairs (fun i => (A.rows i).position) c)⟩,
    ?_, rfl, fun k => ?_⟩
  · unfold agentAgentBlockList
    simp [isModel, hA]
  · simp only
    rw [agentAgentThreeCircle_eq]
    unfold applyEffect
    rw [sum_oriented A.rows _ hcells.distinct hcells.once k]
    intro j hj h1 h2
    have hd : ¬ Spec.dist (A.rows k).position (A.rows j).position ≤ c := by
      intro hd
      obtain ⟨h3, h4⟩ := cells_close (o := o) hc hd
      exact (ho k j hj.symm h3 h4).elim h1 h2
    have := congrFun (effectThree_far (hr k) (hr j)
      ((hsize k j hj.symm).trans (not_le.1 hd).le)) k
    unfold effectThree at this
    simpa [Pi.single_apply, hj.symm, hj] using this

end CrowdDynamics
