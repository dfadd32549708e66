import Verif.Proofs.Braking
import Verif.Props.SocialForce
import Verif.Props.PowerLaw

/-! # The social force slows the approach of two pedestrians (C160) -/

namespace CrowdDynamics

open Real

/-- **C160** (full statement): if a collision of two circular agents is ahead, the social forces
slow their approach, and so does every social force of three-circle agents that is not zero. -/
def C160_statement : Prop :=
  (∀ ai aj : Agent, Spec.Responsive ai → Spec.Responsive aj → 0 ≤ ai.radius + aj.radius →
    Spec.CollisionAhead ai aj → Spec.SlowsApproach ai aj (forceSocialCircular ai aj)) ∧
  ∀ ai aj : Agent, Spec.Responsive ai → Spec.Responsive aj →
    Spec.ShouldersAttached ai → Spec.ShouldersAttached aj →
    (∀ p, 0 ≤ ai.radii p) → (∀ q, 0 ≤ aj.radii q) →
    forceSocialThreeCircle ai aj ≠ (0, 0) →
    Spec.SlowsApproach ai aj (forceSocialThreeCircle ai aj)

/-- **C160**, what holds (1): the forces on circular agents slow the approach if a collision is
ahead; otherwise there are no forces. So a collision is ahead exactly if the forces are not
zero. -/
theorem C160_circular_partial (ai aj : Agent) (hi : Spec.Responsive ai) (hj : Spec.Responsive aj)
    (hr : 0 ≤ ai.radius + aj.radius) :
    (Spec.CollisionAhead ai aj → Spec.SlowsApproach ai aj (forceSocialCircular ai aj)) ∧
    (Spec.CollisionAhead ai aj ↔ (forceSocialCircular ai aj).1 ≠ 0) ∧
    (Spec.CollisionAhead ai aj ↔ (forceSocialCircular ai aj).2 ≠ 0) := by
  have key : Spec.CollisionAhead ai aj →
      Spec.SlowsApproach ai aj (forceSocialCircular ai aj) := by
    rintro ⟨h2, t, ht, ht30, h1⟩
    obtain ⟨ha, hD, hpos⟩ := root_of_overlap (apart_of_firstTouch ht h1) hr h2
    have hd := sqrt_pos.2 hD
    have hd2 := sq_sqrt hD.le
    have htt := firstTouch_unique (firstTouch_of_root hr ha hd hd2 rfl hpos).1 h1
    rw [forceSocialCircular_eq, timeToCollision_of_root hd ha hd2 hpos]
    simp only
    rw [if_neg (by rw [htt]; exact not_lt.2 ht30)]
    obtain ⟨ci, cj, hci, hcj, e1, e2⟩ := socialForces_slow hi hj
      (g := gradientCircleCircle (ai.position - aj.position) (ai.velocity - aj.velocity)
        (dot (ai.velocity - aj.velocity) (ai.velocity - aj.velocity))
        (-dot (ai.position - aj.position) (ai.velocity - aj.velocity)) _) hpos
    rw [gradientCircleCircle_inner _ _ ha hd, mul_one] at e1 e2
    exact ⟨by rw [e1]; linarith, by rw [e2]; linarith⟩
  have zero : ¬ Spec.CollisionAhead ai aj → forceSocialCircular ai aj = (0, 0) :=
    C25_zero_without_collision ai aj hr
  have i0 : ∀ v : Vec, Spec.inner 0 v = 0 := fun v => by simp [Spec.inner]
  refine ⟨key, ⟨fun h h0 => ?_, fun h => ?_⟩, fun h h0 => ?_, fun h => ?_⟩
  · have := (key h).1
    rw [h0, i0] at this
    exact lt_irrefl _ this
  · by_contra hc
    rw [zero hc] at h
    exact h rfl
  · have := (key h).2
    rw [h0, i0] at this
    exact lt_irrefl _ this
  · by_contra hc
    rw [zero hc] at h
    exact h rfl

/-- **C160**, what holds (2): the forces on three-circle agents slow the approach if there are
any, or if the torsos are on a collision course, and the parts of the bodies that touch first are
not behind the middle of their bodies. What is missing: the contact of a shoulder that is
behind. -/
theorem C160_parts_ahead_partial (ai aj : Agent) (hi : Spec.Responsive ai)
    (hj : Spec.Responsive aj) (hai : Spec.ShouldersAttached ai) (haj : Spec.ShouldersAttached aj)
    (hri : ∀ p, 0 ≤ ai.radii p) (hrj : ∀ q, 0 ≤ aj.radii q)
    (h : forceSocialThreeCircle ai aj ≠ (0, 0) ∨ ∃ s, 0 < s ∧
      Spec.FirstTouch (ai.position - aj.position) (ai.velocity - aj.velocity) (ai.rT + aj.rT) s ∧
      Spec.WillOverlap (ai.position - aj.position) (ai.velocity - aj.velocity) (ai.rT + aj.rT))
    (hahead : Spec.PartsAhead ai aj) :
    Spec.SlowsApproach ai aj (forceSocialThreeCircle ai aj) := by
  obtain ⟨p, q, t, d, g, he, hd, hF, hg⟩ : ∃ (p q : Fin 3) (t d : ℝ) (g : Vec),
      Spec.EarliestContact ai aj p q t ∧ 0 < d ∧
      forceSocialThreeCircle ai aj = socialForces ai aj g t ∧
      d * Spec.inner g (ai.velocity - aj.velocity) = d + 3 * Spec.inner
        ((ai.circles p - ai.position) - (aj.circles q - aj.position))
        (ai.velocity - aj.velocity) := by
    rcases h with hne | ⟨s, hs, h1, h2⟩
    · rcases threeCircle_cases ai aj with h | ⟨c, ha, hc, hf, h⟩
      · exact absurd h hne
      · exact contact_gradient hri hrj hai haj ha hc hf h
    · exact torsos_contact hri hrj hai haj hs h1 h2
  have h0 := hahead p q t he
  have hgp : 0 < Spec.inner g (ai.velocity - aj.velocity) := by
    have : 0 < d * Spec.inner g (ai.velocity - aj.velocity) := by rw [hg]; linarith
    exact (mul_pos_iff_of_pos_left hd).1 this
  obtain ⟨ci, cj, hci, hcj, e1, e2⟩ := socialForces_slow hi hj (g := g) he.1
  rw [hF]
  refine ⟨?_, ?_⟩
  · rw [e1]; have := mul_pos hci hgp; linarith
  · rw [e2]; have := mul_pos hcj hgp; linarith

/-- **C160** is false: a pedestrian will graze a standing one with the shoulder that is back in
two seconds; the social force pushes the walker forward, towards the collision, and pulls the
standing pedestrian towards the walker. -/
theorem C160_slows_approach_fails : ¬ C160_statement ∧
    0 < Spec.inner (forceSocialThreeCircle pushedWalker grazedStander).1
      (pushedWalker.velocity - grazedStander.velocity) ∧
    0 < Spec.inner (forceSocialThreeCircle pushedWalker grazedStander).2
      (grazedStander.velocity - pushedWalker.velocity) := by
  have hi : Spec.Responsive pushedWalker := by norm_num [Spec.Responsive, pushedWalker]
  have hj : Spec.Responsive grazedStander := by norm_num [Spec.Responsive, grazedStander]
  obtain ⟨g, hF, hg⟩ := pushed_force
  obtain ⟨ci, cj, hci, hcj, e1, e2⟩ := socialForces_slow hi hj (g := g) two_pos
  have p1 : 0 < Spec.inner (forceSocialThreeCircle pushedWalker grazedStander).1
      (pushedWalker.velocity - grazedStander.velocity) := by
    rw [hF, e1, hg]; linarith
  have p2 : 0 < Spec.inner (forceSocialThreeCircle pushedWalker grazedStander).2
      (grazedStander.velocity - pushedWalker.velocity) := by
    rw [hF, e2, hg]; linarith
  refine ⟨fun h => ?_, p1, p2⟩
  have := (h.2 _ _ hi hj pushed_attached.1 pushed_attached.2 pushed_radii.1 pushed_radii.2
    (fun h0 => by rw [h0] at p1; simp [Spec.inner] at p1)).1
  exact lt_asymm this p1

example : Spec.SlowsApproach (exampleWalker (-3, 0) (1, 0)) (exampleWalker (0, 0) (0, 0))
    (forceSocialCircular (exampleWalker (-3, 0) (1, 0)) (exampleWalker (0, 0) (0, 0))) := by
  refine (C160_circular_partial _ _ (by norm_num [Spec.Responsive, exampleWalker])
    (by norm_num [Spec.Responsive, exampleWalker]) (by norm_num [exampleWalker])).1 ?_
  obtain ⟨-, h1, h2⟩ := C24_reported_time_is_first_touch zero_le_one example_ttc
  refine ⟨?_, 2, by norm_num, by norm_num, ?_⟩
  · convert h2 using 1 <;> norm_num [exampleWalker]
  · convert h1 using 1 <;> norm_num [exampleWalker]

/-- Torsos that collide first are never behind the middle of the bodies. -/
example : Spec.SlowsApproach (exampleThree (-3) 1) (exampleThree 0 0)
    (forceSocialThreeCircle (exampleThree (-3) 1) (exampleThree 0 0)) := by
  refine C160_parts_ahead_partial _ _ (by norm_num [Spec.Responsive, exampleThree])
    (by norm_num [Spec.Responsive, exampleThree])
    (by norm_num [Spec.ShouldersAttached, exampleThree])
    (by norm_num [Spec.ShouldersAttached, exampleThree])
    (exampleThree_radii _ _) (exampleThree_radii _ _)
    (.inl (exampleThree_nonzero (s := 1) (by norm_num) (by norm_num) (by norm_num))) ?_
  intro p q t h
  obtain ⟨rfl, rfl, -⟩ := exampleThree_unique (s := 1) (by norm_num) (by norm_num) (by norm_num) h
  simp [Spec.inner, Agent.circles]

end CrowdDynamics
