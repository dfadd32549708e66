import Verif.Proofs.SocialForce

/-! # Properties of the social force (C24-C27, C71, C72) -/

namespace CrowdDynamics

open Real

/-! ## C24: time to collision -/

/-- **C24**: a reported time is positive, it is the first time at which the discs touch, and
the discs properly overlap afterwards. -/
theorem C24_reported_time_is_first_touch {x v : Vec} {r tau : ℝ} {g : Vec} (hr : 0 ≤ r)
    (h : timeToCollisionCircleCircle x v r = some (tau, g)) :
    0 < tau ∧ Spec.FirstTouch x v r tau ∧ Spec.WillOverlap x v r := by
  obtain ⟨d, hd, ha, hd2, ht, hpos, -⟩ := timeToCollision_some h
  exact ⟨hpos, firstTouch_of_root hr ha hd hd2 ht hpos⟩

/-- **C24**: a time is reported exactly for discs that are apart and will properly overlap. -/
theorem C24_reported_iff {x v : Vec} {r : ℝ} (hr : 0 ≤ r) :
    (∃ tau g, timeToCollisionCircleCircle x v r = some (tau, g)) ↔
      r < Spec.len x ∧ Spec.WillOverlap x v r := by
  constructor
  · rintro ⟨tau, g, h⟩
    obtain ⟨hpos, h1, h2⟩ := C24_reported_time_is_first_touch hr h
    exact ⟨apart_of_firstTouch hpos h1, h2⟩
  · rintro ⟨h1, h2⟩
    obtain ⟨ha, hD, hpos⟩ := root_of_overlap h1 hr h2
    exact ⟨_, _, timeToCollision_of_root (sqrt_pos.2 hD) ha (sq_sqrt hD.le) hpos⟩

example : 0 < (2 : ℝ) ∧ Spec.FirstTouch (-3, 0) (1, 0) 1 2 ∧ Spec.WillOverlap (-3, 0) (1, 0) 1 :=
  C24_reported_time_is_first_touch zero_le_one example_ttc

example : (1 : ℝ) < Spec.len (-3, 0) ∧ Spec.WillOverlap (-3, 0) (1, 0) 1 :=
  (C24_reported_iff zero_le_one).1 ⟨_, _, example_ttc⟩

/-! ## C71: the documented gradient of the time to collision -/

/-- **C71** (full statement): the second result of `time_to_collision_circle_circle` is the
gradient of the time to collision with respect to the relative position, as documented. -/
def C71_statement : Prop := ∀ (x v : Vec) (r tau : ℝ) (g : Vec), 0 ≤ r →
  timeToCollisionCircleCircle x v r = some (tau, g) →
  Spec.IsGradientAt (fun y => Spec.touchTime y v r) g x

/-- **C71**, what holds: the returned vector is the gradient with the opposite sign. (The
callers negate once more, so that the forces are correct, see C25.) -/
theorem C71_negated_gradient_partial {x v : Vec} {r tau : ℝ} {g : Vec} (hr : 0 ≤ r)
    (h : timeToCollisionCircleCircle x v r = some (tau, g)) :
    Spec.IsGradientAt (fun y => Spec.touchTime y v r) (-g) x := by
  obtain ⟨d, hd, ha, hd2, ht, hpos, rfl⟩ := timeToCollision_some h
  refine ⟨_, touchTime_hasFDerivAt hr ha hd hd2 (by rw [← ht]; exact hpos), fun u => ?_⟩
  simp [Spec.inner]
  ring

/-- **C71** is false: moving the disc towards the other one shortens the time to collision, but
the returned vector points the other way. -/
theorem C71_gradient_sign_fails : ¬ C71_statement := by
  intro h
  have h1 := h _ _ _ _ _ zero_le_one example_ttc
  have h2 := C71_negated_gradient_partial zero_le_one example_ttc
  have := congrArg Prod.fst (isGradientAt_unique h1 h2)
  norm_num at this

example : Spec.IsGradientAt (fun y => Spec.touchTime y (1, 0) 1) (-(1, 0)) (-3, 0) :=
  C71_negated_gradient_partial zero_le_one example_ttc

/-! ## C25: the force is the gradient of the energy -/

/-- **C25**: if the discs will first touch at a time in `(0, 30]` (and then overlap), the force
on each agent is minus its mass times the gradient of the anticipation energy as a function
of its own position, cut back to length 2000. -/
theorem C25_social_force_is_energy_gradient (ai aj : Agent) {t : ℝ} (_h0i : 0 < ai.tau0)
    (_h0j : 0 < aj.tau0) (hr : 0 ≤ ai.radius + aj.radius) (ht : 0 < t) (ht30 : t ≤ 30)
    (h1 : Spec.FirstTouch (ai.position - aj.position) (ai.velocity - aj.velocity)
      (ai.radius + aj.radius) t)
    (h2 : Spec.WillOverlap (ai.position - aj.position) (ai.velocity - aj.velocity)
      (ai.radius + aj.radius)) :
    ∃ gi gj : Vec,
      Spec.IsGradientAt (fun p => Spec.anticipationEnergy ai.kSoc ai.tau0
        (Spec.touchTime (p - aj.position) (ai.velocity - aj.velocity) (ai.radius + aj.radius)))
        gi ai.position ∧
      Spec.IsGradientAt (fun p => Spec.anticipationEnergy aj.kSoc aj.tau0
        (Spec.touchTime (ai.position - p) (ai.velocity - aj.velocity) (ai.radius + aj.radius)))
        gj aj.position ∧
      Spec.CappedTo 2000 ((-ai.mass) • gi) (forceSocialCircular ai aj).1 ∧
      Spec.CappedTo 2000 ((-aj.mass) • gj) (forceSocialCircular ai aj).2 := by
  obtain ⟨ha, hD, hpos⟩ := root_of_overlap (apart_of_firstTouch ht h1) hr h2
  have hd := sqrt_pos.2 hD
  have hd2 := sq_sqrt hD.le
  have htt := firstTouch_unique (firstTouch_of_root hr ha hd hd2 rfl hpos).1 h1
  refine ⟨_, _, energy_gradient_fst ai.kSoc ai.tau0 hr ha hd hd2 hpos,
    energy_gradient_snd aj.kSoc aj.tau0 hr ha hd hd2 hpos, ?_⟩
  rw [forceSocialCircular_eq, timeToCollision_of_root hd ha hd2 hpos]
  simp only
  rw [if_neg (by rw [htt]; exact not_lt.2 ht30)]
  refine ⟨?_, ?_⟩
  · refine cappedTo_smul ?_
    rw [smul_smul]; congr 1; ring
  · refine cappedTo_smul ?_
    rw [smul_neg, smul_smul]; congr 2; ring

/-- **C25**: `potential` is the anticipation energy, and `magnitude`, with which the forces are
computed, is its slope: the derivative of the potential by the time to collision is `-k` times the
magnitude. The potential is positive and decreases for positive times. -/
theorem C25_potential {k tau tau0 : ℝ} (hk : 0 < k) (h0 : 0 < tau0) (ht : 0 < tau) :
    potential k tau tau0 = Spec.anticipationEnergy k tau0 tau ∧
      HasDerivAt (fun t => potential k t tau0) (-(k * magnitude tau tau0)) tau ∧
      0 < potential k tau tau0 ∧ 0 < magnitude tau tau0 :=
  ⟨rfl, energy_hasDerivAt k tau0 ht.ne', by unfold potential; positivity,
    by unfold magnitude; positivity⟩

example : HasDerivAt (fun t => potential (3 / 2) t 3) (-(3 / 2 * magnitude 2 3)) 2 :=
  (C25_potential (by norm_num) (by norm_num) (by norm_num)).2.1

/-- **C25**: the forces are zero if no disc contact with a later overlap is ahead within 30
seconds. -/
theorem C25_zero_without_collision (ai aj : Agent) (hr : 0 ≤ ai.radius + aj.radius)
    (h : ¬ (Spec.WillOverlap (ai.position - aj.position) (ai.velocity - aj.velocity)
        (ai.radius + aj.radius) ∧
      ∃ t, 0 < t ∧ t ≤ 30 ∧ Spec.FirstTouch (ai.position - aj.position)
        (ai.velocity - aj.velocity) (ai.radius + aj.radius) t)) :
    forceSocialCircular ai aj = (0, 0) := by
  rw [forceSocialCircular_eq]
  cases e : timeToCollisionCircleCircle (ai.position - aj.position) (ai.velocity - aj.velocity)
    (ai.radius + aj.radius) with
  | none => rfl
  | some p =>
    obtain ⟨tau, g⟩ := p
    obtain ⟨hpos, h1, h2⟩ := C24_reported_time_is_first_touch hr e
    simp only
    rw [if_pos]
    by_contra hle
    exact h ⟨h2, tau, hpos, not_lt.1 hle, h1⟩

/-- **C25**: the forces never exceed 2000. -/
theorem C25_force_bounded (ai aj : Agent) :
    Spec.len (forceSocialCircular ai aj).1 ≤ 2000 ∧
      Spec.len (forceSocialCircular ai aj).2 ≤ 2000 := by
  have h0 : Spec.len (0 : Vec) ≤ 2000 := by simp [Spec.len]
  have hp : (0:ℝ) ≤ fSocMax := by norm_num [fSocMax]
  rw [forceSocialCircular_eq]
  cases timeToCollisionCircleCircle (ai.position - aj.position) (ai.velocity - aj.velocity)
    (ai.radius + aj.radius) with
  | none => exact ⟨h0, h0⟩
  | some p =>
    simp only
    split_ifs
    · exact ⟨h0, h0⟩
    · exact ⟨length_truncate_le hp, length_truncate_le hp⟩

example : ∃ gi gj : Vec,
    Spec.IsGradientAt (fun p => Spec.anticipationEnergy (3 / 2) 3
      (Spec.touchTime (p - (0, 0)) ((1, 0) - (0, 0)) (1 / 2 + 1 / 2))) gi (-3, 0) ∧
    Spec.IsGradientAt (fun p => Spec.anticipationEnergy (3 / 2) 3
      (Spec.touchTime ((-3, 0) - p) ((1, 0) - (0, 0)) (1 / 2 + 1 / 2))) gj (0, 0) ∧
    Spec.CappedTo 2000 ((-80 : ℝ) • gi)
      (forceSocialCircular (exampleWalker (-3, 0) (1, 0)) (exampleWalker (0, 0) (0, 0))).1 ∧
    Spec.CappedTo 2000 ((-80 : ℝ) • gj)
      (forceSocialCircular (exampleWalker (-3, 0) (1, 0)) (exampleWalker (0, 0) (0, 0))).2 :=
  C25_social_force_is_energy_gradient (t := 2) (exampleWalker (-3, 0) (1, 0))
    (exampleWalker (0, 0) (0, 0)) (by norm_num [exampleWalker]) (by norm_num [exampleWalker])
    (by norm_num [exampleWalker]) (by norm_num) (by norm_num)
    (by
      have h := (C24_reported_time_is_first_touch zero_le_one example_ttc).2.1
      convert h using 1 <;> norm_num [exampleWalker])
    (by
      have h := (C24_reported_time_is_first_touch zero_le_one example_ttc).2.2
      convert h using 1 <;> norm_num [exampleWalker])

/-- Two agents walking side by side. -/
example : forceSocialCircular (exampleWalker (-3, 0) (1, 0)) (exampleWalker (0, 0) (1, 0)) =
    (0, 0) := by
  refine C25_zero_without_collision _ _ (by norm_num [exampleWalker]) ?_
  rintro ⟨⟨s, _, hs⟩, -⟩
  have e : Spec.len ((-3, 0) : Vec) = 3 := by
    unfold Spec.len
    rw [Real.sqrt_eq_iff_mul_self_eq (by positivity) (by norm_num)]; norm_num
  norm_num [exampleWalker] at hs
  rw [e] at hs
  norm_num at hs

end CrowdDynamics
