import Verif.Proofs.PowerLaw
import Verif.Spec.SocialForce
import Verif.Spec.Placement
import Mathlib.Analysis.SpecialFunctions.Trigonometric.Inverse
import Mathlib.Tactic.FinCases

/-! # Helper lemmas about the three-circle social force and concrete agents -/

namespace CrowdDynamics

open Real
/-- A pedestrian walking to the right (in the direction of the x axis). -/
noncomputable def witnessWalker : Agent :=
  { Agent.zero with
    position := (0, 3), velocity := (1, 0), orientation := arccos (-3 / 5)
    rT := 1, rS := 1, rTs := 5, positionLs := (-4, 0), positionRs := (4, 6)
    mass := 1, kSoc := 1, tau0 := 1 }

/-- A standing pedestrian. -/
noncomputable def witnessStander : Agent :=
  { Agent.zero with
    position := (0, 0), velocity := (0, 0), orientation := arccos (3 / 5)
    rT := 1, rS := 1, rTs := 5, positionLs := (-4, 3), positionRs := (4, -3)
    mass := 1, kSoc := 1, tau0 := 1 }

lemma sin_arccos_three_fifths : sin (arccos (3 / 5)) = 4 / 5 := by
  rw [sin_arccos, Real.sqrt_eq_iff_mul_self_eq (by norm_num) (by norm_num)]; norm_num

lemma sin_arccos_neg_three_fifths : sin (arccos (-3 / 5)) = 4 / 5 := by
  rw [sin_arccos, Real.sqrt_eq_iff_mul_self_eq (by norm_num) (by norm_num)]; norm_num

lemma cos_arccos_three_fifths : cos (arccos (3 / 5)) = 3 / 5 :=
  cos_arccos (by norm_num) (by norm_num)

lemma cos_arccos_neg_three_fifths : cos (arccos (-3 / 5)) = -3 / 5 :=
  cos_arccos (by norm_num) (by norm_num)

/-- The shoulders of the two pedestrians are where they should be. -/
lemma witness_attached :
    Spec.ShouldersAttached witnessWalker ∧ Spec.ShouldersAttached witnessStander := by
  unfold Spec.ShouldersAttached witnessWalker witnessStander
  simp only [sin_arccos_three_fifths, sin_arccos_neg_three_fifths, cos_arccos_three_fifths,
    cos_arccos_neg_three_fifths]
  norm_num

/-- The search for the pair (walker, stander) stops at a contact in the past. -/
lemma witness_stuck : forceSocialThreeCircle witnessWalker witnessStander = (0, 0) := by
  have hf : pairs33.foldl (contactStep witnessWalker.circles witnessWalker.radii
      witnessStander.circles witnessStander.radii
      (witnessWalker.velocity - witnessStander.velocity)
      (dot (witnessWalker.velocity - witnessStander.velocity)
      (witnessWalker.velocity - witnessStander.velocity))) none = some ⟨0, 1, -6, -4, 2⟩ := by
    rw [pairs33_eq, List.foldl_cons, List.foldl_cons]
    have e0 : pairTime (witnessWalker.circles 0 - witnessStander.circles 0)
        (witnessWalker.velocity - witnessStander.velocity)
        (witnessWalker.radii 0 + witnessStander.radii 0)
        (dot (witnessWalker.velocity - witnessStander.velocity)
        (witnessWalker.velocity - witnessStander.velocity)) = none := by
      apply pairTime_none
      norm_num [witnessWalker, witnessStander, Agent.circles, Agent.radii, dot]
    have e1 : pairTime (witnessWalker.circles 0 - witnessStander.circles 1)
        (witnessWalker.velocity - witnessStander.velocity)
        (witnessWalker.radii 0 + witnessStander.radii 1)
        (dot (witnessWalker.velocity - witnessStander.velocity)
        (witnessWalker.velocity - witnessStander.velocity)) = some (-6, -4, 2) := by
      rw [pairTime_of_root (d := 2) (by norm_num)]
      · norm_num [witnessWalker, witnessStander, Agent.circles, Agent.radii, dot]
      · norm_num [witnessWalker, witnessStander, Agent.circles, Agent.radii, dot]
    have s0 := contactStep_eq witnessWalker.circles witnessWalker.radii
      witnessStander.circles witnessStander.radii
      (witnessWalker.velocity - witnessStander.velocity)
      (dot (witnessWalker.velocity - witnessStander.velocity)
      (witnessWalker.velocity - witnessStander.velocity)) none (0, 0)
    rw [e0] at s0
    have s1 := contactStep_eq witnessWalker.circles witnessWalker.radii
      witnessStander.circles witnessStander.radii
      (witnessWalker.velocity - witnessStander.velocity)
      (dot (witnessWalker.velocity - witnessStander.velocity)
      (witnessWalker.velocity - witnessStander.velocity)) none (0, 1)
    rw [e1] at s1
    rw [s0]
    simp only
    rw [s1]
    exact fold_stuck _ _ _ _ _ _ _ _ (by norm_num)
  exact threeCircle_of_stuck (by norm_num) hf

/-- The times of the nine pairs for (stander, walker). -/
lemma witness_times (p q : Fin 3) :
    pairTime (witnessStander.circles p - witnessWalker.circles q)
      (witnessStander.velocity - witnessWalker.velocity)
      (witnessStander.radii p + witnessWalker.radii q)
      (dot (witnessStander.velocity - witnessWalker.velocity)
      (witnessStander.velocity - witnessWalker.velocity)) =
      if (p, q) = (0, 1) then some (2, 4, 2) else
      if (p, q) = (1, 0) then some (-6, -4, 2) else none := by
  fin_cases p <;> fin_cases q
  · apply pairTime_none
    norm_num [witnessWalker, witnessStander, Agent.circles, Agent.radii, dot]
  · rw [pairTime_of_root (d := 2) (by norm_num)]
    · norm_num [witnessWalker, witnessStander, Agent.circles, Agent.radii, dot]
    · norm_num [witnessWalker, witnessStander, Agent.circles, Agent.radii, dot]
  · apply pairTime_none
    norm_num [witnessWalker, witnessStander, Agent.circles, Agent.radii, dot]
  · rw [pairTime_of_root (d := 2) (by norm_num)]
    · norm_num [witnessWalker, witnessStander, Agent.circles, Agent.radii, dot]
    · norm_num [witnessWalker, witnessStander, Agent.circles, Agent.radii, dot]
  all_goals
    apply pairTime_none
    norm_num [witnessWalker, witnessStander, Agent.circles, Agent.radii, dot]

/-- The search for the pair (stander, walker) finds the contact in two seconds. -/
lemma witness_found : pairs33.foldl (contactStep witnessStander.circles witnessStander.radii
      witnessWalker.circles witnessWalker.radii
      (witnessStander.velocity - witnessWalker.velocity)
      (dot (witnessStander.velocity - witnessWalker.velocity)
      (witnessStander.velocity - witnessWalker.velocity))) none = some ⟨0, 1, 2, 4, 2⟩ := by
  obtain ⟨c, hf, hpos⟩ := fold_tau_pos_of_first witnessStander.circles witnessStander.radii
    witnessWalker.circles witnessWalker.radii
    (witnessStander.velocity - witnessWalker.velocity)
    (dot (witnessStander.velocity - witnessWalker.velocity)
      (witnessStander.velocity - witnessWalker.velocity)) [(0, 0)]
    [(0, 2), (1, 0), (1, 1), (1, 2), (2, 0), (2, 1), (2, 2)] (0, 1)
    (by intro q hq; rw [List.mem_singleton.1 hq, witness_times]; simp)
    (t := 2) (b := 4) (d := 2) (by rw [witness_times]; simp) (by norm_num)
  have hf' : pairs33.foldl (contactStep witnessStander.circles witnessStander.radii
      witnessWalker.circles witnessWalker.radii
      (witnessStander.velocity - witnessWalker.velocity)
      (dot (witnessStander.velocity - witnessWalker.velocity)
      (witnessStander.velocity - witnessWalker.velocity))) none = some c := by
    rw [pairs33_eq]; exact hf
  have hinv := contactInv_result witnessStander.circles witnessStander.radii
    witnessWalker.circles witnessWalker.radii
    (witnessStander.velocity - witnessWalker.velocity)
    (dot (witnessStander.velocity - witnessWalker.velocity)
      (witnessStander.velocity - witnessWalker.velocity))
  rw [hf'] at hinv ⊢
  obtain ⟨-, h, -⟩ := hinv
  rw [witness_times] at h
  split_ifs at h with h1 h2
  · obtain ⟨ci, cj, ct, cb, cd⟩ := c
    simp only [Prod.mk.injEq, Option.some.injEq] at h h1
    obtain ⟨rfl, rfl, rfl⟩ := h
    obtain ⟨rfl, rfl⟩ := h1
    rfl
  · simp only [Prod.mk.injEq, Option.some.injEq] at h
    rw [← h.1] at hpos
    norm_num at hpos

lemma witness_force : forceSocialThreeCircle witnessStander witnessWalker =
    socialForces witnessStander witnessWalker (5, 9 / 2) 2 := by
  rw [threeCircle_of_contact (by norm_num [witnessStander, witnessWalker, dot])
    (by norm_num) witness_found]
  congr 1
  have h0 : contactOffset witnessStander 0 = (0, 0) := by simp [contactOffset]
  have h1 : contactOffset witnessWalker 1 = (4, 3) := by
    simp only [contactOffset, if_true]
    simp only [witnessWalker, sin_arccos_neg_three_fifths, cos_arccos_neg_three_fifths]
    norm_num
  rw [h0, h1]
  norm_num [witnessStander, witnessWalker, dot, gradientThreeCircle]

/-- The y component of the force on the standing pedestrian. -/
lemma witness_force_snd : (forceSocialThreeCircle witnessStander witnessWalker).1.2 ≠ 0 := by
  rw [witness_force]
  unfold socialForces
  simp only
  obtain ⟨e, he, -, h⟩ := truncate_smul_pos
    (c := -witnessStander.mass * witnessStander.kSoc * magnitude 2 witnessStander.tau0)
    ((5, 9 / 2) : Vec)
  rw [h]
  have hm : 0 < magnitude 2 witnessStander.tau0 :=
    magnitude_pos (by norm_num) (by norm_num [witnessStander])
  have e1 : witnessStander.mass = 1 := rfl
  have e2 : witnessStander.kSoc = 1 := rfl
  simp only [Prod.smul_snd, smul_eq_mul, e1, e2]
  have := mul_pos he hm
  intro h0
  nlinarith

lemma reactsAt_of {ai aj : Agent} {t : ℝ} (ht : 0 < t) (g : Vec) :
    Spec.ReactsAt ai aj t g (socialForces ai aj g t) := by
  unfold Spec.ReactsAt socialForces
  have ei := (energy_hasDerivAt ai.kSoc ai.tau0 ht.ne').deriv
  have ej := (energy_hasDerivAt aj.kSoc aj.tau0 ht.ne').deriv
  constructor
  · refine cappedTo_smul ?_
    congr 1
    show ai.mass * deriv (fun t => Spec.anticipationEnergy ai.kSoc ai.tau0 t) t = _
    rw [ei]; ring
  · refine cappedTo_smul ?_
    congr 2
    show aj.mass * deriv (fun t => Spec.anticipationEnergy aj.kSoc aj.tau0 t) t = _
    rw [ej]; ring

/-- The contact found by the search is the earliest one. -/
lemma earliest_of_contact {ai aj : Agent} (hri : ∀ p, 0 ≤ ai.radii p) (hrj : ∀ q, 0 ≤ aj.radii q)
    {c : Contact} (ha : 0 < dot (ai.velocity - aj.velocity) (ai.velocity - aj.velocity))
    (hc : 0 < c.tau)
    (hf : pairs33.foldl (contactStep ai.circles ai.radii aj.circles aj.radii
        (ai.velocity - aj.velocity) (dot (ai.velocity - aj.velocity)
        (ai.velocity - aj.velocity))) none = some c) :
    Spec.EarliestContact ai aj c.i c.j c.tau := by
  have hinv := contactInv_result ai.circles ai.radii aj.circles aj.radii
    (ai.velocity - aj.velocity) (dot (ai.velocity - aj.velocity) (ai.velocity - aj.velocity))
  rw [hf] at hinv
  obtain ⟨-, e1, e2⟩ := hinv
  obtain ⟨t1, t2⟩ := pairTime_touch (add_nonneg (hri _) (hrj _)) ha e1 hc
  refine ⟨hc, t1, t2, fun p' q' t' ht' h1 h2 => ?_⟩
  obtain ⟨-, b, d, e⟩ := pairTime_of_touch (add_nonneg (hri _) (hrj _)) ht' h1 h2
  exact e2 (p', q') (mem_pairs33 _) t' b d e ht' hc

lemma witness_radii : (∀ p, 0 ≤ witnessWalker.radii p) ∧ ∀ p, 0 ≤ witnessStander.radii p := by
  constructor <;> intro p <;> fin_cases p <;>
    norm_num [witnessWalker, witnessStander, Agent.radii]

lemma witness_earliest : Spec.EarliestContact witnessStander witnessWalker 0 1 2 :=
  earliest_of_contact (c := ⟨0, 1, 2, 4, 2⟩) witness_radii.2 witness_radii.1
    (by norm_num [witnessStander, witnessWalker, dot]) (by norm_num) witness_found

/-- The contact seen from the walker. -/
lemma firstTouch_neg {x v : Vec} {r t : ℝ} (h : Spec.FirstTouch (-x) (-v) r t) :
    Spec.FirstTouch x v r t := by
  have e : ∀ s : ℝ, Spec.len (-x + s • -v) = Spec.len (x + s • v) := by
    intro s
    rw [← length_eq, ← length_eq, ← length_neg (x + s • v)]
    congr 1
    rw [smul_neg, neg_add]
  obtain ⟨h0, h1, h2⟩ := h
  exact ⟨h0, by rw [← e]; exact h1, fun s hs hst => by rw [← e]; exact h2 s hs hst⟩

lemma willOverlap_neg {x v : Vec} {r : ℝ} (h : Spec.WillOverlap (-x) (-v) r) :
    Spec.WillOverlap x v r := by
  obtain ⟨s, hs, h⟩ := h
  refine ⟨s, hs, ?_⟩
  rw [← length_eq, ← length_neg]
  have e : -(x + s • v) = -x + s • -v := by rw [smul_neg, neg_add]
  rw [e]
  exact h

lemma earliestContact_swap {ai aj : Agent} {p q : Fin 3} {t : ℝ}
    (h : Spec.EarliestContact ai aj p q t) : Spec.EarliestContact aj ai q p t := by
  obtain ⟨ht, h1, h2, h3⟩ := h
  refine ⟨ht, ?_, ?_, fun p' q' t' ht' h1' h2' => h3 q' p' t' ht' ?_ ?_⟩
  · apply firstTouch_neg; rwa [neg_sub, neg_sub, add_comm]
  · apply willOverlap_neg; rwa [neg_sub, neg_sub, add_comm]
  · apply firstTouch_neg; rwa [neg_sub, neg_sub, add_comm]
  · apply willOverlap_neg; rwa [neg_sub, neg_sub, add_comm]

/-- The nonzero force comes from the only earliest pair. -/
lemma contact_of_unique {ai aj : Agent} {p q : Fin 3} {t : ℝ}
    (hri : ∀ p, 0 ≤ ai.radii p) (hrj : ∀ q, 0 ≤ aj.radii q)
    (h : Spec.EarliestContact ai aj p q t)
    (hu : ∀ p' q', Spec.EarliestContact ai aj p' q' t → p' = p ∧ q' = q)
    (hne : forceSocialThreeCircle ai aj ≠ (0, 0)) :
    ∃ d, 0 < dot (ai.velocity - aj.velocity) (ai.velocity - aj.velocity) ∧ 0 < d ∧
      d ^ 2 = (-dot (ai.circles p - aj.circles q) (ai.velocity - aj.velocity)) ^ 2 -
        dot (ai.velocity - aj.velocity) (ai.velocity - aj.velocity) *
        (dot (ai.circles p - aj.circles q) (ai.circles p - aj.circles q) -
          (ai.radii p + aj.radii q) ^ 2) ∧
      t = (-dot (ai.circles p - aj.circles q) (ai.velocity - aj.velocity) - d) /
        dot (ai.velocity - aj.velocity) (ai.velocity - aj.velocity) ∧
      forceSocialThreeCircle ai aj = socialForces ai aj
        (gradientThreeCircle (ai.position - aj.position) (ai.velocity - aj.velocity)
          (contactOffset ai p - contactOffset aj q)
          (dot (ai.velocity - aj.velocity) (ai.velocity - aj.velocity))
          (-dot (ai.circles p - aj.circles q) (ai.velocity - aj.velocity)) d) t := by
  rcases threeCircle_cases ai aj with h' | ⟨c, ha, hc, hf, h'⟩
  · exact absurd h' hne
  have he := earliest_of_contact hri hrj ha hc hf
  have ht : c.tau = t := le_antisymm (he.2.2.2 p q t h.1 h.2.1 h.2.2.1)
    (h.2.2.2 _ _ _ he.1 he.2.1 he.2.2.1)
  obtain ⟨h1, h2⟩ := hu c.i c.j (by rw [← ht]; exact he)
  have hinv := contactInv_result ai.circles ai.radii aj.circles aj.radii
    (ai.velocity - aj.velocity) (dot (ai.velocity - aj.velocity) (ai.velocity - aj.velocity))
  rw [hf] at hinv
  obtain ⟨-, e1, -⟩ := hinv
  obtain ⟨hd, hd2, hb, htau⟩ := pairTime_some e1
  rw [h1, h2] at hd2 hb htau h'
  exact ⟨c.d, ha, hd, hd2, by rw [← ht]; exact htau, by rw [h', hb, ht]⟩

lemma pairEnergy_gradient {ai aj : Agent} {p q : Fin 3} {d : ℝ}
    (hr : 0 ≤ ai.radii p + aj.radii q)
    (ha : 0 < dot (ai.velocity - aj.velocity) (ai.velocity - aj.velocity)) (hd : 0 < d)
    (hd2 : d ^ 2 = (-dot (ai.circles p - aj.circles q) (ai.velocity - aj.velocity)) ^ 2 -
        dot (ai.velocity - aj.velocity) (ai.velocity - aj.velocity) *
        (dot (ai.circles p - aj.circles q) (ai.circles p - aj.circles q) -
          (ai.radii p + aj.radii q) ^ 2))
    (hpos : 0 < (-dot (ai.circles p - aj.circles q) (ai.velocity - aj.velocity) - d) /
        dot (ai.velocity - aj.velocity) (ai.velocity - aj.velocity)) :
    Spec.IsGradientAt (Spec.pairEnergy ai aj p q)
      ((ai.kSoc * magnitude ((-dot (ai.circles p - aj.circles q) (ai.velocity - aj.velocity) - d) /
        dot (ai.velocity - aj.velocity) (ai.velocity - aj.velocity)) ai.tau0) •
      gradientCircleCircle (ai.circles p - aj.circles q) (ai.velocity - aj.velocity)
        (dot (ai.velocity - aj.velocity) (ai.velocity - aj.velocity))
        (-dot (ai.circles p - aj.circles q) (ai.velocity - aj.velocity)) d) ai.position := by
  have e : ai.circles p - aj.circles q =
      ai.position - (ai.position - ai.circles p + aj.circles q) := by
    rw [sub_add_eq_sub_sub, sub_sub_cancel]
  rw [e] at hd2 hpos ⊢
  exact energy_gradient_fst ai.kSoc ai.tau0 hr ha hd hd2 hpos

/-- Two unit speed discs of total radius 1 that are 3 apart touch after 2 seconds. -/
lemma example_ttc : timeToCollisionCircleCircle (-3, 0) (1, 0) 1 = some (2, (1, 0)) := by
  have h := timeToCollision_of_root (x := (-3, 0)) (v := (1, 0)) (r := 1) (d := 1) one_pos
    (by norm_num [dot]) (by norm_num [dot]) (by norm_num [dot])
  rw [h]
  norm_num [dot, gradientCircleCircle]

/-- An agent used in the examples. -/
noncomputable def exampleWalker (p v : Vec) : Agent :=
  { Agent.zero with
    position := p, velocity := v, radius := 1 / 2, mass := 80, kSoc := 3 / 2, tau0 := 3 }

/-- An agent that looks and walks along the x axis. -/
noncomputable def exampleThree (x vx : ℝ) : Agent :=
  { Agent.zero with
    position := (x, 0), velocity := (vx, 0), orientation := 0
    rT := 1 / 2, rS := 1 / 4, rTs := 1 / 2
    positionLs := (x, 1 / 2), positionRs := (x, -1 / 2)
    mass := 80, kSoc := 3 / 2, tau0 := 3 }

lemma exampleThree_radii (x vx : ℝ) (p : Fin 3) : 0 ≤ (exampleThree x vx).radii p := by
  fin_cases p <;> norm_num [exampleThree, Agent.radii]

lemma exampleThree_velocity (x vx y vy : ℝ) :
    (exampleThree x vx).velocity - (exampleThree y vy).velocity = (vx - vy, 0) := by
  norm_num [exampleThree]

lemma exampleThree_circles (x vx y vy : ℝ) (p q : Fin 3) :
    ((exampleThree x vx).circles p - (exampleThree y vy).circles q).1 = x - y := by
  fin_cases p <;> fin_cases q <;> simp [exampleThree, Agent.circles]

lemma exampleThree_sum (x vx y vy : ℝ) (p q : Fin 3) :
    (exampleThree x vx).radii p + (exampleThree y vy).radii q ≤ 1 ∧
      ((exampleThree x vx).radii p + (exampleThree y vy).radii q = 1 → p = 0 ∧ q = 0) := by
  fin_cases p <;> fin_cases q <;> norm_num [exampleThree, Agent.radii]

/-- Two such agents 3 apart that approach with speed 1 touch after 2 seconds. -/
lemma exampleThree_root {x vx y vy s : ℝ} (hs : s ^ 2 = 1) (hx : x - y = -3 * s)
    (hv : vx - vy = s) :
    pairTime ((exampleThree x vx).circles 0 - (exampleThree y vy).circles 0)
      ((exampleThree x vx).velocity - (exampleThree y vy).velocity)
      ((exampleThree x vx).radii 0 + (exampleThree y vy).radii 0)
      (dot ((exampleThree x vx).velocity - (exampleThree y vy).velocity)
        ((exampleThree x vx).velocity - (exampleThree y vy).velocity)) = some (2, 3, 1) := by
  have e1 : (exampleThree x vx).circles 0 - (exampleThree y vy).circles 0 = (-3 * s, 0) := by
    simp [exampleThree, Agent.circles, ← hx]
  have e2 : (exampleThree x vx).radii 0 + (exampleThree y vy).radii 0 = 1 := by
    norm_num [exampleThree, Agent.radii]
  rw [exampleThree_velocity, e1, e2, hv]
  have d1 : dot ((s, 0) : Vec) (s, 0) = 1 := by simp [dot]; nlinarith
  have d2 : dot ((-3 * s, 0) : Vec) (s, 0) = -3 := by simp [dot]; nlinarith
  have d3 : dot ((-3 * s, 0) : Vec) (-3 * s, 0) = 9 := by simp [dot]; nlinarith
  rw [pairTime_of_root (d := 1) one_pos (by rw [d1, d2, d3]; norm_num), d1, d2]
  norm_num

lemma exampleThree_a {x vx y vy s : ℝ} (hs : s ^ 2 = 1) (hv : vx - vy = s) :
    dot ((exampleThree x vx).velocity - (exampleThree y vy).velocity)
        ((exampleThree x vx).velocity - (exampleThree y vy).velocity) = 1 := by
  rw [exampleThree_velocity, hv]
  simp [dot]; nlinarith

/-- No circles touch before, and only the torsos touch at time 2. -/
lemma exampleThree_late {x vx y vy s : ℝ} (hs : s ^ 2 = 1) (hx : x - y = -3 * s)
    (hv : vx - vy = s) {p q : Fin 3} {t : ℝ}
    (h : Spec.FirstTouch ((exampleThree x vx).circles p - (exampleThree y vy).circles q)
      ((exampleThree x vx).velocity - (exampleThree y vy).velocity)
      ((exampleThree x vx).radii p + (exampleThree y vy).radii q) t) :
    2 ≤ t ∧ (t = 2 → p = 0 ∧ q = 0) := by
  have h1 := h.2.1
  have hle := abs_fst_le_length ((exampleThree x vx).circles p - (exampleThree y vy).circles q +
    t • ((exampleThree x vx).velocity - (exampleThree y vy).velocity))
  rw [length_eq, h1, Prod.fst_add, exampleThree_circles, exampleThree_velocity] at hle
  simp only [Prod.smul_fst, smul_eq_mul, hx, hv] at hle
  obtain ⟨hs1, hs2⟩ := exampleThree_sum x vx y vy p q
  have ha : |-3 * s + t * s| = |t - 3| := by
    rw [show -3 * s + t * s = (t - 3) * s by ring, abs_mul]
    have : |s| = 1 := by
      rw [← sq_eq_sq₀ (abs_nonneg s) zero_le_one, sq_abs, hs, one_pow]
    rw [this, mul_one]
  rw [ha] at hle
  have h3 := (abs_le.1 (hle.trans hs1)).1
  refine ⟨by linarith, fun e => hs2 (le_antisymm hs1 ?_)⟩
  rw [e] at hle
  norm_num at hle
  exact hle

lemma exampleThree_earliest {x vx y vy s : ℝ} (hs : s ^ 2 = 1) (hx : x - y = -3 * s)
    (hv : vx - vy = s) : Spec.EarliestContact (exampleThree x vx) (exampleThree y vy) 0 0 2 := by
  obtain ⟨h1, h2⟩ := pairTime_touch
    (add_nonneg (exampleThree_radii x vx 0) (exampleThree_radii y vy 0))
    (by rw [exampleThree_a hs hv]; exact one_pos) (exampleThree_root hs hx hv) two_pos
  exact ⟨two_pos, h1, h2, fun p q t _ h _ => (exampleThree_late hs hx hv h).1⟩

lemma exampleThree_unique {x vx y vy s : ℝ} (hs : s ^ 2 = 1) (hx : x - y = -3 * s)
    (hv : vx - vy = s) {p q : Fin 3} {t : ℝ}
    (h : Spec.EarliestContact (exampleThree x vx) (exampleThree y vy) p q t) :
    p = 0 ∧ q = 0 ∧ t = 2 := by
  have h0 := exampleThree_earliest hs hx hv
  have h1 := h.2.2.2 0 0 2 two_pos h0.2.1 h0.2.2.1
  obtain ⟨h2, h3⟩ := exampleThree_late hs hx hv h.2.1
  have e := le_antisymm h1 h2
  exact ⟨(h3 e).1, (h3 e).2, e⟩

lemma exampleThree_nonzero {x vx y vy s : ℝ} (hs : s ^ 2 = 1) (hx : x - y = -3 * s)
    (hv : vx - vy = s) :
    forceSocialThreeCircle (exampleThree x vx) (exampleThree y vy) ≠ (0, 0) := by
  have ha : 0 < dot ((exampleThree x vx).velocity - (exampleThree y vy).velocity)
      ((exampleThree x vx).velocity - (exampleThree y vy).velocity) := by
    rw [exampleThree_a hs hv]; exact one_pos
  obtain ⟨c, hf, hc⟩ := fold_tau_pos_of_first (exampleThree x vx).circles
    (exampleThree x vx).radii (exampleThree y vy).circles (exampleThree y vy).radii _ _
    [] [(0,1),(0,2),(1,0),(1,1),(1,2),(2,0),(2,1),(2,2)] (0, 0) (by simp)
    (exampleThree_root hs hx hv) two_pos
  rw [List.nil_append, ← pairs33_eq] at hf
  obtain ⟨h1, h2, h3⟩ := exampleThree_unique hs hx hv
    (earliest_of_contact (exampleThree_radii x vx) (exampleThree_radii y vy) ha hc hf)
  have hinv := contactInv_result (exampleThree x vx).circles
    (exampleThree x vx).radii (exampleThree y vy).circles (exampleThree y vy).radii
    ((exampleThree x vx).velocity - (exampleThree y vy).velocity)
    (dot ((exampleThree x vx).velocity - (exampleThree y vy).velocity)
      ((exampleThree x vx).velocity - (exampleThree y vy).velocity))
  rw [hf] at hinv
  obtain ⟨-, e, -⟩ := hinv
  rw [h1, h2, exampleThree_root hs hx hv] at e
  simp only [Option.some.injEq, Prod.mk.injEq] at e
  have h0 : ∀ a : Agent, contactOffset a 0 = 0 := by intro a; simp [contactOffset]
  rw [threeCircle_of_contact ha hc hf, h1, h2, ← e.1, ← e.2.1, ← e.2.2, h0, h0, sub_zero,
    gradientThreeCircle_zero, exampleThree_a hs hv, exampleThree_velocity, hv]
  have e1 : (exampleThree x vx).position - (exampleThree y vy).position = (-3 * s, 0) := by
    simp [exampleThree, ← hx]
  rw [e1]
  unfold socialForces
  obtain ⟨k, hk, -, hkk⟩ := truncate_smul_pos (c := -(exampleThree x vx).mass *
    (exampleThree x vx).kSoc * magnitude 2 (exampleThree x vx).tau0)
    (gradientCircleCircle (-3 * s, 0) (s, 0) 1 3 1)
  simp only
  rw [hkk]
  intro h
  have hm : 0 < magnitude 2 (exampleThree x vx).tau0 :=
    magnitude_pos two_pos (by norm_num [exampleThree])
  have h' := congrArg (fun f : Vec × Vec => f.1.1) h
  simp only [gradientCircleCircle, Prod.smul_fst, smul_eq_mul, Prod.fst_zero] at h'
  have e2 : (exampleThree x vx).mass = 80 := rfl
  have e3 : (exampleThree x vx).kSoc = 3 / 2 := rfl
  rw [e2, e3] at h'
  have hs0 : s ≠ 0 := by rintro rfl; norm_num at hs
  have : k * magnitude 2 (exampleThree x vx).tau0 * s = 0 := by linarith
  rcases mul_eq_zero.1 this with h | h
  · exact absurd h (mul_pos hk hm).ne'
  · exact hs0 h

end CrowdDynamics
