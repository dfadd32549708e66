import Verif.Proofs.SocialForce
import Verif.Spec.Braking

/-! # Helper lemmas about the direction of the social force -/

namespace CrowdDynamics

open Real

/-- The two forces have the sign of `-g · v`. -/
lemma socialForces_slow {ai aj : Agent} (hi : Spec.Responsive ai) (hj : Spec.Responsive aj)
    {g : Vec} {tau : ℝ} (ht : 0 < tau) :
    ∃ ci cj : ℝ, 0 < ci ∧ 0 < cj ∧
      Spec.inner (socialForces ai aj g tau).1 (ai.velocity - aj.velocity) =
        -(ci * Spec.inner g (ai.velocity - aj.velocity)) ∧
      Spec.inner (socialForces ai aj g tau).2 (aj.velocity - ai.velocity) =
        -(cj * Spec.inner g (ai.velocity - aj.velocity)) := by
  obtain ⟨hmi, hki, h0i⟩ := hi
  obtain ⟨hmj, hkj, h0j⟩ := hj
  obtain ⟨e, he, -, h1⟩ := truncate_smul_pos (c := -ai.mass * ai.kSoc * magnitude tau ai.tau0) g
  obtain ⟨e', he', -, h2⟩ := truncate_smul_pos (c := -aj.mass * aj.kSoc * magnitude tau aj.tau0) g
  have hi := magnitude_pos ht h0i
  have hj := magnitude_pos ht h0j
  refine ⟨e * (ai.mass * ai.kSoc * magnitude tau ai.tau0),
    e' * (aj.mass * aj.kSoc * magnitude tau aj.tau0), by positivity, by positivity, ?_, ?_⟩
  · unfold socialForces
    simp only
    rw [h1]
    simp only [Spec.inner, Prod.smul_fst, Prod.smul_snd, smul_eq_mul]
    ring
  · unfold socialForces
    simp only
    rw [truncate_neg, h2]
    simp only [Spec.inner, Prod.smul_fst, Prod.smul_snd, smul_eq_mul, Prod.fst_neg, Prod.snd_neg,
      Prod.fst_sub, Prod.snd_sub]
    ring

/-- Moving on by one unit of the relative velocity changes the time to the collision by one. -/
lemma gradientCircleCircle_inner (x v : Vec) {d : ℝ} (ha : 0 < dot v v) (hd : 0 < d) :
    Spec.inner (gradientCircleCircle x v (dot v v) (-dot x v) d) v = 1 := by
  have ha' := ha.ne'
  have hd' := hd.ne'
  have : v.1 * v.1 + v.2 * v.2 = dot v v := rfl
  have hx : x.1 * v.1 + x.2 * v.2 = dot x v := rfl
  generalize hA : dot v v = A at *
  generalize hB : dot x v = B at *
  simp only [Spec.inner, gradientCircleCircle]
  field_simp
  linear_combination d * this - A * hx + B * this

/-- The same for the gradient of the three-circle force, with the displaced contact. -/
lemma gradientThreeCircle_inner (x v o y : Vec) {d : ℝ} (ha : 0 < dot v v) (hd : 0 < d)
    (hy : y = x - o) :
    d * Spec.inner (gradientThreeCircle x v o (dot v v) (-dot y v) d) v =
      d - 3 * Spec.inner o v := by
  have ha' := ha.ne'
  have hd' := hd.ne'
  have h1 : v.1 * v.1 + v.2 * v.2 = dot v v := rfl
  have hx : (x.1 - o.1) * v.1 + (x.2 - o.2) * v.2 = dot y v := by rw [hy]; rfl
  generalize hA : dot v v = A at *
  generalize hB : dot y v = B at *
  simp only [Spec.inner, gradientThreeCircle]
  field_simp
  linear_combination d * h1 - A * hx + B * h1

/-- The displacements of the shoulders are those of the code with the opposite sign. -/
lemma circles_eq_offset {a : Agent} (h : Spec.ShouldersAttached a) (p : Fin 3) :
    a.circles p = a.position - contactOffset a p := by
  obtain ⟨h1, h2⟩ := h
  fin_cases p
  · show a.position = a.position - contactOffset a 0
    rw [show contactOffset a 0 = 0 from by simp [contactOffset], sub_zero]
  · simp only [Agent.circles, contactOffset, h1]
    ext <;> simp
  · simp only [Agent.circles, contactOffset, h2]
    ext <;> simp

/-- What the search has found, in terms of the circles. -/
lemma contact_gradient {ai aj : Agent} (hri : ∀ p, 0 ≤ ai.radii p) (hrj : ∀ q, 0 ≤ aj.radii q)
    (hi : Spec.ShouldersAttached ai) (hj : Spec.ShouldersAttached aj) {c : Contact}
    (ha : 0 < dot (ai.velocity - aj.velocity) (ai.velocity - aj.velocity)) (hc : 0 < c.tau)
    (hf : pairs33.foldl (contactStep ai.circles ai.radii aj.circles aj.radii
        (ai.velocity - aj.velocity) (dot (ai.velocity - aj.velocity)
        (ai.velocity - aj.velocity))) none = some c)
    (h : forceSocialThreeCircle ai aj = socialForces ai aj
        (gradientThreeCircle (ai.position - aj.position) (ai.velocity - aj.velocity)
          (contactOffset ai c.i - contactOffset aj c.j)
          (dot (ai.velocity - aj.velocity) (ai.velocity - aj.velocity)) c.b c.d) c.tau) :
    ∃ (p q : Fin 3) (t d : ℝ) (g : Vec), Spec.EarliestContact ai aj p q t ∧ 0 < d ∧
      forceSocialThreeCircle ai aj = socialForces ai aj g t ∧
      d * Spec.inner g (ai.velocity - aj.velocity) = d + 3 * Spec.inner
        ((ai.circles p - ai.position) - (aj.circles q - aj.position))
        (ai.velocity - aj.velocity) := by
  have hinv := contactInv_result ai.circles ai.radii aj.circles aj.radii
    (ai.velocity - aj.velocity) (dot (ai.velocity - aj.velocity) (ai.velocity - aj.velocity))
  rw [hf] at hinv
  obtain ⟨-, e1, -⟩ := hinv
  obtain ⟨hd, -, hb, -⟩ := pairTime_some e1
  refine ⟨c.i, c.j, c.tau, c.d, _, earliest_of_contact hri hrj ha hc hf, hd, h, ?_⟩
  rw [hb, gradientThreeCircle_inner _ _ _ _ ha hd
    (by rw [circles_eq_offset hi, circles_eq_offset hj]; abel),
    circles_eq_offset hi, circles_eq_offset hj]
  simp only [Spec.inner, Prod.fst_sub, Prod.snd_sub]
  ring

/-- If the torsos are on a collision course, the search finds a contact. -/
lemma torsos_contact {ai aj : Agent} (hri : ∀ p, 0 ≤ ai.radii p) (hrj : ∀ q, 0 ≤ aj.radii q)
    (hi : Spec.ShouldersAttached ai) (hj : Spec.ShouldersAttached aj) {s : ℝ} (hs : 0 < s)
    (h1 : Spec.FirstTouch (ai.position - aj.position) (ai.velocity - aj.velocity)
      (ai.rT + aj.rT) s)
    (h2 : Spec.WillOverlap (ai.position - aj.position) (ai.velocity - aj.velocity)
      (ai.rT + aj.rT)) :
    ∃ (p q : Fin 3) (t d : ℝ) (g : Vec), Spec.EarliestContact ai aj p q t ∧ 0 < d ∧
      forceSocialThreeCircle ai aj = socialForces ai aj g t ∧
      d * Spec.inner g (ai.velocity - aj.velocity) = d + 3 * Spec.inner
        ((ai.circles p - ai.position) - (aj.circles q - aj.position))
        (ai.velocity - aj.velocity) := by
  obtain ⟨ha, b, d, e⟩ := pairTime_of_touch (add_nonneg (hri 0) (hrj 0)) hs h1 h2
  obtain ⟨c, hf, hc⟩ := fold_tau_pos_of_first ai.circles ai.radii aj.circles aj.radii
    (ai.velocity - aj.velocity) (dot (ai.velocity - aj.velocity) (ai.velocity - aj.velocity))
    [] [(0,1),(0,2),(1,0),(1,1),(1,2),(2,0),(2,1),(2,2)] (0, 0) (by simp) e hs
  have hf' : pairs33.foldl (contactStep ai.circles ai.radii aj.circles aj.radii
        (ai.velocity - aj.velocity) (dot (ai.velocity - aj.velocity)
        (ai.velocity - aj.velocity))) none = some c := by rw [pairs33_eq]; exact hf
  exact contact_gradient hri hrj hi hj ha hc hf' (threeCircle_of_contact ha hc hf')

/-- A pedestrian who walks to the right; the left shoulder is back. -/
noncomputable def pushedWalker : Agent :=
  { Agent.zero with
    position := (0, 0), velocity := (1, 0), orientation := arccos (4 / 5)
    rT := 3 / 10, rS := 2 / 10, rTs := 1 / 2
    positionLs := (-3 / 10, 4 / 10), positionRs := (3 / 10, -4 / 10)
    mass := 80, kSoc := 3 / 2, tau0 := 3 }

/-- A standing pedestrian whom the walker will graze with the left shoulder. -/
noncomputable def grazedStander : Agent :=
  { Agent.zero with
    position := (2, 8 / 10), rT := 3 / 10, rS := 1 / 10, rTs := 0
    positionLs := (2, 8 / 10), positionRs := (2, 8 / 10)
    mass := 80, kSoc := 3 / 2, tau0 := 3 }

lemma pushed_attached :
    Spec.ShouldersAttached pushedWalker ∧ Spec.ShouldersAttached grazedStander := by
  have hs : sin (arccos (4 / 5)) = 3 / 5 := by
    rw [sin_arccos, Real.sqrt_eq_iff_mul_self_eq (by norm_num) (by norm_num)]; norm_num
  have hc : cos (arccos (4 / 5)) = 4 / 5 := cos_arccos (by norm_num) (by norm_num)
  unfold Spec.ShouldersAttached pushedWalker grazedStander
  simp only [hs, hc]
  norm_num

lemma pushed_radii : (∀ p, 0 ≤ pushedWalker.radii p) ∧ ∀ p, 0 ≤ grazedStander.radii p := by
  constructor <;> intro p <;> fin_cases p <;>
    norm_num [pushedWalker, grazedStander, Agent.radii]

/-- The times of the nine pairs. -/
lemma pushed_times (p q : Fin 3) :
    pairTime (pushedWalker.circles p - grazedStander.circles q)
      (pushedWalker.velocity - grazedStander.velocity)
      (pushedWalker.radii p + grazedStander.radii q)
      (dot (pushedWalker.velocity - grazedStander.velocity)
      (pushedWalker.velocity - grazedStander.velocity)) =
      if (p, q) = (1, 0) then some (2, 23 / 10, 3 / 10) else none := by
  fin_cases p <;> fin_cases q
  · apply pairTime_none
    norm_num [pushedWalker, grazedStander, Agent.zero, Agent.circles, Agent.radii, dot]
  · apply pairTime_none
    norm_num [pushedWalker, grazedStander, Agent.zero, Agent.circles, Agent.radii, dot]
  · apply pairTime_none
    norm_num [pushedWalker, grazedStander, Agent.zero, Agent.circles, Agent.radii, dot]
  · rw [pairTime_of_root (d := 3 / 10) (by norm_num)]
    · norm_num [pushedWalker, grazedStander, Agent.zero, Agent.circles, Agent.radii, dot]
    · norm_num [pushedWalker, grazedStander, Agent.zero, Agent.circles, Agent.radii, dot]
  all_goals
    apply pairTime_none
    norm_num [pushedWalker, grazedStander, Agent.zero, Agent.circles, Agent.radii, dot]

/-- The search finds the contact of the left shoulder in two seconds. -/
lemma pushed_found : pairs33.foldl (contactStep pushedWalker.circles pushedWalker.radii
      grazedStander.circles grazedStander.radii
      (pushedWalker.velocity - grazedStander.velocity)
      (dot (pushedWalker.velocity - grazedStander.velocity)
      (pushedWalker.velocity - grazedStander.velocity))) none =
      some ⟨1, 0, 2, 23 / 10, 3 / 10⟩ := by
  obtain ⟨c, hf, hpos⟩ := fold_tau_pos_of_first pushedWalker.circles pushedWalker.radii
    grazedStander.circles grazedStander.radii
    (pushedWalker.velocity - grazedStander.velocity)
    (dot (pushedWalker.velocity - grazedStander.velocity)
      (pushedWalker.velocity - grazedStander.velocity)) [(0, 0), (0, 1), (0, 2)]
    [(1, 1), (1, 2), (2, 0), (2, 1), (2, 2)] (1, 0)
    (by
      intro q hq
      rw [pushed_times, if_neg]
      intro h
      have h' : q = (1, 0) := h
      rw [h'] at hq
      revert hq
      decide)
    (t := 2) (b := 23 / 10) (d := 3 / 10) (by rw [pushed_times]; simp) (by norm_num)
  have hf' : pairs33.foldl (contactStep pushedWalker.circles pushedWalker.radii
      grazedStander.circles grazedStander.radii
      (pushedWalker.velocity - grazedStander.velocity)
      (dot (pushedWalker.velocity - grazedStander.velocity)
      (pushedWalker.velocity - grazedStander.velocity))) none = some c := by
    rw [pairs33_eq]; exact hf
  have hinv := contactInv_result pushedWalker.circles pushedWalker.radii
    grazedStander.circles grazedStander.radii
    (pushedWalker.velocity - grazedStander.velocity)
    (dot (pushedWalker.velocity - grazedStander.velocity)
      (pushedWalker.velocity - grazedStander.velocity))
  rw [hf'] at hinv ⊢
  obtain ⟨-, h, -⟩ := hinv
  rw [pushed_times] at h
  split_ifs at h with h1
  obtain ⟨ci, cj, ct, cb, cd⟩ := c
  simp only [Prod.mk.injEq, Option.some.injEq] at h h1
  obtain ⟨rfl, rfl, rfl⟩ := h
  obtain ⟨rfl, rfl⟩ := h1
  rfl

lemma pushed_force : ∃ g : Vec, forceSocialThreeCircle pushedWalker grazedStander =
      socialForces pushedWalker grazedStander g 2 ∧
    Spec.inner g (pushedWalker.velocity - grazedStander.velocity) = -2 := by
  have ha : 0 < dot (pushedWalker.velocity - grazedStander.velocity)
      (pushedWalker.velocity - grazedStander.velocity) := by
    norm_num [pushedWalker, grazedStander, Agent.zero, dot]
  have hF := threeCircle_of_contact ha (by norm_num) pushed_found
  have hb : (23 / 10 : ℝ) = -dot (pushedWalker.circles 1 - grazedStander.circles 0)
      (pushedWalker.velocity - grazedStander.velocity) := by
    norm_num [pushedWalker, grazedStander, Agent.zero, Agent.circles, dot]
  have ho : contactOffset pushedWalker 1 - contactOffset grazedStander 0 =
      (pushedWalker.position - pushedWalker.circles 1) -
        (grazedStander.position - grazedStander.circles 0) := by
    rw [circles_eq_offset pushed_attached.1, circles_eq_offset pushed_attached.2]; abel
  have h2 : Spec.inner (contactOffset pushedWalker 1 - contactOffset grazedStander 0)
      (pushedWalker.velocity - grazedStander.velocity) = 3 / 10 := by
    rw [ho]
    norm_num [pushedWalker, grazedStander, Agent.zero, Agent.circles, Spec.inner]
  have hy : pushedWalker.circles 1 - grazedStander.circles 0 =
      pushedWalker.position - grazedStander.position -
        (contactOffset pushedWalker 1 - contactOffset grazedStander 0) := by rw [ho]; abel
  simp only at hF
  rw [hb] at hF
  generalize pushedWalker.circles 1 - grazedStander.circles 0 = y at *
  generalize contactOffset pushedWalker 1 - contactOffset grazedStander 0 = o at *
  have h := gradientThreeCircle_inner (pushedWalker.position - grazedStander.position)
    (pushedWalker.velocity - grazedStander.velocity) o y (d := 3 / 10) ha (by norm_num) hy
  rw [h2] at h
  exact ⟨_, hF, by linarith⟩

end CrowdDynamics
